{"id": "C01", "title": "Fragment wire format round trip", "statement": "Packing a fragment always produces exactly 21 + len(data) bytes, and unpacking those bytes, whatever bytes follow them in the buffer, gives back the same object id, fragment id, data and end flag, with the start flag set exactly when the fragment id is 0.", "quantifier": "every object id and fragment id below 2^64, every data string shorter than 2^32 bytes, both end flags, every trailing byte string", "why_tests_cant": "The id and length spaces are astronomically large; tests only try a few values.", "anchors": ["src/psrpcore/_payload.py:create_fragment", "src/psrpcore/_payload.py:unpack_fragment"]}
{"id": "C02", "title": "Message wire format round trip", "statement": "Packing a PSRP message and unpacking it gives back the destination, message type, runspace pool id, pipeline id (a missing pipeline id comes back missing) and payload. It holds when the payload does not begin with a UTF-8 byte order mark and the pipeline id is not the all-zero id; for those two inputs the decoder deliberately drops the mark / reports no pipeline.", "quantifier": "every direction, message type, pair of 128-bit ids and payload", "why_tests_cant": "All ids and payloads cannot be enumerated; the byte permutation of the .NET guid form hides in the tested examples.", "anchors": ["src/psrpcore/_payload.py:create_message", "src/psrpcore/_payload.py:unpack_message"]}
{"id": "C03", "title": "Payload never exceeds the requested amount", "statement": "data_to_send(amount) with amount of at least 22 returns at most amount bytes; with a smaller amount it raises ValueError and leaves the queue untouched.", "quantifier": "every queue of pending messages and every amount", "why_tests_cant": "The size depends on the arithmetic over every combination of remaining message lengths and amount.", "anchors": ["src/psrpcore/_base.py:RunspacePool.data_to_send"]}
{"id": "C04", "title": "Transport is a reliable FIFO", "statement": "Whatever messages are queued, however data_to_send is scheduled (any amounts, any interleaving with queueing), and whenever the peer calls receive_data and next_event, the peer takes out exactly the queued messages, each once, in order and byte for byte, and never raises a transport error; after everything is flushed and delivered nothing is left over.", "quantifier": "every finite interleaving of queue / data_to_send(amount) / receive_data / next_event steps", "why_tests_cant": "The number of schedules and fragment boundaries is unbounded.", "anchors": ["src/psrpcore/_base.py:RunspacePool.data_to_send", "src/psrpcore/_base.py:RunspacePool.receive_data", "src/psrpcore/_base.py:RunspacePool.next_event", "src/psrpcore/_payload.py:PSRPMessage.fragment"]}
{"id": "C05", "title": "data_to_send makes progress", "statement": "data_to_send returns None only when nothing is queued; otherwise every call sends at least one byte of the oldest queued message, so repeated calls with any legal amounts drain the queue in a bounded number of calls.", "quantifier": "every non-empty queue and every infinite sequence of legal amounts", "why_tests_cant": "Termination for all schedules cannot be observed by finite runs.", "anchors": ["src/psrpcore/_base.py:RunspacePool.data_to_send", "src/psrpcore/_payload.py:PSRPMessage.fragment"]}
{"id": "C06", "title": "One payload targets one pipeline", "statement": "All fragments in a payload returned by data_to_send belong to messages addressed to the payload's pipeline_id (or all to the pool when it is None).", "quantifier": "every queue mixing pool and pipeline messages, every amount", "why_tests_cant": "Depends on every mix of targets in the queue.", "anchors": ["src/psrpcore/_base.py:RunspacePool.data_to_send"]}
{"id": "C07", "title": "Payload stream type describes its content", "statement": "The stream_type of a payload returned by data_to_send is the stream type of every message fragment it contains.", "quantifier": "every queue mixing default and prompt_response messages, every amount", "why_tests_cant": "Needs a queue mixing streams for the same target; the combination space is unbounded.", "anchors": ["src/psrpcore/_base.py:RunspacePool.data_to_send", "src/psrpcore/_payload.py:StreamType"]}
{"id": "C08", "title": "Reassembly under any interleaving", "statement": "If a peer interleaves the fragments of different messages (distinct object ids) arbitrarily, keeping each message's own fragments in order, the receiver completes exactly those messages, with the exact bytes, in the order their last fragments arrive, and keeps the unfinished ones pending.", "quantifier": "every set of messages, every cut of each into fragments, every interleaving", "why_tests_cant": "Interleavings grow factorially.", "anchors": ["src/psrpcore/_base.py:RunspacePool.next_event"]}
{"id": "C09", "title": "Out of sequence fragments are rejected", "statement": "A fragment whose fragment id is not the next one expected for its object id makes next_event raise PSRPCoreError; the bad fragment's data never becomes part of a message.", "quantifier": "every receiver state and every fragment", "why_tests_cant": "Requires all states of the reassembly table.", "anchors": ["src/psrpcore/_base.py:RunspacePool.next_event"]}
{"id": "C10", "title": "Arrival chunking does not matter", "statement": "How the byte stream is split over receive_data calls does not change the events: next_event returns None until enough data has arrived.", "quantifier": "every byte stream and every way of cutting it into receive_data calls with next_event between them", "why_tests_cant": "All split points of all streams.", "anchors": ["src/psrpcore/_base.py:RunspacePool.receive_data", "src/psrpcore/_base.py:RunspacePool.next_event", "src/psrpcore/_payload.py:unpack_fragment"]}
{"id": "C11", "title": "Object ids are unique and increasing", "statement": "Every message queued by a pool gets an object id strictly greater than every one queued before.", "quantifier": "every history of API calls and received messages of a client or a server pool", "why_tests_cant": "Histories are unbounded.", "anchors": ["src/psrpcore/_base.py:RunspacePool.prepare_message", "src/psrpcore/_base.py:RunspacePool._fragment_counter", "src/psrpcore/_server.py:ServerRunspacePool.connect"]}
{"id": "C12", "title": "Runspace pool state guards", "statement": "Every client and server pool operation either is allowed in the current state (and then moves to exactly the documented state) or raises InvalidRunspacePoolState and changes nothing observable: no message queued, no counter or table changed.", "quantifier": "every pool state and every operation", "why_tests_cant": "Needs every operation in every reachable state and the absence of any side effect.", "anchors": ["src/psrpcore/_base.py:RunspacePool.close", "src/psrpcore/_base.py:RunspacePool.disconnect", "src/psrpcore/_base.py:RunspacePool.reconnect", "src/psrpcore/_client.py:ClientRunspacePool", "src/psrpcore/_server.py:ServerRunspacePool"]}
{"id": "C13", "title": "A pool with live pipelines cannot be closed", "statement": "close() on a pool raises PSRPCoreError as long as some pipeline created on it has not been closed, and in states Opened/Closing/Closed succeeds once all have been.", "quantifier": "every history of pipeline creation, running and closing", "why_tests_cant": "Unbounded histories.", "anchors": ["src/psrpcore/_base.py:RunspacePool.close", "src/psrpcore/_base.py:Pipeline.close", "src/psrpcore/_base.py:Pipeline.__init__"]}
{"id": "C14", "title": "Pipeline data only flows while running", "statement": "Pipeline input, end of input, host responses, output records and pipeline host calls are accepted exactly when the pipeline is Running; otherwise InvalidPipelineState is raised and nothing is queued.", "quantifier": "every history of a pipeline, every operation", "why_tests_cant": "All histories and all operations in all states.", "anchors": ["src/psrpcore/_client.py:_ClientPipeline", "src/psrpcore/_server.py:ServerPipeline"]}
{"id": "C15", "title": "Call ids are never reused", "statement": "Every call id returned by a client pool (or a server pool between connects) is different from all earlier ones, and is positive so it can never collide with the void marker -100.", "quantifier": "every history of API calls", "why_tests_cant": "Unbounded histories.", "anchors": ["src/psrpcore/_base.py:RunspacePool._ci_counter", "src/psrpcore/_client.py:ClientRunspacePool", "src/psrpcore/_server.py:ServerRunspacePool.host_call"]}
{"id": "C16", "title": "A host call is answered at most once", "statement": "A client can answer a host call only after it was received, at most once, and never a void call; a response that fails to serialize leaves the call answerable. The response goes to the pipeline (or pool) the call came from, on the prompt_response stream.", "quantifier": "every history of host calls and responses", "why_tests_cant": "Unbounded histories with failures in between.", "anchors": ["src/psrpcore/_client.py:ClientRunspacePool.host_response", "src/psrpcore/_client.py:ClientRunspacePool._process_PipelineHostCall", "src/psrpcore/_server.py:ServerRunspacePool.host_call"]}
{"id": "C17", "title": "Runspace limits change only by agreement", "statement": "After opening, a client's min/max runspaces change only when the server's positive response to the matching request arrives (or on connect data); a server's limits change only when it answers True. With a psrpcore client and server and both queues drained, both report the same limits.", "quantifier": "every interleaving of requests, responses and deliveries between one client and one server", "why_tests_cant": "All interleavings with several requests in flight.", "anchors": ["src/psrpcore/_client.py:ClientRunspacePool.set_max_runspaces", "src/psrpcore/_client.py:ClientRunspacePool._set_runspaces_handler", "src/psrpcore/_server.py:ServerRunspacePool.runspace_availability_response"]}
{"id": "C18", "title": "Every availability request is answered at most once and never with an unknown id", "statement": "With a psrpcore client and server connected by reliable queues, each runspace availability request (get / set min / set max / reset) gets at most one response, every response the client receives matches one of its outstanding requests, and an outstanding request is always still somewhere: in flight, waiting at the server, or on its way back.", "quantifier": "every interleaving of client calls, server calls and deliveries", "why_tests_cant": "Unbounded concurrent histories.", "anchors": ["src/psrpcore/_client.py:ClientRunspacePool._process_RunspaceAvailability", "src/psrpcore/_server.py:ServerRunspacePool.runspace_availability_response"]}
{"id": "C19", "title": "Protocol version gates", "statement": "reset_runspace_state and write_information are refused with InvalidProtocolVersion (queueing nothing and consuming no call id) whenever the peer's protocol version is below 2.3 or not yet known, and are not refused for that reason otherwise.", "quantifier": "every peer version and state", "why_tests_cant": "All versions, all states.", "anchors": ["src/psrpcore/_client.py:ClientRunspacePool.reset_runspace_state", "src/psrpcore/_server.py:ServerPipeline.write_information"]}
{"id": "C20", "title": "Key exchange happens at most once", "statement": "A client queues at most one public key message in its life, a server pool at most one key request; the client gets a usable cipher only by receiving the server's session key, and then both sides hold the same key.", "quantifier": "every history of exchange_key / request_key / deliveries, every key pair", "why_tests_cant": "Unbounded histories; keys are random.", "anchors": ["src/psrpcore/_client.py:ClientRunspacePool.exchange_key", "src/psrpcore/_server.py:ServerRunspacePool.request_key", "src/psrpcore/_server.py:ServerRunspacePool._process_PublicKey", "src/psrpcore/_crypto.py"]}
{"id": "C21", "title": "Opening handshake", "statement": "After client.open() and delivery of all queued messages both ways, both pools are Opened, the server has the client's pool id, limits, thread options, apartment state, host info and application arguments, the client has the server's private data, and both know the other's capability - under any delivery interleaving.", "quantifier": "every configuration of both sides and every delivery schedule", "why_tests_cant": "All configurations and schedules.", "anchors": ["src/psrpcore/_client.py:ClientRunspacePool.open", "src/psrpcore/_server.py:ServerRunspacePool._process_SessionCapability", "src/psrpcore/_server.py:ServerRunspacePool._process_InitRunspacePool"]}
{"id": "C22", "title": "State messages mirror the server", "statement": "The sequence of RunspacePoolState / PipelineState messages a server queues is exactly the sequence of its state changes (except the connection states), so a client that processed all of them and made no local change reports the server's state.", "quantifier": "every history of server operations", "why_tests_cant": "Unbounded histories.", "anchors": ["src/psrpcore/_server.py:ServerRunspacePool._change_state", "src/psrpcore/_server.py:ServerPipeline._change_state", "src/psrpcore/_client.py:ClientRunspacePool._process_RunspacePoolState", "src/psrpcore/_client.py:ClientRunspacePool._process_PipelineState"]}
{"id": "C23", "title": "CLIXML string escaping round trip", "statement": "Any text serialized to CLIXML and deserialized again is the same text.", "quantifier": "every Python string, including control characters, lone surrogates, astral characters and text that looks like an escape", "why_tests_cant": "The space of strings is infinite and the failures need particular adjacent characters.", "anchors": ["src/psrpcore/types/_serializer.py:_serialize_string", "src/psrpcore/types/_serializer.py:_deserialize_string"]}
{"id": "C24", "title": "Escaped text is safe for XML", "statement": "The escaped text contains no control characters (C0, C1, DEL) and no surrogate code points, so it can always be encoded as UTF-8 XML.", "quantifier": "every Python string", "why_tests_cant": "Infinite input space; the character class has gaps that samples miss.", "anchors": ["src/psrpcore/types/_serializer.py:_serialize_string"]}
{"id": "C25", "title": "Duration text round trip", "statement": "A duration that is a whole number of 100 ns ticks and is serialized to its xs:duration text deserializes to the same duration.", "quantifier": "every duration representable by PSDuration with whole ticks", "why_tests_cant": "10^21 values; failures depend on trailing digits.", "anchors": ["src/psrpcore/types/_serializer.py:_serialize_duration", "src/psrpcore/types/_serializer.py:_deserialize_duration"]}
{"id": "C26", "title": "Duration arithmetic is exact", "statement": "Every PSDuration represents an exact number of nanoseconds; its normal form is unique; +, -, negation, abs, integer * and comparisons agree with that number of nanoseconds.", "quantifier": "every pair of durations and every integer factor", "why_tests_cant": "Infinite pairs; carries between nanoseconds and microseconds.", "anchors": ["src/psrpcore/types/_primitive.py:PSDuration", "src/psrpcore/types/_primitive.py:_timedelta_total_nanoseconds"]}
{"id": "C27", "title": "Date plus duration is exact", "statement": "Adding a duration to a PSDateTime moves it by exactly that many nanoseconds; subtracting it again gives back the original including its nanosecond field; the difference of two PSDateTimes is the exact duration.", "quantifier": "every date and duration within range", "why_tests_cant": "Carries across nanosecond/microsecond for all pairs.", "anchors": ["src/psrpcore/types/_primitive.py:PSDateTime"]}
{"id": "C28", "title": "Version order and text", "statement": "PSVersion comparison is a strict total order consistent with equality in which a missing component sorts before any present one; printing a version and parsing it gives an equal version; parsing accepts exactly 2 to 4 dot separated decimal numbers.", "quantifier": "every version and every string", "why_tests_cant": "Infinite.", "anchors": ["src/psrpcore/types/_primitive.py:PSVersion", "src/psrpcore/types/_primitive.py:_VERSION_PATTERN"]}
{"id": "C29", "title": "Integers stay in range", "statement": "No operation on the sized integer types yields a value of that type outside its range; out-of-range constructions raise ValueError.", "quantifier": "every integer type, every value, every arithmetic/bitwise operator and operand", "why_tests_cant": "Infinite operands.", "anchors": ["src/psrpcore/types/_primitive.py:PSIntegerBase"]}
{"id": "C30", "title": "Plain Python ints survive serialization", "statement": "A plain Python int within the 64-bit signed range serializes to a tag whose range contains it, so it deserializes to the same number.", "quantifier": "every Python int", "why_tests_cant": "2^64 values; boundaries on the negative side are easily missed.", "anchors": ["src/psrpcore/types/_serializer.py:_Serializer.serialize"]}
{"id": "C31", "title": "Statement grouping round trip", "statement": "The commands of a PowerShell pipeline, grouped in statements, come back from the remoting form in the same order with the same statement boundaries; a pipeline with no commands is refused.", "quantifier": "every non-empty list of commands with any statement marks", "why_tests_cant": "All lists and all mark positions.", "anchors": ["src/psrpcore/_pipeline.py:PowerShell.ToPSObjectForRemoting", "src/psrpcore/_pipeline.py:PowerShell.FromPSObjectForRemoting"]}
{"id": "C32", "title": "Command redirection round trip per protocol version", "statement": "A command's redirection settings, name, parameters and flags survive the remoting form for a peer of version 2.3; for older peers exactly the settings that version supports survive and the others come back as none.", "quantifier": "every command, every redirection call sequence, every peer version", "why_tests_cant": "All sequences and versions.", "anchors": ["src/psrpcore/_command.py:Command"]}
{"id": "C33", "title": "Added members are unique and visible", "statement": "add_member never leaves two extended properties of the same name; without force an existing name is refused with no change; with force the new value wins; other properties keep value and order.", "quantifier": "every sequence of add_member calls", "why_tests_cant": "Unbounded sequences.", "anchors": ["src/psrpcore/types/_base.py:add_member"]}
{"id": "C34", "title": "Attribute lookup order on PSObjects", "statement": "Reading a name on a PSObject gives the ordinary Python attribute if there is one, else the extended property, else the adapted property, else AttributeError; a write goes to the same place a read would come from, so it is read back, and never changes any other name.", "quantifier": "every object and name", "why_tests_cant": "All shapes of objects.", "anchors": ["src/psrpcore/types/_base.py:PSObject.__getattribute__", "src/psrpcore/types/_base.py:PSObject.__setattr__"]}
{"id": "C35", "title": "ps_isinstance is inclusion of type names", "statement": "ps_isinstance(obj, others) is true exactly when one of the object's type names equals one of the names asked for (a string itself, or the first type name of a class), both compared without a leading 'Deserialized.' when ignore_deserialized is set; an instance of a class that inherits the types of a base class passes the test for that base class.", "quantifier": "every object and class", "why_tests_cant": "All type lists.", "anchors": ["src/psrpcore/types/_base.py:ps_isinstance"]}
{"id": "C36", "title": "Secure strings need and use the session key", "statement": "Serializing a secure string made from plain text before the key exchange raises MissingCipherError; afterwards it is written as base64 and decrypting it gives back the plain text, for any block cipher that is invertible.", "quantifier": "every text, every key", "why_tests_cant": "Infinite texts and padding lengths.", "anchors": ["src/psrpcore/_crypto.py:PSRemotingCrypto", "src/psrpcore/types/_primitive.py:PSSecureString"]}
{"id": "C37", "title": "Public key blob round trip", "statement": "The server recovers from the client's public key blob exactly the exponent and modulus the client generated, and the client recovers the session key from the encrypted blob whenever RSA decryption inverts encryption.", "quantifier": "every modulus and 32-bit exponent, every session key", "why_tests_cant": "Keys are random 2048 bit numbers.", "anchors": ["src/psrpcore/_crypto.py:create_keypair", "src/psrpcore/_crypto.py:encrypt_session_key", "src/psrpcore/_crypto.py:decrypt_session_key"]}
{"id": "C38", "title": "Multi dimensional host arrays round trip", "statement": "A rectangular two dimensional list with at least one row and one column packed for a host call is unpacked to the same rows and columns.", "quantifier": "every number of rows and columns and every content", "why_tests_cant": "All sizes.", "anchors": ["src/psrpcore/_host.py:_create_multi_dimensional_array", "src/psrpcore/_events.py:_unpack_multi_dimensional_array"]}
{"id": "C39", "title": "CLIXML shell output starts with its header", "statement": "The concatenated output of a ClixmlShell starts with the #< CLIXML header exactly once whatever the order of writes and data_to_send calls.", "quantifier": "every sequence of writes and data_to_send calls", "why_tests_cant": "All call sequences.", "anchors": ["src/psrpcore/_clixml_shell.py:ClixmlShell.data_to_send"]}
{"id": "C40", "title": "CLIXML streams are routed by tag", "statement": "Parsing CLIXML shell output puts every object in the stream its S attribute names, in document order, and everything without a known stream in output.", "quantifier": "every list of (stream, object) pairs", "why_tests_cant": "All lists.", "anchors": ["src/psrpcore/_clixml_shell.py:ClixmlOutput.from_clixml", "src/psrpcore/types/_serializer.py:deserialize_clixml", "src/psrpcore/types/_serializer.py:serialize_clixml"]}
{"id": "C41", "title": "Object graph serialization round trip", "statement": "A value built from primitives, lists, stacks, queues, dictionaries and objects with type names, string form, adapted and extended properties serializes to an element tree that deserializes to the same value (types names of adapted objects as the deserializer documents).", "quantifier": "every finite value tree", "why_tests_cant": "Infinite structured inputs, reference ids shared across the whole tree.", "anchors": ["src/psrpcore/types/_serializer.py:_Serializer.serialize", "src/psrpcore/types/_serializer.py:_Serializer.deserialize"]}
{"id": "C42", "title": "Type name references are faithful", "statement": "When several objects with type lists are serialized in one document, each one comes back with its own type list even though later ones are written as references.", "quantifier": "every sequence of type lists in one document", "why_tests_cant": "Needs collisions of the lookup key across the document.", "anchors": ["src/psrpcore/types/_serializer.py:_Serializer.serialize"]}
{"id": "C43", "title": "Object references are faithful", "statement": "In one document two positions come back as one shared object only if the same object was in both positions when serializing.", "quantifier": "every sequence of objects in one document", "why_tests_cant": "Depends on hash/equality collisions.", "anchors": ["src/psrpcore/types/_serializer.py:_Serializer._get_ref_id"]}
{"id": "C44", "title": "Enum and flag text", "statement": "The text form of an enum value lists exactly the names of its set members, and a flag value is recovered as the union of the listed members. The complement of a flag has exactly the members of one bit that are not set, and the complement of that is the flag again.", "quantifier": "every value of every flag class with single-bit members", "why_tests_cant": "All combinations of members.", "anchors": ["src/psrpcore/types/_serializer.py:_serialize_enum_to_string", "src/psrpcore/types/_enum.py:PSFlagBase.__invert__"]}
{"id": "C45", "title": "Null pipeline input keeps its message type", "statement": "Whatever object is passed to a running client pipeline's send(), the queued message has type PIPELINE_INPUT.", "quantifier": "every object including None", "why_tests_cant": "The object space is unbounded; only the None special case fails.", "anchors": ["src/psrpcore/_client.py:_ClientPipeline.send", "src/psrpcore/_base.py:RunspacePool.prepare_message"]}
{"id": "C46", "title": "Host object round trip", "statement": "Coordinates, sizes, rectangles, key infos, buffer cells, choice and field descriptions, and host default data encoded for a host call and decoded by the peer are equal to the originals.", "quantifier": "every field value of every host object", "why_tests_cant": "All values and the positional encoding of ten default-data entries.", "anchors": ["src/psrpcore/types/_host.py", "src/psrpcore/_events.py:_decode_host_call_parameters"]}
{"id": "C47", "title": "PKCS7 padding", "statement": "Padding then unpadding gives back the plain bytes, and the padded length is a positive multiple of the block size.", "quantifier": "every byte string", "why_tests_cant": "All lengths.", "anchors": ["src/psrpcore/_crypto.py:PSRemotingCrypto"]}
{"id": "C48", "title": "Void host calls never wait for an answer", "statement": "host_call returns -100 exactly for the methods that return nothing, consumes no call id for them, and the client never records them as answerable.", "quantifier": "every method identifier, every history", "why_tests_cant": "All methods in all histories.", "anchors": ["src/psrpcore/types/_host.py:HostMethodIdentifier.is_void", "src/psrpcore/_server.py:ServerRunspacePool.host_call", "src/psrpcore/_client.py:ClientRunspacePool._process_RunspacePoolHostCall"]}
{"id": "C49", "title": "Escaped text is legal XML", "statement": "The escaped form of a string written into CLIXML holds only characters that an XML 1.0 document may contain, so the receiving parser accepts it.", "quantifier": "every string", "why_tests_cant": "The claim ranges over every string of code points; the offending ones are rare.", "anchors": ["src/psrpcore/types/_serializer.py:_serialize_string"]}
{"id": "C50", "title": "Dates compare by their exact instant", "statement": "Two PSDateTimes that both have or both lack a time zone are equal exactly when they denote the same instant down to the nanosecond, and one is less than the other exactly when it is earlier; a date with and one without a time zone are never equal and have no order.", "quantifier": "every pair of dates", "why_tests_cant": "All pairs of dates, including those that differ only below a microsecond.", "anchors": ["src/psrpcore/types/_primitive.py:PSDateTime"]}
{"id": "C51", "title": "Copying a date or duration keeps its value", "statement": "A PSDuration built from a PSDuration and a PSDateTime built from a PSDateTime are equal to the original in every field.", "quantifier": "every date and duration", "why_tests_cant": "All field values.", "anchors": ["src/psrpcore/types/_primitive.py:PSDateTime", "src/psrpcore/types/_primitive.py:PSDuration"]}
{"id": "C52", "title": "Date text round trip", "statement": "A date serialized to its CLIXML text deserializes to the same date with the same time zone offset, cut down to whole 100 ns ticks.", "quantifier": "every date of the years 1 to 9999 and every time zone offset", "why_tests_cant": "All dates, fractions and offsets.", "anchors": ["src/psrpcore/types/_serializer.py:_serialize_datetime", "src/psrpcore/types/_serializer.py:_deserialize_datetime"]}
{"id": "C53", "title": "A char is one UTF-16 code unit, and its text makes it again", "statement": "A PSChar is always a number from 0 to 65535, a PSChar made from text is that single character, and PSChar(str(c)) gives c again for every char c.", "quantifier": "every char and every text", "why_tests_cant": "All 65536 chars and all texts, including surrogates and characters outside the basic plane.", "anchors": ["src/psrpcore/types/_primitive.py:PSChar"]}
{"id": "C54", "title": "Error redirection reaches old peers", "statement": "A peer with a protocol version before 2.2 is told to merge errors into the output exactly when the last allowed redirect_error or redirect_all call asked for the output stream.", "quantifier": "every sequence of redirect calls", "why_tests_cant": "Depends on the order of calls; all sequences.", "anchors": ["src/psrpcore/_command.py:Command.redirect_error", "src/psrpcore/_command.py:Command.ToPSObjectForRemoting"]}
{"id": "C55", "title": "Type tests see through deserialized copies", "statement": "When an object of a class without a registered Python type comes back with Deserialized. type names, ps_isinstance with ignore_deserialized answers for the copy as for the original.", "quantifier": "every list of type names and every question", "why_tests_cant": "All lists of names, including names that already carry the prefix.", "anchors": ["src/psrpcore/types/_base.py:TypeRegistry.rehydrate", "src/psrpcore/types/_base.py:ps_isinstance"]}
{"id": "C56", "title": "The default constructor sets exactly the given properties", "statement": "Constructing an object of a class with PowerShell properties succeeds exactly when every mandatory property is given, no property is given twice, no unknown or surplus argument is given and the values can be cast; then each given property reads as its value and the others keep their default.", "quantifier": "every class definition with note properties, every list of positional and keyword arguments", "why_tests_cant": "All classes and argument lists.", "anchors": ["src/psrpcore/types/_base.py:PSObject.__init__"]}
{"id": "C57", "title": "Secure strings can be passed on", "statement": "A secure string received from a peer can be sent to another peer (or back): that peer decrypts it to the same plain text.", "quantifier": "every text, every pair of session keys", "why_tests_cant": "Depends on the pair of keys and on which provider encrypted the value; a test uses one session and one key.", "anchors": ["src/psrpcore/types/_primitive.py:PSSecureString.ToPSObjectForRemoting", "src/psrpcore/types/_serializer.py:_Serializer.serialize"]}
{"id": "C58", "title": "Local secure strings round trip", "statement": "The local crypto provider decrypts what it encrypted to the same text, with hexadecimal digits of either case, with and without Windows data protection.", "quantifier": "every text, every invertible data protection", "why_tests_cant": "All texts including lone and paired surrogates; data protection differs per machine.", "anchors": ["src/psrpcore/_clixml_shell.py:LocalCryptoProvider"]}
{"id": "C59", "title": "The type name of a class belongs to that class", "statement": "An object sent with the type names of a registered class is rehydrated as that class: the first class declared with a type name owns it, later declarations do not take it over, names nobody declared give a plain object marked as deserialized, and no two classes of the library share a type name or an element tag.", "quantifier": "every sequence of class declarations, every list of type names", "why_tests_cant": "Depends on the order of all declarations including those of the user; each test looks at one class.", "anchors": ["src/psrpcore/types/_base.py:TypeRegistry.rehydrate", "src/psrpcore/types/_base.py:PSType.__call__", "src/psrpcore/types/_host.py:BufferCellType"]}
{"id": "C60", "title": "Pipeline lifecycle guards", "statement": "Starting, beginning to stop, stopping, completing and closing a pipeline are each allowed in exactly the documented states and lead to the documented state, announced by one message to the peer where there is one; in the other states InvalidPipelineState is raised and nothing changes.", "quantifier": "every pool, every pipeline, every state", "why_tests_cant": "Product of operations, pipeline states and pool contents.", "anchors": ["src/psrpcore/_base.py:Pipeline", "src/psrpcore/_client.py:_ClientPipeline.start", "src/psrpcore/_server.py:ServerPipeline"]}
{"id": "C61", "title": "Serializing leaves the objects alone", "statement": "Serializing a value changes neither the value nor any object reachable from it, so that serializing it a second time gives the same document.", "quantifier": "every object graph", "why_tests_cant": "Tests compare the output of one serialization; every container type and nesting would have to be serialized twice.", "anchors": ["src/psrpcore/types/_serializer.py:_Serializer.serialize"]}
{"id": "C62", "title": "Progress records come back", "statement": "A ProgressRecord that is serialized is read back with the same activity, description, current operation, ids, percentage, type and seconds remaining.", "quantifier": "every progress record", "why_tests_cant": "Product of eight fields, each with texts or numbers that need escaping or are at a boundary.", "anchors": ["src/psrpcore/types/_serializer.py:_deserialize_progress_record", "src/psrpcore/types/_serializer.py:_Serializer.serialize"]}
{"id": "C63", "title": "CLIXML texts are read back", "statement": "The text serialize_clixml gives for a list of values, alone or as it is sent by a ClixmlShell after the header, is read by deserialize_clixml as the same list of values with the same streams.", "quantifier": "every list of values, every stream, header or not", "why_tests_cant": "All lists and all texts, including the empty list and texts that were sent in pieces.", "anchors": ["src/psrpcore/types/_serializer.py:serialize_clixml", "src/psrpcore/types/_serializer.py:deserialize_clixml", "src/psrpcore/_clixml_shell.py:ClixmlShell.data_to_send"]}
{"id": "C64", "title": "Documents are well-formed XML", "statement": "Whatever values serialize_clixml accepts, the text it gives is a well-formed XML document, and an XML parser gives back exactly the elements, attributes and texts that were written.", "quantifier": "every list of values, every string, type name and string form", "why_tests_cant": "Ranges over all texts in all places of a graph; the characters XML does not have or changes are rare.", "anchors": ["src/psrpcore/types/_serializer.py:serialize_clixml", "src/psrpcore/types/_serializer.py:_Serializer.serialize", "src/psrpcore/types/_serializer.py:_serialize_string"]}
{"id": "C65", "title": "Error records come back", "statement": "An error record the server writes arrives at the client as an error record with the same exception, target, error id, category, details and stack trace; its invocation info and pipeline list arrive exactly if the record is marked to send them.", "quantifier": "every error record, every combination of set and unset fields", "why_tests_cant": "The fields are independent and each can be None, empty or set: the combinations are not enumerable, and the tests fill in a few of them.", "anchors": ["src/psrpcore/types/_complex.py:ErrorRecord.ToPSObjectForRemoting", "src/psrpcore/types/_complex.py:ErrorRecord.FromPSObjectForRemoting", "src/psrpcore/_server.py:ServerPipeline.write_error"]}
{"id": "C66", "title": "Invocation info comes back", "statement": "A debug, verbose or warning record sent with an invocation info arrives with that invocation info: same command, arguments, names, numbers, place in the script and script path.", "quantifier": "every record and every invocation info, every combination of set and unset fields", "why_tests_cant": "Seventeen optional fields and an extent with ten more; unset fields take other branches on both sides.", "anchors": ["src/psrpcore/types/_complex.py:_invocation_info_to_ps_object", "src/psrpcore/types/_complex.py:_invocation_info_from_ps_object", "src/psrpcore/types/_complex.py:InformationalRecord.FromPSObjectForRemoting", "src/psrpcore/_server.py:ServerPipeline.write_verbose"]}
{"id": "C67", "title": "Received records can be passed on", "statement": "An error, debug, verbose or warning record that was received can be sent on to the next peer and arrives there as it was received, any number of times.", "quantifier": "every record that arrived, any number of hops", "why_tests_cant": "A statement about every record that can arrive and about chains of any length.", "anchors": ["src/psrpcore/types/_complex.py:ErrorRecord", "src/psrpcore/types/_complex.py:InformationalRecord", "src/psrpcore/types/_complex.py:ScriptExtent.Text", "src/psrpcore/types/_complex.py:_invocation_info_from_ps_object"]}
{"id": "C68", "title": "Values are written in the forms of the protocol", "statement": "Whatever value is serialized, the XML is in the grammar of CLIXML: an element of the name that belongs to the value's type holding that type's text form (true/false, a decimal number in the range of the element, a plain decimal, a floating point number, a GUID, a date, a duration, Base64, an escaped string without characters XML lacks), and for objects type names, string form, content and properties in that order.", "quantifier": "every graph of values that can be serialized", "why_tests_cant": "The grammar is about every value, every nesting and every string; tests compare a few documents with expected text, and round trips through the library's own reader do not notice forms only that reader accepts.", "anchors": ["src/psrpcore/types/_serializer.py:_Serializer.serialize", "src/psrpcore/types/_serializer.py:_serialize_string", "src/psrpcore/types/_serializer.py:_serialize_datetime", "src/psrpcore/types/_serializer.py:_serialize_duration", "src/psrpcore/types/_serializer.py:serialize_clixml"]}
{"id": "C69", "title": "What other peers write is read", "statement": "deserialize accepts every spelling the protocol allows and returns the value it stands for, not only the spelling this library writes: booleans in any case, integers with signs and leading zeros, GUIDs in either case, in braces or without hyphens, decimals and floats with signs, points and exponents, escapes with hexadecimal digits in either case, dates with fewer digits or any zone, durations with parts left out or larger than their unit, Base64, progress records with elements left out or in another order, dictionaries that repeat a key (numbers of all types are one key if they are equal, and so are dates of one instant; dates of different instants are different keys), dictionaries and lists whose values are objects or references, even to the one being read, and enum values with any integer element, further type names and string form. Values an enum type does not have are refused.", "quantifier": "every text and element of these forms, every value", "why_tests_cant": "Tests read back what the library wrote, plus a few recorded documents. The spellings of one value are unbounded in number, and a reader that only knows its own writer's passes every round trip.", "anchors": ["src/psrpcore/types/_serializer.py:_Serializer.deserialize", "src/psrpcore/types/_serializer.py:_deserialize_string", "src/psrpcore/types/_serializer.py:_deserialize_datetime", "src/psrpcore/types/_serializer.py:_deserialize_duration", "src/psrpcore/types/_serializer.py:_deserialize_progress_record", "src/psrpcore/types/_enum.py:PSEnumBase", "src/psrpcore/types/_host.py:BufferCellType"]}
{"id": "C70", "title": "Reading a document does not change what other documents mean", "statement": "What deserialize_clixml or deserialize returns for a document depends on the document only, not on the documents that were read before in the same process.", "quantifier": "every document, every sequence of documents read before", "why_tests_cant": "Each test reads its own document; state that is shared by classes shows only between documents, and the sequences are unbounded.", "anchors": ["src/psrpcore/types/_serializer.py:_Serializer.deserialize", "src/psrpcore/types/_enum.py:PSEnumMeta", "src/psrpcore/types/_base.py:PSObject.__new__", "src/psrpcore/types/_base.py:PSObjectMeta.set_instance"]}
{"id": "C71", "title": "An object that is sent arrives", "statement": "Every object given to prepare_message comes out of the peer's next_event as the object of an event with the same message type and pipeline id, in the order of sending, each once, once the bytes of data_to_send are given to receive_data; however the payload sizes cut the messages and however sending, receiving and polling interleave. The data on the wire is UTF-8, and bytes that are not UTF-8 raise an exception.", "quantifier": "every sequence of sends of any object graphs, flushes with any amounts, deliveries and polls", "why_tests_cant": "Tests push a few objects through with one payload each. Losing, swapping or damaging an object can depend on the split of one multi-byte character, on what was sent before, on sizes and on the interleaving, whose combinations are unbounded.", "anchors": ["src/psrpcore/_base.py:RunspacePool.prepare_message", "src/psrpcore/_base.py:RunspacePool._process_message", "src/psrpcore/_base.py:RunspacePool.data_to_send", "src/psrpcore/_base.py:RunspacePool.next_event", "src/psrpcore/types/_serializer.py:serialize", "src/psrpcore/types/_serializer.py:deserialize"]}
{"id": "C72", "title": "Events show what was sent", "statement": "The event the peer gets for a message shows in its properties what the message was made with: counts, call ids, states, versions, keys, texts and dates are equal, optional values that were not given are None, and objects stand for the objects that were given. No property of such an event raises. A message class takes its arguments exactly if every number is a value of its integer type, and raises ValueError otherwise.", "quantifier": "all 27 message types other than error, debug, verbose and warning records, with any arguments, in every history of sending, flushing, delivering and polling", "why_tests_cant": "The writer and the reader of each property are in different classes and agree only by the names of properties and by what is left out when it is empty. Tests look at a few values per message; values that are false, zero or empty, and the objects behind them, are unbounded.", "anchors": ["src/psrpcore/types/_psrp.py", "src/psrpcore/_events.py", "src/psrpcore/_base.py:RunspacePool.prepare_message", "src/psrpcore/_base.py:RunspacePool.next_event"]}
{"id": "C73", "title": "A session over bytes is a session of messages", "statement": "Two pools that exchange only the payloads of data_to_send behave as if whole messages arrived one by one in the order they were prepared: every call and every event has the result it has in that session, no event is lost, doubled or out of order, no exception comes from the transport, and the pools end in the same state. When data_to_send and next_event return None on both sides, every prepared message has arrived; as long as one has not, sending and passing on what is queued makes the peer's next_event return it. So the handshake opens both sides and the limits agree whatever the sizes of the payloads.", "quantifier": "all histories of calls on both pools, of data_to_send with any amounts, of holding back and passing on payloads and of next_event, from any drained session, for any way of writing objects as bytes that reads back what it wrote", "why_tests_cant": "Tests flush everything after each call. How calls, partial payloads and polls interleave on two sides is unbounded, and the order of messages depends on object ids on both sides.", "anchors": ["src/psrpcore/_base.py:RunspacePool.data_to_send", "src/psrpcore/_base.py:RunspacePool.receive_data", "src/psrpcore/_base.py:RunspacePool.next_event", "src/psrpcore/_base.py:RunspacePool.prepare_message", "src/psrpcore/_server.py:ServerRunspacePool.receive_data", "src/psrpcore/_server.py:ServerRunspacePool.connect"]}
{"id": "C74", "title": "The text of a script extent", "statement": "ScriptExtent.Text is the part of the script from the start position to the end position, columns counted from 1: within one line the characters in those columns; across lines the first line from the start column on, '...', and the last line up to the end column. It raises only when a position it needs is None.", "quantifier": "all extents: all lines, line numbers and columns, also negative, zero, beyond the line or None", "why_tests_cant": "Off-by-one mistakes show only for particular columns and line lengths. The tests have one extent within a line and one across lines, and the latter expects the rest of the last line behind the end.", "anchors": ["src/psrpcore/types/_complex.py:ScriptExtent._text", "src/psrpcore/types/_complex.py:ScriptPosition", "src/psrpcore/types/_complex.py:_invocation_info_from_ps_object"]}
{"id": "C75", "title": "What users put into host calls, replies and host information is what the other side reads", "statement": "When a server calls a method of the host, a client replies to such a call, or a client opens a pool with host information, the event on the other side shows it: the call id, the method, the parameters (or the result) decoded to what was given, the same host information. Objects given as parameters or results arrive as objects that stand for them. This holds whatever else is sent, and whatever the sizes of the payloads.", "quantifier": "all methods, arguments, results and host informations of the documented types (prompt fields without default value and attributes, replies without an error), all histories of sending, flushing, delivering and polling", "why_tests_cant": "A test has one call with one set of arguments. The values pass through the encoding of host objects, the serializer, XML text, UTF-8, fragments and back, and each step has values it treats differently.", "anchors": ["src/psrpcore/_host.py:ServerHostRequestor", "src/psrpcore/_host.py:ClientHostResponder", "src/psrpcore/_events.py:PipelineHostCallEvent", "src/psrpcore/_events.py:RunspacePoolHostCallEvent", "src/psrpcore/_events.py:PipelineHostResponseEvent", "src/psrpcore/_events.py:InitRunspacePoolEvent", "src/psrpcore/types/_host.py"]}
{"id": "C76", "title": "A pipeline that was sent is the pipeline the server's event gives", "statement": "CreatePipelineEvent.pipeline has the settings (input, history, nesting, apartment state, stream options, error redirection) and the host of the PowerShell object the client invoked, and the same statements: the same commands in the same order with the same names, kinds, scopes, redirections that the peer's version knows, and parameters with their names; parameter values arrive as objects that stand for them.", "quantifier": "all PowerShell pipelines with at least one command, any statements, commands, parameters and parameter values, all peer versions, all histories of sending, flushing, delivering and polling", "why_tests_cant": "The number of statements, commands and parameters is unbounded, optional properties depend on the peer's version, and values are any object graphs.", "anchors": ["src/psrpcore/_events.py:CreatePipelineEvent.pipeline", "src/psrpcore/_pipeline.py:PowerShell.ToPSObjectForRemoting", "src/psrpcore/_pipeline.py:PowerShell.FromPSObjectForRemoting", "src/psrpcore/_command.py:Command.ToPSObjectForRemoting", "src/psrpcore/_command.py:Command.FromPSObjectForRemoting"]}
{"id": "C77", "title": "Records that a server writes, and the reasons it gives, arrive", "statement": "An error, debug, verbose or warning record that a server writes, the reason it gives for a failed pipeline or a broken pool, and the error a client gives in reply to a host call arrive in the event of the message: as an object of the class of the record, from which the client gets a record that tells the same, with the same invocation details where they were asked for. The exception, the target and all other objects in it arrive as objects that stand for them. This holds whatever else is sent, and whatever the sizes of the payloads.", "quantifier": "all records that meet the conditions of C65 and C66, all object graphs they refer to, all histories of sending, flushing, delivering and polling", "why_tests_cant": "A test has one record. Targets, exceptions and bound parameters are any objects, which may refer to each other and to objects of other messages, and the text of the record is cut into fragments at any place.", "anchors": ["src/psrpcore/_server.py:ServerPipeline.write_error", "src/psrpcore/_events.py:ErrorRecordEvent", "src/psrpcore/_events.py:WarningRecordEvent", "src/psrpcore/_events.py:PipelineStateEvent.reason", "src/psrpcore/_events.py:RunspacePoolStateEvent.reason", "src/psrpcore/types/_complex.py:ErrorRecord.FromPSObjectForRemoting", "src/psrpcore/types/_complex.py:InformationalRecord.FromPSObjectForRemoting"]}
{"id": "C78", "title": "A client and a server of the library understand each other", "statement": "Two pools of the library that exchange their bytes over any transport that keeps the order behave as if the messages themselves were handed over: what the methods on one side put into a message is what the other side's events and state get, for all message types, however the bytes are cut, held back and read. In particular, after open and once all bytes were passed on, both sides are opened, and the server has the limits, the host information and the application arguments of the client, and the client has the private data of the server; and whenever all bytes were passed on both sides report the same limits.", "quantifier": "all configurations, all object graphs given as arguments, all histories of calls on both sides, payload sizes, deliveries and reads", "why_tests_cant": "Tests run a fixed dialogue. Objects of any shape go through the serializer, UTF-8, fragments, buffers, the XML reader and the events before they reach the state machine of the peer, and each can be interleaved with the calls of both sides in any way.", "anchors": ["src/psrpcore/_base.py:RunspacePool.prepare_message", "src/psrpcore/_base.py:RunspacePool.data_to_send", "src/psrpcore/_base.py:RunspacePool.receive_data", "src/psrpcore/_base.py:RunspacePool.next_event", "src/psrpcore/_base.py:RunspacePool._process_message", "src/psrpcore/_client.py:ClientRunspacePool", "src/psrpcore/_server.py:ServerRunspacePool", "src/psrpcore/_events.py"]}
{"id": "C79", "title": "A failed host call shows an error record", "statement": "When the client answers a host call with an error, the property error of the event at the server is an ErrorRecord that tells what the client's error tells (exception, category, target, error id, details, invocation), whether the call belonged to a pipeline or to the pool, and whether or not the peer sends the error with the type names of error records.", "quantifier": "all error records, all type names of the object that is sent, both kinds of host calls, all histories of sending and receiving", "why_tests_cant": "The two event classes have separate code for the property, only one of which converts objects without the type names. Tests answer calls with an error of this library, whose serializer always writes the type names.", "anchors": ["src/psrpcore/_events.py:PipelineHostResponseEvent.error", "src/psrpcore/_events.py:RunspacePoolHostResponseEvent.error", "src/psrpcore/types/_complex.py:ErrorRecord.FromPSObjectForRemoting"]}
{"id": "C80", "title": "The response a server gets belongs to the host call it made", "statement": "Whenever next_event of the server returns a response to a host call, the server had made exactly one call under that id (host_call of the pool or of a pipeline), for the same pipeline and with the same method; next_event of the client then returned that call with its parameters; and the client then answered it, with exactly the values of the response. No two responses have the same id. Every call reaches the client, and every answer the server, once everything in flight has been delivered and if the values can be read. This holds as long as the server does not connect anew.", "quantifier": "all pairs of new pools, all histories of calls of either API and deliveries in any order without a connect of the server, all numbers of calls outstanding at once on pool and pipelines, all orders of answering", "why_tests_cant": "The ids are counted at the server, recorded at the client and sent back; that none is mixed up depends on the order of all calls, deliveries and answers. Tests make one call at a time and answer it at once.", "anchors": ["src/psrpcore/_server.py:ServerRunspacePool.host_call", "src/psrpcore/_server.py:ServerPipeline.host_call", "src/psrpcore/_client.py:ClientRunspacePool.host_response", "src/psrpcore/_client.py:ClientRunspacePool._process_PipelineHostCall"]}
{"id": "C81", "title": "GUIDs are written in the form of the protocol and read back in every spelling", "statement": "PSGuid values and UUIDs are written in five groups of lower case hexadecimal digits; deserializing that text gives the same GUID. Texts of other peers are read as the GUID they name whatever case the digits are in, with hyphens or without, in braces or not, or as a urn:uuid name. A text that is not that of a GUID is refused with a ValueError.", "quantifier": "all 2^128 GUIDs, all texts", "why_tests_cant": "Tests use a few GUIDs in the canonical spelling; which of all texts are accepted is decided by uuid.UUID stripping and int(), which no test of texts close to a GUID exercises.", "anchors": ["src/psrpcore/types/_serializer.py:_Serializer.serialize", "src/psrpcore/types/_serializer.py:_Serializer.deserialize", "src/psrpcore/types/_primitive.py:PSGuid.__init__"]}
{"id": "C82", "title": "Decimals keep their digits over the wire and are written in plain notation", "statement": "Deserializing the text of a serialized PSDecimal or Decimal gives the same decimal: sign, digits, the number of digits behind the point (trailing zeros too), and special values. Every number in the plain notation of the protocol, and every one with an exponent, is read exactly. Every decimal is written in plain notation, the only one xs:decimal has.", "quantifier": "all decimals of any number of digits and any exponent, all texts of numbers", "why_tests_cant": "The notation Decimal.__str__ chooses depends on exponent and number of digits together; tests use a few numbers in plain notation.", "anchors": ["src/psrpcore/types/_serializer.py:_Serializer.serialize", "src/psrpcore/types/_serializer.py:_Serializer.deserialize", "src/psrpcore/types/_primitive.py:PSDecimal"]}
{"id": "C83", "title": "Floats come back bit for bit, and numbers in texts are read as the nearest double", "statement": "Deserializing the text of a serialized PSDouble, PSSingle or float gives the same float: every finite double, both zeros, both infinities, and NaN. The text has the form of XML schemas (digits, a point, digits, maybe an exponent; INF, -INF, NaN). It has as few digits as any number that is read as this float, never more than 17, and of those with that few it is next to the float; no exponent is used from 0.0001 up to 10^16. A number in the text of another peer is read as the double next to it, of two equally near the even one, and as an infinity only if it is too large. Values written as singles are singles.", "quantifier": "all 2^64 doubles, all texts of numbers with any number of digits and any exponent", "why_tests_cant": "There are 2^64 doubles, and rounding is decided at midpoints between them and at the ends of the range; tests use a handful.", "anchors": ["src/psrpcore/types/_serializer.py:_Serializer.serialize", "src/psrpcore/types/_serializer.py:_Serializer.deserialize", "src/psrpcore/types/_primitive.py:PSSingle", "src/psrpcore/types/_primitive.py:PSDouble"]}
{"id": "C84", "title": "What is sent has the layout of the protocol", "statement": "Every fragment in what data_to_send gives is the object id (8 bytes), the fragment id (8 bytes), the flags (1 byte: 1 for the first, 2 for the last fragment), the length (4 bytes) and the data, with the most significant byte first. The bytes of a message are the destination (1 for the client, 2 for the server), the number of its type in [MS-PSRP] 2.2.1, the ids of the pool and of the pipeline (zeros if there is none) as .NET has them, and the data, with the least significant byte first. The data of each kind of message is one object whose properties have the names, the types, the values and the order of [MS-PSRP] 2.2.2 (states of pools and pipelines by their numbers there), or one value, or nothing.", "quantifier": "all object and fragment ids, all data of any length, all ids, all kinds of messages with all values of their fields and all graphs of objects in them", "why_tests_cant": "Sending and receiving share the tables and the byte order, so that a test that sends to itself passes if both are wrong the same way; a test with recorded bytes fixes one message, not the layout for all values of the fields.", "anchors": ["src/psrpcore/_payload.py:create_fragment", "src/psrpcore/_payload.py:create_message", "src/psrpcore/types/_psrp.py:PSRPMessageType", "src/psrpcore/_base.py:RunspacePool.prepare_message", "src/psrpcore/_client.py:ClientRunspacePool", "src/psrpcore/_server.py:ServerPipeline"]}
{"id": "C85", "title": "Host calls, replies, host information and pipelines have the layout of the protocol", "statement": "What the methods of ServerHostRequestor and ClientHostResponder send has in `mi` the number of the host method in [MS-PSRP] 2.2.3.17, and in `mp` or `mr` the given values in the objects of the protocol: positions, sizes, rectangles, cells, keys, fields, choices and progress records with the names and the order of their properties, two-dimensional arrays row by row with the numbers of rows and columns. HostInfo is sent with its four flags and the ten entries of the default data under their numbers and type names. A Command has its text, its arguments as pairs of name and value, and the merge settings that a peer of the version knows; a PowerShell pipeline has the commands of its first statement in Cmds and all statements in ExtraCmds if there are more. The XML of the message is the text of these trees.", "quantifier": "all calls of the host with arguments of the documented types, all replies, all host information, all commands and pipelines, all versions of the peer, all graphs of objects the values are in", "why_tests_cant": "That a call comes back as it was sent holds also if writer and reader agree on a wrong name, number or order, and a peer of another implementation sees the difference; a test with recorded XML fixes some values of some of the 56 methods.", "anchors": ["src/psrpcore/_host.py:ServerHostRequestor", "src/psrpcore/_host.py:ClientHostResponder", "src/psrpcore/types/_host.py:HostMethodIdentifier", "src/psrpcore/types/_host.py:HostDefaultData.ToPSObjectForRemoting", "src/psrpcore/_command.py:Command.ToPSObjectForRemoting", "src/psrpcore/_pipeline.py:PowerShell.ToPSObjectForRemoting"]}
{"id": "C86", "title": "Getters, setters and values of properties", "statement": "A callable is accepted as the getter (setter) of a property exactly if it can be called with one (two) positional arguments, else the assignment raises TypeError and changes nothing; so reading a property with a getter gives what the getter returns for the object, cast to the property's type, and writing one with a setter calls it with the object and the value. Whatever callers do, a property never has both a value of its own and a getter, nor a setter without a getter; writing to a property with a getter only raises ValueError; a value written to a note is read back, cast. The copy of a property, as each instance gets it of those of its class, is like the property.", "quantifier": "all function signatures, all properties the constructors make, all sequences of assignments of getters, setters and values", "why_tests_cant": "Signatures combine five kinds of parameters with defaults in any number; the sequences of assignments are unbounded.", "anchors": ["src/psrpcore/types/_base.py:PSPropertyInfo", "src/psrpcore/types/_base.py:PSPropertyInfo._validate_callable", "src/psrpcore/types/_base.py:PSAliasProperty", "src/psrpcore/types/_base.py:PSNoteProperty", "src/psrpcore/types/_base.py:PSScriptProperty"]}
{"id": "C87", "title": "Instances are independent of their class and of each other", "statement": "A new instance has the type names, properties and values its class has at that time. After that nothing changes it but assignments to it and properties added to it: not what is assigned or added to other instances, not properties added to its class. A class is changed by nothing but properties added to it: not by its instances, not by the classes derived from it or the one it is derived from. An assignment or an added property has the effect it would have if the object had its property objects for itself.", "quantifier": "all programs of any length that decorate classes, derive classes, make instances, assign attributes and add properties to instances and classes", "why_tests_cant": "Property objects and PSObjectMeta objects are shared by reference; whether two objects come to share one depends on the whole history of the program.", "anchors": ["src/psrpcore/types/_base.py:PSObjectMeta.set_instance", "src/psrpcore/types/_base.py:PSObject.__new__", "src/psrpcore/types/_base.py:PSType.__call__", "src/psrpcore/types/_base.py:add_member"]}
{"id": "C88", "title": "Indexing reads entries first and properties then", "statement": "obj[key] gives the entry a list, dict, string or byte array has for the key, as it does for the Python type, and otherwise the attribute or property of that name, as obj.key does. An assignment to obj[key] is read back, and leaves other entries and all properties of a collection as they were. A key without entry is the exception the Python type raises, and changes nothing.", "quantifier": "all lists, dicts, strings and byte arrays with any properties, all integer, string, slice and other keys", "why_tests_cant": "Entries and properties share one syntax; which of the two is meant depends on the key, the contents and the kind of the object together. The tests take a few keys that are present.", "anchors": ["src/psrpcore/types/_base.py:PSObject.__getitem__", "src/psrpcore/types/_base.py:PSObject.__setitem__", "src/psrpcore/types/_collection.py:PSDictBase.__getitem__", "src/psrpcore/types/_collection.py:_PSListBase.__getitem__", "src/psrpcore/types/_collection.py:_PSListBase.__setitem__", "src/psrpcore/types/_primitive.py:PSStringBase.__getitem__", "src/psrpcore/types/_primitive.py:PSByteArray.__getitem__"]}
{"id": "C89", "title": "Operators of durations do not depend on what was done before", "statement": "Whether an operator of a PSDuration accepts an operand depends on nothing but whether the operand is a timedelta, not on the operations done before or on the classes of the durations in them. No operation leaves anything behind that later ones have to go through.", "quantifier": "all sequences of operations on durations of any classes derived from PSDuration", "why_tests_cant": "The list of accepted classes is shared by all durations and is changed by each operation; a test sees only the operations before it.", "anchors": ["src/psrpcore/types/_primitive.py:_ensure_types_and_self", "src/psrpcore/types/_primitive.py:PSDuration"]}
{"id": "C90", "title": "Objects made of keyword arguments have exactly these properties", "statement": "PSCustomObject(**fields) has the given fields as properties, in the order given, and nothing else; obj.name reads as the value given and takes assignments. PSTypeName is not a property but comes in front of the type names. dict_to_psobject(**fields), of which all messages are made, has the given fields in the order given, no type names, and never fails.", "quantifier": "all sets of keyword arguments, whatever their names and values", "why_tests_cant": "Names are arbitrary: they may be those of Python attributes, of parameters of the constructor or of properties the class was given at run time.", "anchors": ["src/psrpcore/types/_complex.py:PSCustomObject.__init__", "src/psrpcore/_payload.py:dict_to_psobject"]}
{"id": "C91", "title": "A call that raises has no effect", "statement": "When a method of a runspace pool or pipeline raises, or next_event raises for a message, the pool is as it was before: nothing was queued, and no state, limit, key, pending request, host call, call id or pipeline was changed. A program that catches the exception can go on; leaving the calls that raised out of a history changes neither the pool nor the result of any other call.", "quantifier": "all pools in all states, all calls with all arguments, all received messages, all histories", "why_tests_cant": "The tests check that calls are refused, not that all of the pool is unchanged afterwards; every combination of state, call and argument would have to be tried.", "anchors": ["src/psrpcore/_client.py:ClientRunspacePool", "src/psrpcore/_server.py:ServerRunspacePool", "src/psrpcore/_base.py:RunspacePool.prepare_message"]}
{"id": "C92", "title": "A pipeline that is built by calls is the pipeline that was meant", "statement": "add_command, add_script, add_parameter(s), add_argument and add_statement of ClientPowerShell build the statements meant: commands and scripts in the order added, each with its parameters in the order given, and the peer reads exactly these. Parameters are refused exactly when there is no command yet, and a refused call changes nothing; a parameter changes the last command only. The settings given to the constructor are those of the pipeline.", "quantifier": "all lists of statements with all commands, scripts, scopes and parameters, all histories of calls, all settings, all peer versions", "why_tests_cant": "Programs build arbitrary sequences of calls and share Command objects; the tests build a few pipelines, and none with an apartment state.", "anchors": ["src/psrpcore/_client.py:ClientPowerShell", "src/psrpcore/_command.py:Command", "src/psrpcore/_pipeline.py:PowerShell"]}
{"id": "C93", "title": "Information and progress records show what was written", "statement": "The event a client gets for write_information or write_progress shows every field as it was given; what was not given is the time, user, computer, process and thread of the server, 0 for the managed thread and an empty list of tags, and -1, Processing and no operation for progress. The methods raise exactly when the peer is too old, the pipeline does not run or a number does not fit its type, and never because an optional argument was left out.", "quantifier": "all arguments, given or not, all machines the server may run on, all object graphs as data and tags, all histories of sending, flushing, delivering and polling", "why_tests_cant": "The defaults depend on the machine and its users; a test runs on one of them, with few of the combinations of given arguments.", "anchors": ["src/psrpcore/_server.py:ServerPipeline.write_information", "src/psrpcore/_server.py:ServerPipeline.write_progress", "src/psrpcore/types/_complex.py:InformationRecord.create", "src/psrpcore/_events.py:InformationRecordEvent", "src/psrpcore/_events.py:ProgressRecordEvent"]}
{"id": "C94", "title": "vars and repr show what the attributes of an object read as", "statement": "vars(obj) has exactly the attributes of the instance and its properties, every name once, and repr(obj) names the class and every property once, adapted ones first; the value shown for a name is the one obj.name gives. Both raise exactly if reading one of the properties raises.", "quantifier": "all objects with any attributes, classes and adapted and extended properties (notes, aliases, scripts), names in one list or in both", "why_tests_cant": "The code joins three sources of names in two separate places, in another order than attribute lookup does; the test of vars has one object with one property, so that all orders give the same.", "anchors": ["src/psrpcore/types/_base.py:PSObject.__getattribute__", "src/psrpcore/types/_base.py:PSObject.__repr__"]}
