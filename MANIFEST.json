{
 "claims": [
  {
   "property": "C01",
   "status": "proved",
   "theorems": [
    "Verif.C01_fragment_roundtrip",
    "Verif.C01_fragment_out_of_range",
    "Verif.C01_fragment_injective"
   ],
   "note": "All ids/lengths that fit the header fields; anything else is refused with struct.error."
  },
  {
   "property": "C02",
   "status": "proved",
   "theorems": [
    "Verif.C02_message_roundtrip",
    "Verif.C02_message_excluded",
    "Verif.C02_unknown_type_refused"
   ],
   "note": "Both exclusions of the statement (byte order mark, all-zero pipeline id) are shown to be needed."
  },
  {
   "property": "C03",
   "status": "proved",
   "theorems": [
    "Verif.C03_payload_bounded",
    "Verif.C03_small_amount_refused"
   ],
   "note": "No hypothesis on the queue."
  },
  {
   "property": "C04",
   "status": "proved",
   "theorems": [
    "Verif.C04_fifo_prefix",
    "Verif.C04_fifo_complete",
    "Verif.C04_poll_progress"
   ],
   "note": "For every history of queue/flush/deliver/poll steps; messages below 4 GiB, fewer than 2^64 steps."
  },
  {
   "property": "C05",
   "status": "proved",
   "theorems": [
    "Verif.C05_none_iff_empty",
    "Verif.C05_progress",
    "Verif.C05_drains"
   ],
   "note": "For every reachable send buffer."
  },
  {
   "property": "C06",
   "status": "proved",
   "theorems": [
    "Verif.C06_one_target"
   ],
   "note": "For every send buffer whose ids and lengths fit the header."
  },
  {
   "property": "C07",
   "status": "partial",
   "theorems": [
    "Verif.C07_stream_type_violated",
    "Verif.C07_stream_type_partial"
   ],
   "note": "The property fails (negation proved): the stream type is that of the first message only. Partial: holds when the queued messages of that pipeline share a stream type."
  },
  {
   "property": "C08",
   "status": "proved",
   "theorems": [
    "Verif.C08_reassembly"
   ],
   "note": "Any interleaving, any cut at fragment boundaries, any poll times."
  },
  {
   "property": "C09",
   "status": "proved",
   "theorems": [
    "Verif.C09_strays_rejected"
   ],
   "note": "Any number of out of sequence fragments anywhere in the stream."
  },
  {
   "property": "C10",
   "status": "partial",
   "theorems": [
    "Verif.C10_chunking_partial",
    "Verif.C10_chunking_violated"
   ],
   "note": "The property fails for cuts inside a fragment (negation proved: struct.error, or a truncated payload taken as whole). Partial: cuts at fragment boundaries."
  },
  {
   "property": "C11",
   "status": "partial",
   "theorems": [
    "Verif.C11_client",
    "Verif.C11_client_appends",
    "Verif.C11_server_partial",
    "Verif.C11_server_appends",
    "Verif.C11_server_violated"
   ],
   "note": "Client: increasing object ids in every history. Server: the same in every history without connect; connect restarts the ids (negation proved), so the full claim fails there."
  },
  {
   "property": "C12",
   "status": "proved",
   "theorems": [
    "Verif.C12_base",
    "Verif.C12_client",
    "Verif.C12_server"
   ],
   "note": "Every guarded operation of both sides, from any pool (hence any reachable one)."
  },
  {
   "property": "C13",
   "status": "partial",
   "theorems": [
    "Verif.C13_client_live",
    "Verif.C13_client_closed",
    "Verif.C13_server_live",
    "Verif.C13_server_closed",
    "Verif.C13_same_id_violated"
   ],
   "note": "Proved for every history of client and server pipelines with different ids; with two pipelines of the same id the claim is false (negation proved)."
  },
  {
   "property": "C14",
   "status": "proved",
   "theorems": [
    "Verif.C14_client_refused",
    "Verif.C14_client_accepted",
    "Verif.C14_client_send",
    "Verif.C14_client_eof",
    "Verif.C14_server_refused",
    "Verif.C14_server_accepted",
    "Verif.C14_server_output",
    "Verif.C14_server_record",
    "Verif.C14_server_hostCall",
    "Verif.C14_record_types"
   ],
   "note": "Refused exactly outside Running, for every pipeline object and every pool."
  },
  {
   "property": "C15",
   "status": "proved",
   "theorems": [
    "Verif.C15_client",
    "Verif.C15_server",
    "Verif.C15_void"
   ],
   "note": "Every history; the server between connects."
  },
  {
   "property": "C16",
   "status": "proved",
   "theorems": [
    "Verif.C16_unknown",
    "Verif.C16_unknown_pipeline",
    "Verif.C16_void",
    "Verif.C16_answer",
    "Verif.C16_answer_pipeline",
    "Verif.C16_failed_keeps",
    "Verif.C16_unserializable",
    "Verif.C16_once",
    "Verif.C16_received"
   ],
   "note": "Every history; a waiting call is defined from the history (received, not answered or replaced since)."
  },
  {
   "property": "C17",
   "status": "proved",
   "theorems": [
    "Verif.C17_agree",
    "Verif.C17_session_client",
    "Verif.C17_client",
    "Verif.C17_server"
   ],
   "note": "Agreement, and when the limits change, in sessions of a psrpcore client and server with any interleaving, and for each side alone against any peer. A failed set request with a value that is no Int32 leaves its handler registered (stated in C17_client)."
  },
  {
   "property": "C18",
   "status": "partial",
   "theorems": [
    "Verif.C18_bytes_partial",
    "Verif.C18_place",
    "Verif.C18_once",
    "Verif.C18_known_partial",
    "Verif.C18_violated"
   ],
   "note": "An int answer outside [-2^31, 2^63) cannot be read by the client (C18_violated); everything else is proved for all sessions."
  },
  {
   "property": "C19",
   "status": "proved",
   "theorems": [
    "Verif.C19_reset_refused",
    "Verif.C19_reset_accepted",
    "Verif.C19_information_refused",
    "Verif.C19_record_accepted",
    "Verif.C19_client_peer",
    "Verif.C19_server_peer"
   ],
   "note": "Decision for every peer version, and the version is that of the last capability received in the history."
  },
  {
   "property": "C20",
   "status": "proved",
   "theorems": [
    "Verif.C20_bytes_partial",
    "Verif.C20_client",
    "Verif.C20_server",
    "Verif.C20_cipher_step",
    "Verif.C20_cipher",
    "Verif.C20_same_key",
    "Verif.C20_complete"
   ],
   "note": "Key pairs and session keys are identified by numbers; encryption is C36/C37. C20_bytes_partial is the same for bytes, with the condition of C73."
  },
  {
   "property": "C21",
   "status": "proved",
   "theorems": [
    "Verif.C21_handshake",
    "Verif.C21_progress"
   ],
   "note": "A client and a server pool with any configuration joined by two ordered streams; any order of deliveries."
  },
  {
   "property": "C22",
   "status": "partial",
   "theorems": [
    "Verif.C22_bytes_partial",
    "Verif.C22_bytes_pipe_partial",
    "Verif.C22_pool_step_partial",
    "Verif.C22_pool_partial",
    "Verif.C22_session_partial",
    "Verif.C22_pool_violated",
    "Verif.C22_session_violated",
    "Verif.C22_pipe_step",
    "Verif.C22_client_pipe",
    "Verif.C22_pipe_session"
   ],
   "note": "Holds for pipelines; for the pool it fails when set_broken is given an error that cannot be serialized, or that needs a session key the client lacks (C22_pool_violated, C22_session_violated). The pool theorems exclude those errors."
  },
  {
   "property": "C23",
   "status": "partial",
   "theorems": [
    "Verif.C23_partial",
    "Verif.C23_exact",
    "Verif.C23_violated"
   ],
   "note": "C23_exact proves exactly which texts round trip; the code loses texts with a lone U+D900-DBFF, a split surrogate pair or an escape-like byte pattern at an odd offset (C23_violated gives witnesses)."
  },
  {
   "property": "C24",
   "status": "partial",
   "theorems": [
    "Verif.C24_partial",
    "Verif.C24_exact",
    "Verif.C24_violated"
   ],
   "note": "No control characters or low surrogates ever appear; surrogates U+D900-DBFF are not escaped (C24_exact, C24_violated)."
  },
  {
   "property": "C25",
   "status": "partial",
   "theorems": [
    "Verif.C25_partial",
    "Verif.C25_exact",
    "Verif.C25_violated"
   ],
   "note": "C25_exact: whole-tick durations round trip exactly when the seconds part is not 10, 20, 30, 40 or 50 whole seconds; the code strips the zero (C25_violated)."
  },
  {
   "property": "C26",
   "status": "partial",
   "theorems": [
    "Verif.C26_construct",
    "Verif.C26_range",
    "Verif.C26_unique",
    "Verif.C26_arith",
    "Verif.C26_arith_fails",
    "Verif.C26_rsub",
    "Verif.C26_compare",
    "Verif.C26_eq_fields",
    "Verif.C26_inherited_partial",
    "Verif.C26_inherited_exact",
    "Verif.C26_violated"
   ],
   "note": "+, -, negation and comparisons proved exact; abs, * and timedelta + PSDuration are inherited and drop the nanoseconds (C26_violated)."
  },
  {
   "property": "C27",
   "status": "partial",
   "theorems": [
    "Verif.C27_add",
    "Verif.C27_add_fails",
    "Verif.C27_back_partial",
    "Verif.C27_forth_partial",
    "Verif.C27_back_violated",
    "Verif.C27_diff",
    "Verif.C27_diff_mixed",
    "Verif.C27_diff_add"
   ],
   "note": "Sum, difference and the way back proved; (d + x) - x fails with OverflowError within the first microsecond of year 1 (C27_back_violated). Fixed-offset time zones only."
  },
  {
   "property": "C28",
   "status": "partial",
   "theorems": [
    "Verif.C28_lt_is_component_order",
    "Verif.C28_eq_is_component_equality",
    "Verif.C28_trichotomy",
    "Verif.C28_strict_order",
    "Verif.C28_constructor",
    "Verif.C28_text_partial",
    "Verif.C28_text_violated",
    "Verif.C28_accepted_partial",
    "Verif.C28_accepted_violated",
    "Verif.C28_refused"
   ],
   "note": "Order and constructor proved. Text: fails for negative components given by keyword and the parser accepts a trailing newline (negations proved); partial otherwise."
  },
  {
   "property": "C29",
   "status": "partial",
   "theorems": [
    "Verif.C29_construct",
    "Verif.C29_partial",
    "Verif.C29_violated",
    "Verif.C29_arith",
    "Verif.C29_bits",
    "Verif.C29_invert",
    "Verif.C29_divmod"
   ],
   "note": "Numbers are range checked on every path (C29_construct, C29_partial over all expressions, exact results in C29_arith/C29_bits/C29_invert/C29_divmod). False for enum members: PSByte(Enum(300)) keeps 300 (C29_violated)."
  },
  {
   "property": "C30",
   "status": "partial",
   "theorems": [
    "Verif.C30_partial",
    "Verif.C30_exact",
    "Verif.C30_violated",
    "Verif.C30_sized"
   ],
   "note": "Exact set of plain ints that come back: -2^31 <= v < 2^63 (C30_exact). Below -2^31 the int is tagged I32 and refused by the reader (C30_violated). Sized ints always round trip (C30_sized)."
  },
  {
   "property": "C31",
   "status": "proved",
   "theorems": [
    "Verif.C31",
    "Verif.C31_statements",
    "Verif.C31_settings",
    "Verif.C31_read"
   ],
   "note": "Commands, order, statement marks and pipeline settings survive (C31, C31_statements, C31_settings); what arbitrary peer statements read as (C31_read). Host information is opaque here."
  },
  {
   "property": "C32",
   "status": "proved",
   "theorems": [
    "Verif.C32",
    "Verif.C32_current",
    "Verif.C32_redirect",
    "Verif.C32_redirect_refused"
   ],
   "note": "For every peer version; settings after any call sequence are the last allowed target per stream."
  },
  {
   "property": "C33",
   "status": "proved",
   "theorems": [
    "Verif.C33",
    "Verif.C33_refused",
    "Verif.C33_place",
    "Verif.C33_visible"
   ],
   "note": "Invariant over all call sequences, exact success condition, place of the property, visibility of the added property."
  },
  {
   "property": "C34",
   "status": "partial",
   "theorems": [
    "Verif.C34_read",
    "Verif.C34_write_partial",
    "Verif.C34_violated",
    "Verif.C34_violated_redefined"
   ],
   "note": "Read order proved (C34_read). Writes are read back and change nothing else for names that are not both a class attribute and a property and occur once per list (C34_write_partial, script setters excluded). False otherwise: C34_violated (class attribute shadows the written property), C34_violated_redefined (redefined inherited property)."
  },
  {
   "property": "C35",
   "status": "proved",
   "theorems": [
    "Verif.C35",
    "Verif.C35_inherited"
   ],
   "note": "Both directions for every list of type names; inheritance through PSType."
  },
  {
   "property": "C36",
   "status": "partial",
   "theorems": [
    "Verif.C36_missing",
    "Verif.C36_partial",
    "Verif.C36_exact",
    "Verif.C36_violated",
    "Verif.C36_plain",
    "Verif.C36_truncated",
    "Verif.C36_register"
   ],
   "note": "MissingCipherError before the exchange and the round trip afterwards for every invertible block cipher; exactly the texts with a character written as two surrogates do not come back (C36_exact, C36_violated). AES itself is a parameter."
  },
  {
   "property": "C37",
   "status": "proved",
   "theorems": [
    "Verif.C37_public",
    "Verif.C37_refused",
    "Verif.C37_length",
    "Verif.C37_exchange",
    "Verif.C37_shared"
   ],
   "note": "Blob round trip for every modulus and 32 bit exponent, the whole exchange for every RSA that decrypts what it encrypted, and both sides then reading each other."
  },
  {
   "property": "C38",
   "status": "proved",
   "theorems": [
    "Verif.C38",
    "Verif.C38_cells",
    "Verif.C38_exact",
    "Verif.C38_empty_columns",
    "Verif.C38_ragged"
   ],
   "note": "Rectangular lists with at least one row and column round trip (C38, C38_cells); C38_exact shows that no others do."
  },
  {
   "property": "C39",
   "status": "partial",
   "theorems": [
    "Verif.C39_partial",
    "Verif.C39_exact",
    "Verif.C39_violated",
    "Verif.C39_violated_raised"
   ],
   "note": "Proved exactly when the first data_to_send gives data. Otherwise the header is used up by a call that sends nothing or raises (C39_violated, C39_violated_raised)."
  },
  {
   "property": "C40",
   "status": "partial",
   "theorems": [
    "Verif.C40_stream_unique",
    "Verif.C40_streams",
    "Verif.C40_sorted",
    "Verif.C40_total",
    "Verif.C40_violated",
    "Verif.C40_shell_partial",
    "Verif.C40_document_partial",
    "Verif.C40_violated_document"
   ],
   "note": "Every object is put into the stream its S attribute names, in order (C40_sorted, C40_streams), and a shell's output arrives (C40_shell_partial). A bare ProgressRecord in the progress stream, the form serialize_clixml documents, makes from_clixml raise (C40_violated)."
  },
  {
   "property": "C41",
   "status": "partial",
   "theorems": [
    "Verif.C41_partial",
    "Verif.C41_value_partial",
    "Verif.C41_serializes",
    "Verif.C41_cyclic_list",
    "Verif.C41_violated",
    "Verif.C41_violated_string",
    "Verif.C41_violated_enum",
    "Verif.C41_violated_member",
    "Verif.C41_at_partial"
   ],
   "note": "Object graphs with cycles and sharing, all containers, enums, extended primitives, progress records: proved under GraphOk (faithful texts, properties of containers are no objects, keys of dicts are plain and distinct, objects equal as keys are the same, same first type name means same type names, members of registered enums have no properties). The full statement is false: C41_violated (object in a property and an entry of a container), lost string forms of containers, enum values the class does not have, string forms of enum members (the members of a class share one PSObject)."
  },
  {
   "property": "C42",
   "status": "partial",
   "theorems": [
    "Verif.C42_partial",
    "Verif.C42_violated"
   ],
   "note": "Proved at every position of a document if objects with the same first type name have the same type names; false otherwise (C42_violated)."
  },
  {
   "property": "C43",
   "status": "partial",
   "theorems": [
    "Verif.C43_partial",
    "Verif.C43_shared_partial",
    "Verif.C43_violated"
   ],
   "note": "Proved in both directions for all positions of a document if objects equal as keys are the same object; false otherwise (C43_violated: equal strings with different properties)."
  },
  {
   "property": "C44",
   "status": "partial",
   "theorems": [
    "Verif.C44_shown",
    "Verif.C44_partial_names",
    "Verif.C44_partial_zero",
    "Verif.C44_partial_union",
    "Verif.C44_partial",
    "Verif.C44_partial_inj",
    "Verif.C44_operators",
    "Verif.C44_enum",
    "Verif.C44_enum_refused",
    "Verif.C44_alias_violated",
    "Verif.C44_unknown_violated",
    "Verif.C44_overlap_violated",
    "Verif.C44_complement",
    "Verif.C44_complement_twice"
   ],
   "note": "Proved for classes without aliases and for values that are unions of members (all values of single-bit classes since Python 3.11). Violated for PSCredentialUIOptions (alias listed twice), for unknown bits before Python 3.11 (shown as None) and for PipelineResultTypes (members overlap)."
  },
  {
   "property": "C45",
   "status": "partial",
   "theorems": [
    "Verif.C45_send_violated",
    "Verif.C45_send_partial"
   ],
   "note": "send(None) queues a PipelineOutput instead of PipelineInput (negation proved); every other input proved."
  },
  {
   "property": "C46",
   "status": "partial",
   "theorems": [
    "Verif.C46_objects",
    "Verif.C46_made",
    "Verif.C46_field_partial",
    "Verif.C46_call_partial",
    "Verif.C46_reply",
    "Verif.C46_default_data",
    "Verif.C46_host_info",
    "Verif.C46_default_data_missing",
    "Verif.C46_field_violated",
    "Verif.C46_missing_violated"
   ],
   "note": "Objects, calls, replies, default data and host info round trip (C46_*). Field descriptions lose their default value and attributes (C46_field_violated), key infos and cells made without all arguments cannot be sent (C46_missing_violated); C46_field_partial and C46_call_partial say what is kept."
  },
  {
   "property": "C47",
   "status": "proved",
   "theorems": [
    "Verif.C47",
    "Verif.C47_exact",
    "Verif.C47_refused"
   ],
   "note": "Round trip, length, and exactly the padded byte strings are accepted."
  },
  {
   "property": "C48",
   "status": "proved",
   "theorems": [
    "Verif.C48_void_iff_no_answer",
    "Verif.C48_method_numbers",
    "Verif.C48_hostCall",
    "Verif.C48_client"
   ],
   "note": "The void methods are exactly those without a response method; a void call returns -100 and never waits."
  },
  {
   "property": "C49",
   "status": "partial",
   "theorems": [
    "Verif.C49_exact",
    "Verif.C49_partial",
    "Verif.C49_violated"
   ],
   "note": "C49_exact proves exactly when the escaped text is legal XML; U+FFFE, U+FFFF and lone U+D900-DBFF break it (C49_violated)."
  },
  {
   "property": "C50",
   "status": "partial",
   "theorems": [
    "Verif.C50_partial",
    "Verif.C50_exact",
    "Verif.C50_mixed",
    "Verif.C50_violated"
   ],
   "note": "The nanosecond attribute is ignored by comparisons (C50_violated); C50_exact says what is compared."
  },
  {
   "property": "C51",
   "status": "partial",
   "theorems": [
    "Verif.C51_duration",
    "Verif.C51_date_partial",
    "Verif.C51_date_exact",
    "Verif.C51_date_violated"
   ],
   "note": "Proved for durations; a copied date loses its nanosecond attribute (C51_date_violated)."
  },
  {
   "property": "C52",
   "status": "partial",
   "theorems": [
    "Verif.C52_partial",
    "Verif.C52_fraction",
    "Verif.C52_refused",
    "Verif.C52_years",
    "Verif.C52_violated"
   ],
   "note": "Proved for whole-minute time zones and four-digit years; C52_violated shows the others fail."
  },
  {
   "property": "C53",
   "status": "partial",
   "theorems": [
    "Verif.C53_partial",
    "Verif.C53_exact",
    "Verif.C53_violated",
    "Verif.C53_range",
    "Verif.C53_text"
   ],
   "note": "True for every char that is not a surrogate; surrogates raise UnicodeEncodeError (C53_exact, C53_violated)."
  },
  {
   "property": "C54",
   "status": "partial",
   "theorems": [
    "Verif.C54_partial",
    "Verif.C54_exact",
    "Verif.C54_violated"
   ],
   "note": "True unless errors are redirected to null: redirect_error(Null) does not clear an earlier Output for old peers (C54_exact, C54_violated)."
  },
  {
   "property": "C55",
   "status": "partial",
   "theorems": [
    "Verif.C55_partial",
    "Verif.C55_violated"
   ],
   "note": "True unless the original already carries the prefix; a second copy fails (C55_violated)."
  },
  {
   "property": "C56",
   "status": "proved",
   "theorems": [
    "Verif.C56",
    "Verif.C56_values"
   ],
   "note": "Exact success condition and resulting values, for classes with note properties and unique names."
  },
  {
   "property": "C57",
   "status": "partial",
   "theorems": [
    "Verif.C57_partial",
    "Verif.C57_violated"
   ],
   "note": "Holds for a peer with the same key; fails for another key: the old cipher text is sent (C57_violated)."
  },
  {
   "property": "C58",
   "status": "partial",
   "theorems": [
    "Verif.C58_partial",
    "Verif.C58_exact",
    "Verif.C58_violated",
    "Verif.C58_case"
   ],
   "note": "Round trip, exactly the texts with a character written as two surrogates excepted (C58_exact, C58_violated)."
  },
  {
   "property": "C59",
   "status": "partial",
   "theorems": [
    "Verif.C59_exact",
    "Verif.C59_partial",
    "Verif.C59_unregistered",
    "Verif.C59_later",
    "Verif.C59_library_partial",
    "Verif.C59_tags",
    "Verif.C59_violated"
   ],
   "note": "Proved for every declaration whose type name was not claimed before (C59_exact, C59_partial, C59_later, C59_library_partial). BufferCellType is declared with the type name of ControlKeyStates (C59_violated)."
  },
  {
   "property": "C60",
   "status": "proved",
   "theorems": [
    "Verif.C60_client_start_refused",
    "Verif.C60_client_start",
    "Verif.C60_client_start_fails",
    "Verif.C60_client_new",
    "Verif.C60_begin_stop_refused",
    "Verif.C60_client_begin_stop",
    "Verif.C60_server_begin_stop",
    "Verif.C60_server_start_refused",
    "Verif.C60_server_start",
    "Verif.C60_stop_refused",
    "Verif.C60_stop_again",
    "Verif.C60_stop",
    "Verif.C60_complete",
    "Verif.C60_close_refused",
    "Verif.C60_close"
   ],
   "note": "Decision logic of every operation; completing has no guard in the code and C60_complete says so."
  },
  {
   "property": "C61",
   "status": "partial",
   "theorems": [
    "Verif.C61_partial",
    "Verif.C61_again_partial",
    "Verif.C61_violated"
   ],
   "note": "Proved for graphs without queues; false for queues, which are emptied (C61_violated)."
  },
  {
   "property": "C62",
   "status": "partial",
   "theorems": [
    "Verif.C62_exact",
    "Verif.C62_violated",
    "Verif.C62_violated_status",
    "Verif.C62_violated_operation",
    "Verif.C62_violated_none"
   ],
   "note": "Exact characterisation of the records that come back (C62_exact); the full statement is false for empty texts and None (C62_violated...)."
  },
  {
   "property": "C63",
   "status": "partial",
   "theorems": [
    "Verif.C63_partial",
    "Verif.C63_values_partial",
    "Verif.C63_violated",
    "Verif.C63_violated_two",
    "Verif.C63_document_partial",
    "Verif.C63_violated_nothing",
    "Verif.C63_violated_documents"
   ],
   "note": "Proved for one or more values whose texts XML can hold, with the writer and reader of ElementTree as modelled (C63_document_partial), and for any XML library that reads what it writes (C63_partial). The empty list and two documents sent by one shell are not read (C63_violated_nothing, C63_violated_documents)."
  },
  {
   "property": "C64",
   "status": "partial",
   "theorems": [
    "Verif.C64_reader_exact",
    "Verif.C64_malformed",
    "Verif.C64_partial",
    "Verif.C64_exact",
    "Verif.C64_string_exact",
    "Verif.C64_violated",
    "Verif.C64_violated_object",
    "Verif.C64_violated_lines"
   ],
   "note": "C64_exact: the text is well-formed (Spec/XmlGrammar, the grammar of XML 1.0) exactly if all texts of the elements are of XML characters, and then they come back with line ends made line feeds. C64_reader_exact: the reader of the model accepts exactly the grammar; C64_malformed: deserialize_clixml raises for all other texts. C64_partial gives well-formedness for graphs whose texts XML can hold. It does not hold in general: U+FFFF in strings, control characters in type names and string forms (written unescaped), carriage returns in string forms."
  },
  {
   "property": "C65",
   "status": "partial",
   "theorems": [
    "Verif.C65_sends",
    "Verif.C65_arrives",
    "Verif.C65_partial",
    "Verif.C65_exact",
    "Verif.C65_written",
    "Verif.C65_violated"
   ],
   "note": "Who is sent and who arrives, exactly (C65_sends, C65_arrives); what arrives tells the same error exactly if the details hold some text and the stack trace is not empty (C65_exact). Details without text and an empty stack trace become None, a record without exception is sent but cannot be read (C65_violated)."
  },
  {
   "property": "C66",
   "status": "partial",
   "theorems": [
    "Verif.C66_arrives",
    "Verif.C66_partial",
    "Verif.C66_exact",
    "Verif.C66_sent",
    "Verif.C66_sent_error",
    "Verif.C66_unsent",
    "Verif.C66_written",
    "Verif.C66_violated"
   ],
   "note": "Who arrives, exactly (C66_arrives); the call, the place and the command are kept (C66_partial), everything exactly for settled infos (C66_exact). An InvocationInfo fresh from its constructor makes the reader raise ValueError; the position message and the script's path and root are lost (C66_violated)."
  },
  {
   "property": "C67",
   "status": "partial",
   "theorems": [
    "Verif.C67_settles",
    "Verif.C67_exact",
    "Verif.C67_violated",
    "Verif.C67_error_forwards",
    "Verif.C67_error_settles",
    "Verif.C67_error_violated"
   ],
   "note": "Informational records are final from the second arrival on (C67_settles, C67_exact), error records from the third (C67_error_settles); who can be passed on is C67_error_forwards. The script's path is lost on the second hop (C67_violated), and an error record that came with an invocation info without extent and offset cannot be sent on (C67_error_violated)."
  },
  {
   "property": "C68",
   "status": "partial",
   "theorems": [
    "Verif.C68_partial",
    "Verif.C68_int_exact",
    "Verif.C68_violated"
   ],
   "note": "Everything serialize_clixml writes for a graph of values within the limits of their types is in the grammar (C68_partial; GraphOk implies the condition up to decimals and NaN); plain ints exactly from -2^31 (C68_int_exact). Smaller plain ints are written as I32 with a number that no I32 holds (C68_violated), decimals with an exponent and NaN in forms the protocol lacks (C82, C83)."
  },
  {
   "property": "C69",
   "status": "partial",
   "theorems": [
    "Verif.C69_bool",
    "Verif.C69_int",
    "Verif.C69_char",
    "Verif.C69_string_partial",
    "Verif.C69_string_units_partial",
    "Verif.C69_date",
    "Verif.C69_duration",
    "Verif.C69_bytes",
    "Verif.C69_guid",
    "Verif.C69_decimal",
    "Verif.C69_float",
    "Verif.C69_float_specials",
    "Verif.C69_progress",
    "Verif.C69_dict",
    "Verif.C69_dict_refused",
    "Verif.C69_list",
    "Verif.C69_list_refused",
    "Verif.C69_dict_primitives",
    "Verif.C69_dict_dates_violated",
    "Verif.C69_enum",
    "Verif.C69_enum_violated",
    "Verif.C69_enum_fraction",
    "Verif.C69_keys_hashed",
    "Verif.C69_key_refused"
   ],
   "note": "Proved for booleans, integers, chars, GUIDs, decimals, floats, dates, durations, bytes, progress records, enums, and for dictionaries and lists of any values; for strings apart from texts with U+5F00 U+7800 (C23). Violated for the enum type BufferCellType, whose class is declared with another type's name, and for dictionaries with dates of one microsecond as keys: the nanosecond does not count for equality, so that an entry is lost (C69_dict_dates_violated)."
  },
  {
   "property": "C70",
   "status": "partial",
   "theorems": [
    "Verif.C70_partial",
    "Verif.C70_violated",
    "Verif.C70_violated_string"
   ],
   "note": "Any document is read as by a fresh reader if the documents before gave no properties to enum members or came from this library, up to string forms of enum members (C70_partial). Not in general: enum members share the metadata of their class, so a property (C70_violated) or string form (C70_violated_string) read on one member shows on all members read later. Documents whose reading failed are not covered."
  },
  {
   "property": "C71",
   "status": "partial",
   "theorems": [
    "Verif.C71_order_partial",
    "Verif.C71_complete_partial",
    "Verif.C71_progress",
    "Verif.C71_sent",
    "Verif.C71_utf8_written",
    "Verif.C71_utf8_read",
    "Verif.C71_not_utf8",
    "Verif.C71_violated",
    "Verif.C71_violated_surrogate",
    "Verif.C71_violated_none"
   ],
   "note": "Proved for all histories of sending, flushing, delivering and polling; for graphs and texts that come back (C41, C63). Texts with U+FFFE, U+FFFF or a lone high surrogate are sent but raise in the receiver, None as pipeline input arrives as output."
  },
  {
   "property": "C72",
   "status": "partial",
   "theorems": [
    "Verif.C72_made_exact",
    "Verif.C72_events_partial",
    "Verif.C72_complete_partial",
    "Verif.C72_connect_zero_violated",
    "Verif.C72_response_violated"
   ],
   "note": "Proved for all histories and all 31 message types, for graphs, texts and dates that come back. A limit of zero in ConnectRunspacePool arrives as None, an availability response of 2^63 or more is sent but raises in the receiver; what is in records is C77."
  },
  {
   "property": "C73",
   "status": "partial",
   "theorems": [
    "Verif.C73_session_partial",
    "Verif.C73_quiet_partial",
    "Verif.C73_server_progress_partial",
    "Verif.C73_client_progress_partial",
    "Verif.C73_handshake",
    "Verif.C73_limits_partial",
    "Verif.C73_reconnect_violated"
   ],
   "note": "Holds for all histories in which the server does not connect again while messages are on the way to the client; C73_reconnect_violated shows that an unread event is lost otherwise. C73_handshake is full."
  },
  {
   "property": "C74",
   "status": "partial",
   "theorems": [
    "Verif.C74_raises",
    "Verif.C74_line_partial",
    "Verif.C74_made",
    "Verif.C74_lines_partial",
    "Verif.C74_lines_violated",
    "Verif.C74_end_violated"
   ],
   "note": "Within one line and with the end column included (C74_line_partial, C74_made); what comes across lines is C74_lines_partial, the failures are C74_lines_violated and C74_end_violated"
  },
  {
   "property": "C75",
   "status": "partial",
   "theorems": [
    "Verif.C75_arrive_partial",
    "Verif.C75_complete_partial",
    "Verif.C75_unique"
   ],
   "note": "Over the whole path from the call of the API to the decoded event. Missing: prompt fields with a default value or attributes, and the limits of C72 (values the text layer changes). Replies with an error are C77."
  },
  {
   "property": "C76",
   "status": "partial",
   "theorems": [
    "Verif.C76_command",
    "Verif.C76_pipeline_partial"
   ],
   "note": "The whole pipeline over the wire; parameter values are objects that stand for the sender's. Missing: the limits of C72."
  },
  {
   "property": "C77",
   "status": "partial",
   "theorems": [
    "Verif.C77_arrive_partial",
    "Verif.C77_complete_partial"
   ],
   "note": "Proved for all histories of exchanged bytes, all records that meet the conditions of C65 and C66 and all object graphs under the conditions of C72. Missing: records outside those conditions (where C65/C66 prove the negation); the object in the property InvocationInfo of an error record is passed through as a value."
  },
  {
   "property": "C78",
   "status": "partial",
   "theorems": [
    "Verif.C78_message_partial",
    "Verif.C78_session_partial",
    "Verif.C78_calls_partial",
    "Verif.C78_handshake",
    "Verif.C78_limits_partial"
   ],
   "note": "Proved for all histories of two pools with the real serializer in which all messages meet the conditions of C72; C78_handshake has conditions on the configuration only. Missing: messages outside those conditions (C71 and C72 prove that some do not come back) and a server that connects again while messages are on the way (C73_reconnect_violated)."
  },
  {
   "property": "C79",
   "status": "partial",
   "theorems": [
    "Verif.C79_pipeline_partial",
    "Verif.C79_pool_partial",
    "Verif.C79_pool_violated"
   ],
   "note": "Proved for pipelines, with registered type names or without, and for the pool with them. Violated for the pool without: the event then shows an object that is no error record and has no CategoryInfo (C79_pool_violated, for every such message). Conditions of C65 and C72."
  },
  {
   "property": "C80",
   "status": "proved",
   "theorems": [
    "Verif.C80_bytes_response",
    "Verif.C80_bytes_once",
    "Verif.C80_bytes_call_arrives",
    "Verif.C80_bytes_answer_arrives",
    "Verif.C80_response",
    "Verif.C80_once",
    "Verif.C80_ids",
    "Verif.C80_call_arrives",
    "Verif.C80_answer_arrives",
    "Verif.C80_reconnect_violated"
   ],
   "note": "Histories without a connect of the server, as the property says; with one it fails, shown by C80_reconnect_violated. The same for bytes in C80_bytes_*."
  },
  {
   "property": "C81",
   "status": "partial",
   "theorems": [
    "Verif.C81_form",
    "Verif.C81_round_trip",
    "Verif.C81_read",
    "Verif.C81_refuse_partial",
    "Verif.C81_read_violated"
   ],
   "note": "The full statement fails on the real code: texts that are no GUIDs are accepted; the violation is proved."
  },
  {
   "property": "C82",
   "status": "partial",
   "theorems": [
    "Verif.C82_round_trip",
    "Verif.C82_read",
    "Verif.C82_read_exponent",
    "Verif.C82_form_partial",
    "Verif.C82_form_number",
    "Verif.C82_form_violated",
    "Verif.C82_spelling",
    "Verif.C82_only"
   ],
   "note": "The full statement fails on the real code: decimals with a positive or a small exponent are written in scientific notation; the violation is proved, and exactly which decimals are written in plain notation."
  },
  {
   "property": "C83",
   "status": "partial",
   "theorems": [
    "Verif.C83_round_trip",
    "Verif.C83_form_partial",
    "Verif.C83_form_violated",
    "Verif.C83_read",
    "Verif.C83_read_specials",
    "Verif.C83_spelling",
    "Verif.C83_single_violated",
    "Verif.C83_only",
    "Verif.C83_shortest"
   ],
   "note": "The full statement fails on the real code: NaN is written as NAN, and doubles are written as singles; the violations are proved."
  },
  {
   "property": "C84",
   "status": "partial",
   "theorems": [
    "Verif.C84_fragment",
    "Verif.C84_message",
    "Verif.C84_payload",
    "Verif.C84_body_partial"
   ],
   "note": "Layouts of fragments, messages and payloads proved exactly (C84_fragment, C84_message, C84_payload). The data of every kind of message is proved for all values that have a form in the protocol (C84_body_partial). Missing: values without a form (C68), and a limit of 0 in CONNECT_RUNSPACEPOOL, which the code leaves out (C72_connect_zero_violated)."
  },
  {
   "property": "C85",
   "status": "partial",
   "theorems": [
    "Verif.C85_call",
    "Verif.C85_number",
    "Verif.C85_reply",
    "Verif.C85_host_info",
    "Verif.C85_command",
    "Verif.C85_pipeline",
    "Verif.C85_document_partial"
   ],
   "note": "calls, replies, host information, commands and pipelines in full as trees; the text of the message for objects that have a form (C68)"
  },
  {
   "property": "C86",
   "status": "partial",
   "theorems": [
    "Verif.C86_accepts_partial",
    "Verif.C86_accepts_violated",
    "Verif.C86_methods_violated",
    "Verif.C86_called",
    "Verif.C86_one_source",
    "Verif.C86_refused",
    "Verif.C86_note",
    "Verif.C86_mandatory_violated",
    "Verif.C86_copy_partial",
    "Verif.C86_copy_violated"
   ],
   "note": "Accepted functions can be called, sources of values, refusals, notes and copies, for functions without keyword-only parameters that have no default; bound methods are refused, and late getters are not copied (violated theorems)"
  },
  {
   "property": "C87",
   "status": "partial",
   "theorems": [
    "Verif.C87_instances_partial",
    "Verif.C87_shared_violated",
    "Verif.C87_classes_partial",
    "Verif.C87_subclass_violated",
    "Verif.C87_new",
    "Verif.C87_set",
    "Verif.C87_decorated",
    "Verif.C87_add",
    "Verif.C87_add_class"
   ],
   "note": "Instances change only by what is done to them and classes only by what is added to them, in all programs that make the property objects they add; add_member with one property object for two instances shares its value, and an undecorated subclass shares the PSObjectMeta of its base."
  },
  {
   "property": "C88",
   "status": "partial",
   "theorems": [
    "Verif.C88_names",
    "Verif.C88_list",
    "Verif.C88_read_back",
    "Verif.C88_missing_violated",
    "Verif.C88_text",
    "Verif.C88_bytes_partial",
    "Verif.C88_bytes_violated",
    "Verif.C88_dict",
    "Verif.C88_foreign",
    "Verif.C88_immutable"
   ],
   "note": "Entries first, attributes then; written entries are read back; integer indexes of byte arrays and missing keys of dicts are shown to violate the claim."
  },
  {
   "property": "C89",
   "status": "partial",
   "theorems": [
    "Verif.C89_partial",
    "Verif.C89_grows_violated"
   ],
   "note": "Acceptance does not depend on history; the list of the guard is shown to grow with each call."
  },
  {
   "property": "C90",
   "status": "partial",
   "theorems": [
    "Verif.C90_custom_partial",
    "Verif.C90_shadow_violated",
    "Verif.C90_reserved_violated",
    "Verif.C90_added_violated",
    "Verif.C90_dict"
   ],
   "note": "Fields, order, type names and reading are proved for fields whose names are free; reserved, shadowed and doubled names are shown to violate the claim."
  },
  {
   "property": "C91",
   "status": "partial",
   "theorems": [
    "Verif.C91_client_exact",
    "Verif.C91_server_partial",
    "Verif.C91_client_history_partial",
    "Verif.C91_server_history_partial",
    "Verif.C91_open_violated",
    "Verif.C91_limit_violated",
    "Verif.C91_broken_violated",
    "Verif.C91_init_violated"
   ],
   "note": "Proved for every call and message and for histories, with a complete list of the client calls for which it fails (C91_client_exact); the failing ones are the _violated theorems."
  },
  {
   "property": "C92",
   "status": "partial",
   "theorems": [
    "Verif.C92_built",
    "Verif.C92_arrives",
    "Verif.C92_needs_command",
    "Verif.C92_refused",
    "Verif.C92_last_partial",
    "Verif.C92_twice_violated",
    "Verif.C92_settings_partial",
    "Verif.C92_sta_violated",
    "Verif.C92_object_parameters",
    "Verif.C92_object_parameter"
   ],
   "note": "Proved for all statements, histories and settings; the two failing cases (a Command object added twice, apartment state STA) are the _violated theorems."
  },
  {
   "property": "C93",
   "status": "partial",
   "theorems": [
    "Verif.C93_information_partial",
    "Verif.C93_progress_partial",
    "Verif.C93_arrives_partial",
    "Verif.C93_information_refused_exact",
    "Verif.C93_progress_refused_exact",
    "Verif.C93_user_violated"
   ],
   "note": "Holds for objects that meet the conditions of C71 and C72; when exactly the methods raise is settled. A user whose name getpass.getuser cannot tell makes write_information raise though the argument is optional (C93_user_violated)."
  },
  {
   "property": "C94",
   "status": "partial",
   "theorems": [
    "Verif.C94_repr_partial",
    "Verif.C94_vars_exact",
    "Verif.C94_vars_order",
    "Verif.C94_vars_partial",
    "Verif.C94_used",
    "Verif.C94_vars_violated",
    "Verif.C94_repr_violated"
   ],
   "note": "Proved for objects of which no property is hidden by an attribute; vars is settled exactly for all objects (C94_vars_exact, C94_vars_order). An attribute set before a property of the same name is added, or a method of the class, makes vars and repr show another value than the attribute (C94_vars_violated, C94_repr_violated)."
  }
 ]
}