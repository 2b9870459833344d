# Formal model of psrpcore in Lean 4

`properties.jsonl` lists the properties, `lean/Verif/` holds the model and the proofs, `MANIFEST.json` maps
properties to theorems, `seeded/LOG.jsonl` records the wrong programs the theorems were tried against.

## Layout

* `Verif/Model/*`: the model. Each module mirrors a part of `/repo/src/psrpcore` function by function and branch by
  branch; every definition cites the file and lines it models, and says where it simplifies.
* `Verif/Spec/*`: small specifications in which the properties are stated, apart from the model's helpers.
* `Verif/Proof/*`: helper lemmas.
* `Verif/Props/*`: the property theorems, named after the property (`C04_...`), each with a concrete case that meets
  its hypotheses beside it.

Names of theorems: `_exact` is an equivalence, `_partial` has hypotheses the property does not have, `_violated` is a
proof that the code does not have the property, with a witness.

## Method

* Python exceptions are values of `Err`. A method that changes `self` is a function
  `State → State × Except Err α`, so the state a *failing* call leaves behind is part of the model.
* Python dicts are association lists in insertion order (`Dict`) with overwrite in place, as in CPython. Texts are
  lists of code points (`PyStr`), so surrogates can occur in them as in Python.
* Histories: the pools are transition systems (`Model/Ops`, `Model/Session`, `Model/Link`), the properties are
  invariants over all lists of operations, or over all interleavings of a client and a server joined by queues.
* Object graphs are heaps with addresses, so that sharing and cycles can be stated. What the serializer gives is
  related to what was given by a simulation between the two heaps.
* Where the code violates a property, the negation is proved with a witness and the positive theorem is kept with the
  hypothesis it needs, as an equivalence wherever that could be proved.

## Trusted base

* The kernel of Lean 4.33.0. No own axioms, no `sorry`, no `native_decide`, no `bv_decide`. The property theorems
  depend on at most `propext`, `Classical.choice` and `Quot.sound` (checked with `#print axioms`).
* The translation from Python to Lean by hand, which the line citations make reviewable.

### Modelled

| part of /repo/src/psrpcore | module |
|---|---|
| `_payload.py` | `Payload`, `Transport` |
| `_base.py`, `_client.py`, `_server.py` (pools, pipelines, host calls, limits, key exchange) | `Pool`, `Client`, `Server`, `Ops`, `Transport`, `Session`, `Link` |
| `_command.py`, `_pipeline.py` | `Command` |
| `_crypto.py`, secure strings of `types/_serializer.py` | `Crypto` |
| `_host.py`, `types/_host.py` | `Host`, `HostMethod` |
| `_clixml_shell.py`, `types/_serializer.py` (documents) | `Clixml` |
| `types/_serializer.py` (graphs), `types/_collection.py` | `Serializer`, `Library` |
| `types/_serializer.py` (strings, dates, durations) | `StringEsc`, `DateTime`, `Duration`, `Text` |
| `types/_primitive.py`, with `uuid.UUID`, `decimal.Decimal` and `float` as far as texts go | `Ints`, `Numbers`, `Version`, `DateTime`, `Duration` |
| `types/_base.py`, `types/_complex.py` (class table) | `PSObject`, `Registry` |
| `types/_enum.py` | `Enum` |
| `types/_complex.py` (records, invocation infos, script extents), `write_error` and the like of `_server.py` | `Records` |
| `types/_psrp.py`, `_events.py` | `Events`, `Contents` |
| `prepare_message` and `_process_message` of `_base.py` with objects and bytes | `Wire`, `Written` (in Spec), `ByteSession`, `Codec` |
| `xml.etree.ElementTree`, as far as it is used | `XmlText` |

### Not modelled, or simplified

* CPython, `struct`, `base64`, logging, `__repr__`, threads (the library is single threaded).
* AES, RSA and Windows data protection are parameters with the hypothesis that they invert; key pairs and session
  keys of sessions (C20) are numbers.
* ElementTree: C39 to C63 take the XML library as a parameter; `XmlText` is a stand-in for it that refuses comments,
  processing instructions, CDATA sections and declarations, is generous about names, and ignores namespaces. What it accepts
  is exactly the grammar in `Spec/XmlGrammar` (`C64_reader_exact`).
* Recursion is bounded by a number (Python's recursion limit); the theorems hold for every bound that lets the
  call return.
* `datetime`: dates are fields with a proved calendar; time zones have fixed offsets; the text of the year is a
  platform parameter (`year4`); `strptime` is taken to read two-digit fields; float division is exact.
* `upper()` and `lower()` change ASCII letters only.
* Script properties and callables are numbered parameters; text forms of values that are no primitives are parameters.
* `PSType` decorators do not change the lists they were given afterwards. The classes of messages are not in the
  table of the registry.
* Serializer: the texts of secure strings are not looked into; time zones of dates that are keys of a dict have fixed offsets; limits of the decimal context are
  left out; `ToPSObjectForRemoting` and
  `FromPSObjectForRemoting` hooks are left out (the classes that have them are modelled on their own in `Command`,
  `Host` and `Records`); progress records have texts and a type.
* Records: the reader gets the properties the writer made, by name; `dirname` is a parameter; a string form set by the
  caller, `CategoryInfo` of `None` and values of other classes in typed properties are left out.
* Enums: members of a class share the `PSObject` of the class, as in the code; flags follow Python 3.11 and later (a
  value outside the declared bits is refused), and negative values of flags are not modelled. A combination of flags
  written as a float or decimal (`5.0`) is accepted by the model and refused by Python. That equal members are the same Python object is left out.
* Host information is opaque in C31; flag values are not negative.
* Sessions: the state machines know the objects of callers, keys and pipelines by numbers. C73 joins them with the bytes for any
  codec that reads back what it wrote, C78 with the serializer and the events; there a store has the objects of the numbers
  and the receiver has a way to tell them, and every message is read with fresh enum classes (C70 is about what they keep).
* Events: host information, commands and host parameters are shown before their own hooks (those are C75 and C76, and C77 for
  records); values of other classes in the typed properties of user events and progress records are refused.

## Properties

| id | title | model | how | status |
|---|---|---|---|---|
| C01 | Fragment wire format round trip | Payload | round trip over all ids, data and trailing bytes | proved |
| C02 | Message wire format round trip | Payload | round trip; witnesses that the two exclusions are needed | proved |
| C03 | Payload never exceeds the requested amount | Transport | induction over the loop of data_to_send | proved |
| C04 | Transport is a reliable FIFO | Transport | invariant over all histories, refinement to a FIFO of messages | proved |
| C05 | data_to_send makes progress | Transport | measure that decreases with every call | proved |
| C06 | One payload targets one pipeline | Transport | loop invariant | proved |
| C07 | Payload stream type describes its content | Transport | negation by witness; partial for messages of one stream type | partial |
| C08 | Reassembly under any interleaving | Transport | induction over fragments; specification by filtering per object id | proved |
| C09 | Out of sequence fragments are rejected | Transport | decision logic and invariant | proved |
| C10 | Arrival chunking does not matter | Transport | negation for cuts inside a fragment; partial for cuts at boundaries | partial |
| C11 | Object ids are unique and increasing | Pool, Client, Server, Ops | invariant over histories; negation for connect on a server | partial |
| C12 | Runspace pool state guards | Client, Server, Ops | case analysis against a guard table (`Spec/Pool`) | proved |
| C13 | A pool with live pipelines cannot be closed | Client, Server, Ops | invariant over histories; negation for equal ids | partial |
| C14 | Pipeline data only flows while running | Client, Server | decision logic with frame conditions | proved |
| C15 | Call ids are never reused | Pool, Ops | invariant over histories | proved |
| C16 | A host call is answered at most once | Client, Ops | waiting calls are defined from the history, then invariant | proved |
| C17 | Runspace limits change only by agreement | Session | invariant over all interleavings of a client and a server joined by two FIFO queues | proved |
| C18 | Every availability request is answered at most once and never with an unknown id | Session, Props/ByteHost | the same; where a request is (in flight, waiting, answered); for bytes by C73 | partial |
| C19 | Protocol version gates | Client, Server | decision logic; the version is read off the history | proved |
| C20 | Key exchange happens at most once | Session, Props/ByteHost | invariant; for bytes by C73 | proved |
| C21 | Opening handshake | Link, Session | all schedules, and what holds when both queues are empty | proved |
| C22 | State messages mirror the server | Server, Session, Props/ByteHost, Props/BytePipe | the queued state messages are the state changes, over histories; for bytes by C73 | partial |
| C23 | CLIXML string escaping round trip | StringEsc | exact characterisation of the texts that come back | partial |
| C24 | Escaped text is safe for XML | StringEsc | exact characterisation | partial |
| C25 | Duration text round trip | Duration | exact characterisation | partial |
| C26 | Duration arithmetic is exact | Duration | homomorphism to integers (nanoseconds) | partial |
| C27 | Date plus duration is exact | DateTime | homomorphism to integers, calendar proved | partial |
| C28 | Version order and text | Version | order laws, parser and printer round trip | partial |
| C29 | Integers stay in range | Ints | invariant over all expressions | partial |
| C30 | Plain Python ints survive serialization | Ints | exact characterisation | partial |
| C31 | Statement grouping round trip | Command | round trip; reading of arbitrary peer statements | proved |
| C32 | Command redirection round trip per protocol version | Command | round trip per version; settings read off the call sequence | proved |
| C33 | Added members are unique and visible | PSObject | invariant over call sequences | proved |
| C34 | Attribute lookup order on PSObjects | PSObject | decision logic; negations by witness | partial |
| C35 | ps_isinstance is inclusion of type names | PSObject | both directions of a set inclusion | proved |
| C36 | Secure strings need and use the session key | Crypto | round trip with the block cipher as a parameter | partial |
| C37 | Public key blob round trip | Crypto | round trip with RSA as a parameter | proved |
| C38 | Multi dimensional host arrays round trip | Host | round trip and exact characterisation | proved |
| C39 | CLIXML shell output starts with its header | Clixml | exact, over all sequences of calls of a shell | partial |
| C40 | CLIXML streams are routed by tag | Clixml | sorting against a specification; from a shell to the output | partial |
| C41 | Object graph serialization round trip | Serializer | simulation between the heap that is written and the one that is read | partial |
| C42 | Type name references are faithful | Serializer | the same, at every path | partial |
| C43 | Object references are faithful | Serializer | the same, two paths meet exactly if they did before | partial |
| C44 | Enum and flag text | Enum, EnumInvert, Props/EnumInvert | round trip, exact characterisation; the complement bit by bit | partial |
| C45 | Null pipeline input keeps its message type | Client | negation for None; partial for the rest | partial |
| C46 | Host object round trip | Host, HostMethod | round trip per class | partial |
| C47 | PKCS7 padding | Crypto | round trip, exact characterisation | proved |
| C48 | Void host calls never wait for an answer | Host, HostMethod, Server | whole finite table of methods, then decision logic | proved |
| C49 | Escaped text is legal XML | StringEsc | exact characterisation | partial |
| C50 | Dates compare by their exact instant | DateTime | order against instants | partial |
| C51 | Copying a date or duration keeps its value | DateTime, Duration | equality of fields | partial |
| C52 | Date text round trip | DateTime | round trip, exact characterisation of the time zones | partial |
| C53 | A char is one UTF-16 code unit, and its text makes it again | Ints | exact characterisation | partial |
| C54 | Error redirection reaches old peers | Command | settings read off the call sequence | partial |
| C55 | Type tests see through deserialized copies | PSObject | decision logic | partial |
| C56 | The default constructor sets exactly the given properties | PSObject | exact success condition and result | proved |
| C57 | Secure strings can be passed on | Crypto | round trip; negation for another key | partial |
| C58 | Local secure strings round trip | Crypto | round trip, exact characterisation | partial |
| C59 | The type name of a class belongs to that class | Registry | invariant over declarations; the whole table of the library | partial |
| C60 | Pipeline lifecycle guards | Client, Server | decision logic per operation | proved |
| C61 | Serializing leaves the objects alone | Serializer | frame; negation for queues | partial |
| C62 | Progress records come back | Serializer | exact characterisation | partial |
| C63 | CLIXML texts are read back | Clixml, XmlText | C41 through the text form | partial |
| C64 | Documents are well-formed XML | XmlText, Spec/XmlGrammar, Proof/XmlGrammar | the grammar of XML 1.0 as inductive predicates; the reader accepts exactly it (invariant of the elements begun, and induction over derivations); exact characterisation of the texts that are written | partial |
| C65 | Error records come back | Records | round trip, exact success conditions and exact characterisation | partial |
| C66 | Invocation info comes back | Records | round trip, exact success condition and exact characterisation | partial |
| C67 | Received records can be passed on | Records | fixed point of repeated round trips, exact conditions | partial |
| C68 | Values are written in the forms of the protocol | Serializer, XmlText | grammar as an inductive predicate, induction over the writer | partial |
| C69 | What other peers write is read | Serializer, XmlText, DateTime, Duration, Crypto, Library, Props/Reading, Props/ReadingKeys, Props/ReadingFractions | grammars of the accepted spellings, reading lemmas per form; negations for the misdeclared enum and for dates of one microsecond as keys | partial |
| C70 | Reading a document does not change what other documents mean | Serializer | simulation between two readers; negation through enum members | partial |
| C71 | An object that is sent arrives | Model/Wire, Spec/Wire, Proof/Utf8, Proof/Wire, Props/Wire | Composition: the fragments arrive in order (C04), the data is UTF-8 (proved equal to the encoding of Lean, decoded only if valid), the text is read as the element that was written (C64), the element as the graph (C41), with the metadata of enum classes carried from message to message (C70). Invariant over all histories of the link. Partial: graphs and texts must be ones that come back; the witnesses are U+FFFF, lone surrogates and None as input. | partial |
| C72 | Events show what was sent | Model/Events, Spec/Events, Proof/Events, Props/Events | Composition with C71: the message as a new object on the heap of the caller keeps the conditions on graphs, and each property of the event is computed from the properties that came back. Induction over histories by that of C71. Exact condition for the message classes. Partial: graphs, texts and dates must be ones that come back; a limit of zero in ConnectRunspacePool is left out and the untyped availability response must be below 2^63 (witnesses). | partial |
| C73 | A session over bytes is a session of messages | Model/ByteSession, Spec/ByteSession, Proof/ByteSession, Props/ByteSession | Refinement of Model/Session: an invariant relates the bytes queued, on the way and half read in each direction to the messages in flight (a window of consecutive object ids), kept by every step; induction over histories. Handshake and limits by C21 and C17. Partial: the server must not connect again while messages are on the way to the client (witness). | partial |
| C74 | The text of a script extent | Model/Records, Spec/Extent, Props/Extent | Columns of a line are specified character by character; Text is compared with them for all columns. Partial: holds within one line if the end column is included; across lines the text begins behind the start column and takes the last line behind the end (witness); where psrpcore itself makes an extent the end is the column behind it, then Text of every extent within the line has one character too many. | partial |
| C75 | What users put into host calls, replies and host information is what the other side reads | Model/Host, Model/Contents, Spec/Contents, Proof/Contents, Props/Contents | A value of the sender and of the receiver is looked at node by node (`IsTree`); trees keep their shape over the wire because the object graphs match (C72), then decoding is C46 on trees. Partial: prompt fields without default value and attributes, replies without an error; and what is missing in C72. | partial |
| C76 | A pipeline that was sent is the pipeline the server's event gives | Model/Contents, Spec/Contents, Proof/Contents, Props/Contents | The reader of pipelines is a function of trees that reads what the writer made (C31, C32); joined with C75. Partial as C72. | partial |
| C77 | Records that a server writes, and the reasons it gives, arrive | Model/Events, Model/Records, Spec/Written, Proof/Written, Props/Written | The object of a record has the note properties of C65/C66 with values of the heap; the receiver, which finds objects that stand for them (C72), finds under every name what the reader of C65/C66 asks for. Partial: the conditions of C65 and C66 and what is missing in C72; the object in the property `InvocationInfo` of an error record is passed through as a value. | partial |
| C78 | A client and a server of the library understand each other | Model/Codec, Model/ByteSession, Model/Events, Model/Wire, Spec/Codec, Proof/Codec, Props/Codec | C73 with the serializer, the parser and the events as the codec: a message of the state machines that meets the conditions of C72 is read back as that message. For the handshake only the configuration is assumed, by an invariant over the sessions of messages. Partial: the messages that C71 and C72 exclude, and the reconnecting server of C73. | partial |
| C79 | A failed host call shows an error record | Model/HostErrors, Model/Events, Spec/HostErrors, Proof/HostErrors, Props/HostErrors | C72 gives the object under `me` at the receiver; for an object of the class the deserializer made the record (C77), for another one its properties are those that were sent, from which C65 makes the record. Violated for the pool: its event returns the object as it is, for every error without registered type names. | partial |
| C80 | The response a server gets belongs to the host call it made | Model/Session, Spec/HostSession, Proof/HostSession, Props/HostSession, Props/ByteHost | For bytes by C73. Invariant by induction over histories of a session: every call in the send buffer of the server was made in the history, under increasing ids; every call recorded at the client was shown to it; recorded and answered ids are together distinct and among those delivered; the ids the server has seen are those answered. Outside the property: after a `connect` of the server, which restarts the count, a stale response has the id of a new call (`C80_reconnect_violated`). | proved |
| C81 | GUIDs are written in the form of the protocol and read back in every spelling | Model/Numbers, Spec/Numbers, Proof/Guid, Props/Numbers | `str` and the constructor of `uuid.UUID` modelled with the stripping and `int(s, 16)`. Round trip and form over the 32 digits; reading over the spellings. Violated: hyphens anywhere, and a prefix, sign, blanks or an underscore in place of digits are accepted (`C81_read_violated`). | partial |
| C82 | Decimals keep their digits over the wire and are written in plain notation | Model/Numbers, Spec/Numbers, Proof/Numbers, Proof/Decimals, Props/Numbers | `Decimal.__str__` and the constructor modelled on sign, coefficient and exponent. Round trip over all decimals; exactly which are written in plain notation. Violated: `Decimal("1E+3")` is written as `1E+3`, which is no xs:decimal (`C82_form_violated`). | partial |
| C83 | Floats come back bit for bit, and numbers in texts are read as the nearest double | Model/Numbers, Spec/Numbers, Proof/Floats, Proof/FloatsRead, Proof/FloatsShort, Props/Numbers | Doubles as multiples of 2^-1074 of 53 bits; reading as rounding of a fraction to the nearest one, ties to even; `repr` as the shortest digits that are read back. Round trip, form and nearness for all doubles and all fractions; no shorter number is read as the float, and 17 digits are enough (`C83_shortest`). Violated: NaN is written as `NAN` (`C83_form_violated`); `PSSingle` holds and writes doubles (`C83_single_violated`). | partial |
| C84 | What is sent has the layout of the protocol | Spec/Messages, Proof/Messages, Props/Messages | The tables of [MS-PSRP] written down once more, apart from the model: the layouts of fragments and messages as relations on bytes, the numbers of the messages and states, and the fields of each of the 31 messages. Fragments and messages are exactly the bytes with the layout; the data of each message is the text of its fields (with the forms of C68 for values). Partial: values without a form, and a limit of 0 in CONNECT_RUNSPACEPOOL (`C72_connect_zero_violated`). | partial |
| C85 | Host calls, replies, host information and pipelines have the layout of the protocol | Spec/Layouts, Proof/Layouts, Props/Layouts | The tables of [MS-PSRP] 2.2.3 for host methods, host objects, host information, commands and pipelines written down apart from the model, as relations between what is given and a tree of values, and the text of a tree as a relation (`TreeText`). Each encoder is shown to make a tree of the layout, and C84 is used to show that the data of the message is the text of the trees. A pipeline whose last command ends its statement is sent with an empty statement behind it (`_pipeline.py:113-132`). Partial: objects without a form (C68). | partial |
| C86 | Getters, setters and values of properties | Model/Property, Spec/Property, Proof/Property, Props/Property | `PSPropertyInfo` as a structure with the getter, setter and value it has, functions as lists of the parameters `inspect.signature` gives, `_validate_callable` branch by branch; what Python takes as a call is specified apart on signatures (`Signature.Takes`). Invariant by induction over the list of assignments. Partial: a function with a keyword-only parameter without default is accepted and each reading is a TypeError (`C86_accepts_violated`); bound methods and other callables that are no functions are refused (`C86_methods_violated`); `copy` drops a getter assigned to a note later and a setter assigned to an alias, and fails for a script property whose getter is a falsy value (`C86_copy_violated`); `None` is accepted for mandatory properties against the documentation (`C86_mandatory_violated`). The documentation of PSScriptProperty has the arguments of the setter the other way round (`_base.py:506-509`), the code calls it with the object first. Defaults of parameters whose `__eq__` is equal to everything are not modelled. | partial |
| C87 | Instances are independent of their class and of each other | Model/World, Spec/World, Proof/World, Proof/WorldStep, Proof/WorldViews, Props/World | A heap of property objects and of `PSObjectMeta` objects; classes and instances hold references (numbers). Invariant by induction over programs (`Owned`): each property object belongs to one instance or to the classes, no instance has one twice, those of classes are as they were made. From it the frame theorems, and that each step is what `PsObj.setAttr` and `PsObj.addMember` (C33, C34) do on an object alone. Partial: `add_member` does not copy, so a property object given to two instances has one value for both (`C87_shared_violated`); a derived class without decorator has the `PSObjectMeta` of its base, so that what is added to it is added to the base (`C87_subclass_violated`). Types of properties are assumed to leave alone what they made (`CastsOnce`). Members of enums, which have the `PSObjectMeta` of their class, are in C41 and C70. | partial |
| C88 | Indexing reads entries first and properties then | Model/Indexing, Spec/Indexing, Proof/Indexing, Props/Indexing | `__getitem__` and `__setitem__` branch by branch over the attributes of C34; places of indexes and slices are specified by arithmetic on positions (`AtIndex`, `Between`). Partial: a byte array makes a byte array of the number it finds, which is that many zero bytes (`C88_bytes_violated`); a dict never raises `KeyError`, it takes the key for the name of an attribute (`C88_missing_violated`). Not modelled: assigning to slices of lists, steps, equal keys of different types. | partial |
| C89 | Operators of durations do not depend on what was done before | Model/Guard, Props/Guard | The list of the guard as a state; invariant by induction over the calls: all its classes are derived from the one the operator is for. Partial: the list grows by one with each call (`C89_grows_violated`). | partial |
| C90 | Objects made of keyword arguments have exactly these properties | Model/Bag, Props/Bag | The two loops in closed form by induction, then the reading rules of C34. Partial: `self` and `cls` are refused as fields (`C90_reserved_violated`); fields with the name of a Python attribute read as that (`C90_shadow_violated`); a field the class was given before is there twice, and what is assigned to it is lost (`C90_added_violated`). | partial |
| C91 | A call that raises has no effect | Spec/Refused, Proof/Refused, Props/Refused | Case analysis over all calls of the existing model; histories by induction. Partial: `open` with limits or arguments that cannot be sent leaves a pool that can never be opened (`C91_open_violated`); `set_max_runspaces` and `set_min_runspaces` out of range leave a handler for a request that was never sent (`C91_limit_violated`); `set_broken` with an error that cannot be sent breaks the pool without telling the client (`C91_broken_violated`); private data that cannot be sent (`C91_init_violated`). For the client the list of such calls is shown to be complete and right (`C91_client_exact`). | partial |
| C92 | A pipeline that is built by calls is the pipeline that was meant | Model/Builder, Spec/Builder, Proof/Builder, Props/Builder, Props/BuilderObjects | Objects apart from the list that refers to them; the calls for given statements in closed form by induction, then C31. Partial: a Command object added twice is one object, so that parameters and ends of statements meant for one use are those of both (`C92_twice_violated`); the apartment state STA has the number 0 and is replaced by that of the pool (`C92_sta_violated`). | partial |
| C93 | Information and progress records show what was written | Model/Streams, Spec/Streams, Props/Streams | What the machine tells is a parameter of the model; the message the methods make in terms of what is given or told, then C72. Partial: the conditions of C71 and C72 on objects, and `getpass.getuser` raises for a user without a name, which is not caught (`C93_user_violated`). | partial |
| C94 | vars and repr show what the attributes of an object read as | Model/Shown, Spec/Shown, Proof/Shown, Props/Shown | The dict of the properties in closed form (names in order of first mention, the last property of each), the loops over it by induction. Partial: a property hidden by an attribute of the instance or the class is shown though the attribute reads as something else (`C94_vars_violated`, `C94_repr_violated`). | partial |

All properties of the list can be expressed. For every partial property the code does not have it as stated:
a negation is proved beside the partial theorem. The notes in `MANIFEST.json` say what is missing.

## Where the code disagrees with a property

* **C07** Payload stream type describes its content: The property fails (negation proved): the stream type is that of the first message only. Partial: holds when the queued messages of that pipeline share a stream type.
* **C10** Arrival chunking does not matter: The property fails for cuts inside a fragment (negation proved: struct.error, or a truncated payload taken as whole). Partial: cuts at fragment boundaries.
* **C11** Object ids are unique and increasing: Client: increasing object ids in every history. Server: the same in every history without connect; connect restarts the ids (negation proved), so the full claim fails there.
* **C13** A pool with live pipelines cannot be closed: Proved for every history of client and server pipelines with different ids; with two pipelines of the same id the claim is false (negation proved).
* **C18** Every availability request is answered at most once and never with an unknown id: An int answer outside [-2^31, 2^63) cannot be read by the client (C18_violated); everything else is proved for all sessions.
* **C22** State messages mirror the server: Holds for pipelines; for the pool it fails when set_broken is given an error that cannot be serialized, or that needs a session key the client lacks (C22_pool_violated, C22_session_violated). The pool theorems exclude those errors.
* **C23** CLIXML string escaping round trip: C23_exact proves exactly which texts round trip; the code loses texts with a lone U+D900-DBFF, a split surrogate pair or an escape-like byte pattern at an odd offset (C23_violated gives witnesses).
* **C24** Escaped text is safe for XML: No control characters or low surrogates ever appear; surrogates U+D900-DBFF are not escaped (C24_exact, C24_violated).
* **C25** Duration text round trip: C25_exact: whole-tick durations round trip exactly when the seconds part is not 10, 20, 30, 40 or 50 whole seconds; the code strips the zero (C25_violated).
* **C26** Duration arithmetic is exact: +, -, negation and comparisons proved exact; abs, * and timedelta + PSDuration are inherited and drop the nanoseconds (C26_violated).
* **C27** Date plus duration is exact: Sum, difference and the way back proved; (d + x) - x fails with OverflowError within the first microsecond of year 1 (C27_back_violated). Fixed-offset time zones only.
* **C28** Version order and text: Order and constructor proved. Text: fails for negative components given by keyword and the parser accepts a trailing newline (negations proved); partial otherwise.
* **C29** Integers stay in range: Numbers are range checked on every path (C29_construct, C29_partial over all expressions, exact results in C29_arith/C29_bits/C29_invert/C29_divmod). False for enum members: PSByte(Enum(300)) keeps 300 (C29_violated).
* **C30** Plain Python ints survive serialization: Exact set of plain ints that come back: -2^31 <= v < 2^63 (C30_exact). Below -2^31 the int is tagged I32 and refused by the reader (C30_violated). Sized ints always round trip (C30_sized).
* **C34** Attribute lookup order on PSObjects: Read order proved (C34_read). Writes are read back and change nothing else for names that are not both a class attribute and a property and occur once per list (C34_write_partial, script setters excluded). False otherwise: C34_violated (class attribute shadows the written property), C34_violated_redefined (redefined inherited property).
* **C36** Secure strings need and use the session key: MissingCipherError before the exchange and the round trip afterwards for every invertible block cipher; exactly the texts with a character written as two surrogates do not come back (C36_exact, C36_violated). AES itself is a parameter.
* **C39** CLIXML shell output starts with its header: Proved exactly when the first data_to_send gives data. Otherwise the header is used up by a call that sends nothing or raises (C39_violated, C39_violated_raised).
* **C40** CLIXML streams are routed by tag: Every object is put into the stream its S attribute names, in order (C40_sorted, C40_streams), and a shell's output arrives (C40_shell_partial). A bare ProgressRecord in the progress stream, the form serialize_clixml documents, makes from_clixml raise (C40_violated).
* **C41** Object graph serialization round trip: Object graphs with cycles and sharing, all containers, enums, extended primitives, progress records: proved under GraphOk (faithful texts, properties of containers are no objects, keys of dicts are plain and distinct, objects equal as keys are the same, same first type name means same type names, members of registered enums have no properties). The full statement is false: C41_violated (object in a property and an entry of a container), lost string forms of containers, enum values the class does not have, string forms of enum members (the members of a class share one PSObject).
* **C42** Type name references are faithful: Proved at every position of a document if objects with the same first type name have the same type names; false otherwise (C42_violated).
* **C43** Object references are faithful: Proved in both directions for all positions of a document if objects equal as keys are the same object; false otherwise (C43_violated: equal strings with different properties).
* **C44** Enum and flag text: Proved for classes without aliases and for values that are unions of members (all values of single-bit classes since Python 3.11). Violated for PSCredentialUIOptions (alias listed twice), for unknown bits before Python 3.11 (shown as None) and for PipelineResultTypes (members overlap).
* **C45** Null pipeline input keeps its message type: send(None) queues a PipelineOutput instead of PipelineInput (negation proved); every other input proved.
* **C46** Host object round trip: Objects, calls, replies, default data and host info round trip (C46_*). Field descriptions lose their default value and attributes (C46_field_violated), key infos and cells made without all arguments cannot be sent (C46_missing_violated); C46_field_partial and C46_call_partial say what is kept.
* **C49** Escaped text is legal XML: C49_exact proves exactly when the escaped text is legal XML; U+FFFE, U+FFFF and lone U+D900-DBFF break it (C49_violated).
* **C50** Dates compare by their exact instant: The nanosecond attribute is ignored by comparisons (C50_violated); C50_exact says what is compared.
* **C51** Copying a date or duration keeps its value: Proved for durations; a copied date loses its nanosecond attribute (C51_date_violated).
* **C52** Date text round trip: Proved for whole-minute time zones and four-digit years; C52_violated shows the others fail.
* **C53** A char is one UTF-16 code unit, and its text makes it again: True for every char that is not a surrogate; surrogates raise UnicodeEncodeError (C53_exact, C53_violated).
* **C54** Error redirection reaches old peers: True unless errors are redirected to null: redirect_error(Null) does not clear an earlier Output for old peers (C54_exact, C54_violated).
* **C55** Type tests see through deserialized copies: True unless the original already carries the prefix; a second copy fails (C55_violated).
* **C57** Secure strings can be passed on: Holds for a peer with the same key; fails for another key: the old cipher text is sent (C57_violated).
* **C58** Local secure strings round trip: Round trip, exactly the texts with a character written as two surrogates excepted (C58_exact, C58_violated).
* **C59** The type name of a class belongs to that class: Proved for every declaration whose type name was not claimed before (C59_exact, C59_partial, C59_later, C59_library_partial). BufferCellType is declared with the type name of ControlKeyStates (C59_violated).
* **C61** Serializing leaves the objects alone: Proved for graphs without queues; false for queues, which are emptied (C61_violated).
* **C62** Progress records come back: Exact characterisation of the records that come back (C62_exact); the full statement is false for empty texts and None (C62_violated...).
* **C63** CLIXML texts are read back: Proved for one or more values whose texts XML can hold, with the writer and reader of ElementTree as modelled (C63_document_partial), and for any XML library that reads what it writes (C63_partial). The empty list and two documents sent by one shell are not read (C63_violated_nothing, C63_violated_documents).
* **C64** Documents are well-formed XML: C64_exact: the text is well-formed (Spec/XmlGrammar, the grammar of XML 1.0) exactly if all texts of the elements are of XML characters, and then they come back with line ends made line feeds. C64_reader_exact: the reader of the model accepts exactly the grammar; C64_malformed: deserialize_clixml raises for all other texts. C64_partial gives well-formedness for graphs whose texts XML can hold. It does not hold in general: U+FFFF in strings, control characters in type names and string forms (written unescaped), carriage returns in string forms.
* **C65** Error records come back: Who is sent and who arrives, exactly (C65_sends, C65_arrives); what arrives tells the same error exactly if the details hold some text and the stack trace is not empty (C65_exact). Details without text and an empty stack trace become None, a record without exception is sent but cannot be read (C65_violated).
* **C66** Invocation info comes back: Who arrives, exactly (C66_arrives); the call, the place and the command are kept (C66_partial), everything exactly for settled infos (C66_exact). An InvocationInfo fresh from its constructor makes the reader raise ValueError; the position message and the script's path and root are lost (C66_violated).
* **C67** Received records can be passed on: Informational records are final from the second arrival on (C67_settles, C67_exact), error records from the third (C67_error_settles); who can be passed on is C67_error_forwards. The script's path is lost on the second hop (C67_violated), and an error record that came with an invocation info without extent and offset cannot be sent on (C67_error_violated).
* **C68** Values are written in the forms of the protocol: Everything serialize_clixml writes for a graph of values within the limits of their types is in the grammar (C68_partial; GraphOk implies the condition up to decimals and NaN); plain ints exactly from -2^31 (C68_int_exact). Smaller plain ints are written as I32 with a number that no I32 holds (C68_violated), decimals with an exponent and NaN in forms the protocol lacks (C82, C83).
* **C69** What other peers write is read: Proved for booleans, integers, chars, GUIDs, decimals, floats, dates, durations, bytes, progress records, enums, and for dictionaries and lists of any values; for strings apart from texts with U+5F00 U+7800 (C23). Violated for the enum type BufferCellType, whose class is declared with another type's name, and for dictionaries with dates of one microsecond as keys: the nanosecond does not count for equality, so that an entry is lost (C69_dict_dates_violated).
* **C70** Reading a document does not change what other documents mean: Any document is read as by a fresh reader if the documents before gave no properties to enum members or came from this library, up to string forms of enum members (C70_partial). Not in general: enum members share the metadata of their class, so a property (C70_violated) or string form (C70_violated_string) read on one member shows on all members read later. Documents whose reading failed are not covered.
* **C71** An object that is sent arrives: Proved for all histories of sending, flushing, delivering and polling; for graphs and texts that come back (C41, C63). Texts with U+FFFE, U+FFFF or a lone high surrogate are sent but raise in the receiver, None as pipeline input arrives as output.
* **C72** Events show what was sent: Proved for all histories and all 31 message types, for graphs, texts and dates that come back. A limit of zero in ConnectRunspacePool arrives as None, an availability response of 2^63 or more is sent but raises in the receiver; what is in records is C77.
* **C73** A session over bytes is a session of messages: Holds for all histories in which the server does not connect again while messages are on the way to the client; C73_reconnect_violated shows that an unread event is lost otherwise. C73_handshake is full.
* **C74** The text of a script extent: Within one line and with the end column included (C74_line_partial, C74_made); what comes across lines is C74_lines_partial, the failures are C74_lines_violated and C74_end_violated
* **C75** What users put into host calls, replies and host information is what the other side reads: Over the whole path from the call of the API to the decoded event. Missing: prompt fields with a default value or attributes, and the limits of C72 (values the text layer changes). Replies with an error are C77.
* **C76** A pipeline that was sent is the pipeline the server's event gives: The whole pipeline over the wire; parameter values are objects that stand for the sender's. Missing: the limits of C72.
* **C77** Records that a server writes, and the reasons it gives, arrive: Proved for all histories of exchanged bytes, all records that meet the conditions of C65 and C66 and all object graphs under the conditions of C72. Missing: records outside those conditions (where C65/C66 prove the negation); the object in the property InvocationInfo of an error record is passed through as a value.
* **C78** A client and a server of the library understand each other: Proved for all histories of two pools with the real serializer in which all messages meet the conditions of C72; C78_handshake has conditions on the configuration only. Missing: messages outside those conditions (C71 and C72 prove that some do not come back) and a server that connects again while messages are on the way (C73_reconnect_violated).
* **C79** A failed host call shows an error record: Proved for pipelines, with registered type names or without, and for the pool with them. Violated for the pool without: the event then shows an object that is no error record and has no CategoryInfo (C79_pool_violated, for every such message). Conditions of C65 and C72.
* **C81** GUIDs are written in the form of the protocol and read back in every spelling: The full statement fails on the real code: texts that are no GUIDs are accepted; the violation is proved.
* **C82** Decimals keep their digits over the wire and are written in plain notation: The full statement fails on the real code: decimals with a positive or a small exponent are written in scientific notation; the violation is proved, and exactly which decimals are written in plain notation.
* **C83** Floats come back bit for bit, and numbers in texts are read as the nearest double: The full statement fails on the real code: NaN is written as NAN, and doubles are written as singles; the violations are proved.
* **C84** What is sent has the layout of the protocol: Layouts of fragments, messages and payloads proved exactly (C84_fragment, C84_message, C84_payload). The data of every kind of message is proved for all values that have a form in the protocol (C84_body_partial). Missing: values without a form (C68), and a limit of 0 in CONNECT_RUNSPACEPOOL, which the code leaves out (C72_connect_zero_violated).
* **C85** Host calls, replies, host information and pipelines have the layout of the protocol: calls, replies, host information, commands and pipelines in full as trees; the text of the message for objects that have a form (C68)
* **C86** Getters, setters and values of properties: Accepted functions can be called, sources of values, refusals, notes and copies, for functions without keyword-only parameters that have no default; bound methods are refused, and late getters are not copied (violated theorems)
* **C87** Instances are independent of their class and of each other: Instances change only by what is done to them and classes only by what is added to them, in all programs that make the property objects they add; add_member with one property object for two instances shares its value, and an undecorated subclass shares the PSObjectMeta of its base.
* **C88** Indexing reads entries first and properties then: Entries first, attributes then; written entries are read back; integer indexes of byte arrays and missing keys of dicts are shown to violate the claim.
* **C89** Operators of durations do not depend on what was done before: Acceptance does not depend on history; the list of the guard is shown to grow with each call.
* **C90** Objects made of keyword arguments have exactly these properties: Fields, order, type names and reading are proved for fields whose names are free; reserved, shadowed and doubled names are shown to violate the claim.
* **C91** A call that raises has no effect: Proved for every call and message and for histories, with a complete list of the client calls for which it fails (C91_client_exact); the failing ones are the _violated theorems.
* **C92** A pipeline that is built by calls is the pipeline that was meant: Proved for all statements, histories and settings; the two failing cases (a Command object added twice, apartment state STA) are the _violated theorems.
* **C93** Information and progress records show what was written: Holds for objects that meet the conditions of C71 and C72; when exactly the methods raise is settled. A user whose name getpass.getuser cannot tell makes write_information raise though the argument is optional (C93_user_violated).
* **C94** vars and repr show what the attributes of an object read as: Proved for objects of which no property is hidden by an attribute; vars is settled exactly for all objects (C94_vars_exact, C94_vars_order). An attribute set before a property of the same name is added, or a method of the class, makes vars and repr show another value than the attribute (C94_vars_violated, C94_repr_violated).

Also found on the way: `server.connect` restarts object ids (C11); a failed `set_min_runspaces` with a value that is no
`Int32` leaves its handler in the table (C17); `complete` of a server pipeline has no guard (C60); a progress record
with an empty activity or description raises `TypeError` in the reader (C62).

## Tests of the theorems

`seeded/LOG.jsonl` has a line for every wrong program: a definition of the model was edited in a copy as a realistic
bug would, and the copy rebuilt. `theorems_failed` are the property theorems that no longer check, directly or
because a lemma they depend on does not (`lemmas_failed`). Where none failed, the theorems were tightened
(`theorems_tightened`) and the edit was tried again.
