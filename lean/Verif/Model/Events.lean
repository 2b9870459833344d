import Verif.Model.Wire
import Verif.Model.Pool

/-!
# Message objects and events

The classes of /repo/src/psrpcore/types/_psrp.py with their note properties and `ToPSObjectForRemoting`, and what the properties of
the events of /repo/src/psrpcore/_events.py read from the object that was received. Objects of the caller are values on the heap; for
host information, commands and error, debug, verbose and warning records these are what their own `ToPSObjectForRemoting` makes
(`Model/Records.lean`), and what is received is shown before their `FromPSObjectForRemoting`.
-/

namespace Verif

/-! ## Messages -/

/-- The records of a pipeline that are sent as they are, with the type of the message given
(/repo/src/psrpcore/_server.py:589, 607, 625, 643). -/
inductive RecordClass
  | error
  | debug
  | verbose
  | warning
deriving DecidableEq, Repr

/-- The type given, /repo/src/psrpcore/_server.py:589, 607, 625, 643. -/
def RecordClass.type : RecordClass → MsgType
  | error => .ErrorRecord
  | debug => .DebugRecord
  | verbose => .VerboseRecord
  | warning => .WarningRecord

/-- A message object, with the arguments of its class (/repo/src/psrpcore/types/_psrp.py:117-851). The public key and the encrypted
session key are bytes: the code that makes these messages encodes them (/repo/src/psrpcore/_client.py:186,
/repo/src/psrpcore/_server.py:400). Values are `.nil` for `None`. -/
inductive Letter
  | sessionCapability (ps protocol serialization : PSVersion) (timeZone : Option Bytes)
  | initRunspacePool (min max : Int) (threadOptions apartment host args : PVal)
  | publicKey (key : Bytes)
  | encryptedSessionKey (key : Bytes)
  | publicKeyRequest
  | setMaxRunspaces (count ci : Int)
  | setMinRunspaces (count ci : Int)
  | runspaceAvailability (response : Resp) (ci : Int)
  | runspacePoolState (state : PoolState) (reason : PVal)
  | createPipeline (noInput : Bool) (apartment options : PVal) (history : Bool) (host command : PVal) (nested : Bool)
  | getAvailableRunspaces (ci : Int)
  | userEvent (id : Option Int) (source : Option PyStr) (time : Option DateFields) (sender args data : PVal)
      (computer : Option PyStr) (runspace : Option Nat)
  | applicationPrivateData (data : PVal)
  | getCommandMetadata (name commandType names args : PVal)
  | runspacePoolHostCall (ci : Int) (mi mp : PVal)
  | runspacePoolHostResponse (ci : Int) (mi mr me : PVal)
  | pipelineInput (v : PVal)
  | endOfPipelineInput
  | pipelineOutput (v : PVal)
  | pipelineState (state : PipeState) (reason : PVal)
  | progressRecord (activity : Option PyStr) (activityId : Option Int) (status operation : Option PyStr)
      (parentId percent : Option Int) (type : PVal) (seconds : Option Int)
  | informationRecord (data : PVal) (source : Option PyStr) (time : Option DateFields) (tags : PVal) (user computer : Option PyStr)
      (process native managed : Option Int)
  | pipelineHostCall (ci : Int) (mi mp : PVal)
  | pipelineHostResponse (ci : Int) (mi mr me : PVal)
  | connectRunspacePool (min max : Option Int)
  | runspacePoolInitData (min max : Int)
  | resetRunspaceState (ci : Int)
  | record (kind : RecordClass) (v : PVal)

/-- The type a message class is registered for, /repo/src/psrpcore/types/_psrp.py:117-851. -/
def Letter.type : Letter → MsgType
  | sessionCapability .. => .SessionCapability
  | initRunspacePool .. => .InitRunspacePool
  | publicKey _ => .PublicKey
  | encryptedSessionKey _ => .EncryptedSessionKey
  | publicKeyRequest => .PublicKeyRequest
  | setMaxRunspaces .. => .SetMaxRunspaces
  | setMinRunspaces .. => .SetMinRunspaces
  | runspaceAvailability .. => .RunspaceAvailability
  | runspacePoolState .. => .RunspacePoolState
  | createPipeline .. => .CreatePipeline
  | getAvailableRunspaces _ => .GetAvailableRunspaces
  | userEvent .. => .UserEvent
  | applicationPrivateData _ => .ApplicationPrivateData
  | getCommandMetadata .. => .GetCommandMetadata
  | runspacePoolHostCall .. => .RunspacePoolHostCall
  | runspacePoolHostResponse .. => .RunspacePoolHostResponse
  | pipelineInput _ => .PipelineInput
  | endOfPipelineInput => .EndOfPipelineInput
  | pipelineOutput _ => .PipelineOutput
  | pipelineState .. => .PipelineState
  | progressRecord .. => .ProgressRecord
  | informationRecord .. => .InformationRecord
  | pipelineHostCall .. => .PipelineHostCall
  | pipelineHostResponse .. => .PipelineHostResponse
  | connectRunspacePool .. => .ConnectRunspacePool
  | runspacePoolInitData .. => .RunspacePoolInitData
  | resetRunspaceState _ => .ResetRunspaceState
  | record k _ => k.type

/-- The members of `RunspacePoolState`, /repo/src/psrpcore/types/_complex.py:204-212. -/
def PoolState.number : PoolState → Int
  | BeforeOpen => 0
  | Opening => 1
  | Opened => 2
  | Closed => 3
  | Closing => 4
  | Broken => 5
  | Disconnecting => 6
  | Disconnected => 7
  | Connecting => 8

/-- The members of `PSInvocationState`, /repo/src/psrpcore/types/_complex.py:228-234. -/
def PipeState.number : PipeState → Int
  | NotStarted => 0
  | Running => 1
  | Stopping => 2
  | Stopped => 3
  | Completed => 4
  | Failed => 5
  | Disconnected => 6

/-- A property with an integer class, /repo/src/psrpcore/types/_base.py:369-375. -/
def intNote (k : IntKind) (v : Int) : Except Err PVal := (k.new (.number v)).map fun v => .prim (.int k v)

/-- The same with `None`, which is not converted (/repo/src/psrpcore/types/_base.py:371). -/
def intNote? (k : IntKind) : Option Int → Except Err PVal
  | none => .ok .nil
  | some v => intNote k v

/-- A `PSString` or `None`, /repo/src/psrpcore/types/_base.py:371. -/
def textNote : Option PyStr → PVal
  | none => .nil
  | some s => .prim (.str .string s)

/-- A `PSDateTime` or `None`, /repo/src/psrpcore/types/_base.py:371. -/
def dateNote : Option DateFields → PVal
  | none => .nil
  | some d => .prim (.date d)

/-- A `PSGuid` or `None`, /repo/src/psrpcore/types/_base.py:371. -/
def guidNote : Option Nat → PVal
  | none => .nil
  | some g => .prim (.guid g)

/-- `if instance.X: add_note_property(...)` for values that are `None` or true as they are objects
(/repo/src/psrpcore/types/_psrp.py:326, 552, 555, 629). -/
def givenNote (name : PyStr) (v : PVal) : List (PyStr × PVal) := if v = .nil then [] else [(name, v)]

/-- What is serialized for a message: `EndOfPipelineInput`, a value, or an object with these type names and note
properties. The classes have no type names (/repo/src/psrpcore/types/_psrp.py:93-104); the `PSObject()` that some
`ToPSObjectForRemoting` make has those of `PSObject` (/repo/src/psrpcore/types/_base.py:559-563). -/
inductive Shape
  | endOfInput
  | value (v : PVal)
  | notes (types : List PyStr) (props : List (PyStr × PVal))

/-- `PSObject()`, /repo/src/psrpcore/types/_base.py:559-563. -/
def objectTypes : List PyStr := [txt! "System.Object"]

/-- `SetMinMaxRunspacesResponse`, which has no class (/repo/src/psrpcore/types/_psrp.py:279, /repo/src/psrpcore/_server.py:285). -/
def Resp.value : Resp → PVal
  | bool b => .bool b
  | int n => .prim (.plainInt n)

/-- A limit of `ConnectRunspacePool`, /repo/src/psrpcore/types/_psrp.py:800-806: left out if `None` or zero. The class of the
property has checked it (773-774). -/
def limitNote (name : PyStr) : Option Int → Except Err (List (PyStr × PVal))
  | none => .ok []
  | some v =>
    match intNote .psInt v with
    | .error e => .error e
    | .ok p => .ok (if v = 0 then [] else [(name, p)])

/-- A message class with its arguments and then `ToPSObjectForRemoting`, where it has one
(/repo/src/psrpcore/types/_psrp.py:117-851). The properties of a class are in the order of its declaration. -/
def Letter.shape : Letter → Except Err Shape
  | sessionCapability ps protocol serialization timeZone =>
    .ok (.notes objectTypes ([(txt! "PSVersion", .prim (.version ps)), (txt! "protocolversion", .prim (.version protocol)),
      (txt! "SerializationVersion", .prim (.version serialization))] ++
        match timeZone with
        | none => []
        | some [] => []
        | some b => [(txt! "TimeZone", .prim (.bytes b))]))
  | initRunspacePool min max threadOptions apartment host args => do
    .ok (.notes [] [(txt! "MinRunspaces", ← intNote .psInt min), (txt! "MaxRunspaces", ← intNote .psInt max),
      (txt! "PSThreadOptions", threadOptions), (txt! "ApartmentState", apartment), (txt! "HostInfo", host),
      (txt! "ApplicationArguments", args)])
  | publicKey key => .ok (.notes [] [(txt! "PublicKey", .prim (.str .string (b64encode key)))])
  | encryptedSessionKey key => .ok (.notes [] [(txt! "EncryptedSessionKey", .prim (.str .string (b64encode key)))])
  | publicKeyRequest => .ok (.value (.prim (.str .string [])))
  | setMaxRunspaces count ci => do
    .ok (.notes [] [(txt! "MaxRunspaces", ← intNote .psInt count), (txt! "ci", ← intNote .psInt64 ci)])
  | setMinRunspaces count ci => do
    .ok (.notes [] [(txt! "MinRunspaces", ← intNote .psInt count), (txt! "ci", ← intNote .psInt64 ci)])
  | runspaceAvailability response ci => do
    .ok (.notes [] [(txt! "SetMinMaxRunspacesResponse", response.value), (txt! "ci", ← intNote .psInt64 ci)])
  | runspacePoolState state reason => do
    .ok (.notes objectTypes ((txt! "RunspaceState", ← intNote .psInt state.number) ::
      givenNote (txt! "ExceptionAsErrorRecord") reason))
  | createPipeline noInput apartment options history host command nested =>
    .ok (.notes [] [(txt! "NoInput", .bool noInput), (txt! "ApartmentState", apartment), (txt! "RemoteStreamOptions", options),
      (txt! "AddToHistory", .bool history), (txt! "HostInfo", host), (txt! "PowerShell", command), (txt! "IsNested", .bool nested)])
  | getAvailableRunspaces ci => do .ok (.notes [] [(txt! "ci", ← intNote .psInt64 ci)])
  | userEvent id source time sender args data computer runspace => do
    .ok (.notes objectTypes [(txt! "PSEventArgs.EventIdentifier", ← intNote? .psInt id),
      (txt! "PSEventArgs.SourceIdentifier", textNote source), (txt! "PSEventArgs.TimeGenerated", dateNote time),
      (txt! "PSEventArgs.Sender", sender), (txt! "PSEventArgs.SourceArgs", args), (txt! "PSEventArgs.MessageData", data),
      (txt! "PSEventArgs.ComputerName", textNote computer), (txt! "PSEventArgs.RunspaceId", guidNote runspace)])
  | applicationPrivateData data => .ok (.notes [] [(txt! "ApplicationPrivateData", data)])
  | getCommandMetadata name commandType names args =>
    .ok (.notes [] [(txt! "Name", name), (txt! "CommandType", commandType), (txt! "Namespace", names), (txt! "ArgumentList", args)])
  | runspacePoolHostCall ci mi mp => do .ok (.notes [] [(txt! "ci", ← intNote .psInt64 ci), (txt! "mi", mi), (txt! "mp", mp)])
  | runspacePoolHostResponse ci mi mr me => do
    .ok (.notes objectTypes ([(txt! "ci", ← intNote .psInt64 ci), (txt! "mi", mi)] ++ givenNote (txt! "mr") mr ++
      givenNote (txt! "me") me))
  | pipelineInput v => .ok (.value v)
  | endOfPipelineInput => .ok .endOfInput
  | pipelineOutput v => .ok (.value v)
  | pipelineState state reason => do
    .ok (.notes objectTypes ((txt! "PipelineState", ← intNote .psInt state.number) ::
      givenNote (txt! "ExceptionAsErrorRecord") reason))
  | progressRecord activity activityId status operation parentId percent type seconds => do
    .ok (.notes [] [(txt! "Activity", textNote activity), (txt! "ActivityId", ← intNote? .psInt activityId),
      (txt! "StatusDescription", textNote status), (txt! "CurrentOperation", textNote operation),
      (txt! "ParentActivityId", ← intNote? .psInt parentId), (txt! "PercentComplete", ← intNote? .psInt percent),
      (txt! "Type", type), (txt! "SecondsRemaining", ← intNote? .psInt seconds)])
  | informationRecord data source time tags user computer process native managed => do
    .ok (.notes [] [(txt! "MessageData", data), (txt! "Source", textNote source), (txt! "TimeGenerated", dateNote time),
      (txt! "Tags", tags), (txt! "User", textNote user), (txt! "Computer", textNote computer),
      (txt! "ProcessId", ← intNote? .psUInt process), (txt! "NativeThreadId", ← intNote? .psUInt native),
      (txt! "ManagedThreadId", ← intNote? .psUInt managed)])
  | pipelineHostCall ci mi mp => do .ok (.notes [] [(txt! "ci", ← intNote .psInt64 ci), (txt! "mi", mi), (txt! "mp", mp)])
  | pipelineHostResponse ci mi mr me => do
    .ok (.notes objectTypes ([(txt! "ci", ← intNote .psInt64 ci), (txt! "mi", mi)] ++ givenNote (txt! "mr") mr ++
      givenNote (txt! "me") me))
  | connectRunspacePool min max => do
    let props := (← limitNote (txt! "MinRunspaces") min) ++ (← limitNote (txt! "MaxRunspaces") max)
    .ok (if props = [] then .value (.prim (.str .string [])) else .notes objectTypes props)
  | runspacePoolInitData min max => do
    .ok (.notes [] [(txt! "MinRunspaces", ← intNote .psInt min), (txt! "MaxRunspaces", ← intNote .psInt max)])
  | resetRunspaceState ci => do .ok (.notes [] [(txt! "ci", ← intNote .psInt64 ci)])
  | record _ v => .ok (.value v)

/-- The heap with a new object, /repo/src/psrpcore/types/_psrp.py:147. -/
def Heap.put (H : Heap) (a : Nat) (o : PObj) : Heap := fun b => if b = a then o else H b

/-- What `prepare_message` gets, /repo/src/psrpcore/_base.py:357-393: the message is a new object at `a`, and no other object is found
under its key `k`. -/
def Shape.outgoing (H : Heap) (a k : Nat) : Shape → Outgoing
  | endOfInput => .endOfInput
  | value v => .object H v
  | notes types props => .object (H.put a { key := some k, types := types, extended := props }) (.ref a)

/-! ## Events -/

/-- `PSObject.__getattribute__` of a property and `getattr`, /repo/src/psrpcore/types/_base.py:663-692: of two properties the extended one.
None of the names the events ask for is a Python attribute. Values that are not objects have no such property; the properties
of progress records are left out. -/
def DState.attr (s : DState) (L : Lib) (v : DVal) (name : PyStr) : Except Err DVal :=
  match v with
  | .ref b =>
    match s.heap[b]? with
    | none => .error .attributeError
    | some d =>
      match (((s.shown L d).adapted ++ (s.shown L d).extended).filter (·.1 = name)).getLast? with
      | none => .error .attributeError
      | some q => .ok q.2
  | _ => .error .attributeError

/-- `getattr(obj, name, None)`, /repo/src/psrpcore/_events.py:316, 321, 709, 714, 794, 1081, 1086, 1168. -/
def DState.attrOr (s : DState) (L : Lib) (v : DVal) (name : PyStr) : DVal :=
  match s.attr L v name with
  | .ok d => d
  | .error _ => .nil

/-- The number a value is equal to, `None` if it is none (/repo/src/psrpcore/_events.py:789, 1163): enum members and numbers with
properties are equal to their number. Floats and decimals are left out. -/
def DState.number (s : DState) : DVal → Option Int
  | .bool b => some (if b then 1 else 0)
  | .prim (.int _ v) => some v
  | .prim (.char v) => some v
  | .ref b =>
    match s.heap[b]? with
    | some { data := .prim (.int _ v), .. } => some v
    | some { data := .prim (.char v), .. } => some v
    | _ => none
  | _ => none

/-- `int(value)`, /repo/src/psrpcore/_events.py:1016: also texts. -/
def DState.toInt (s : DState) (v : DVal) : Except Err Int :=
  match s.number v with
  | some n => .ok n
  | none =>
    match v with
    | .prim (.str _ t) => intOfText t
    | _ => .error .typeError

/-- `RunspacePoolState(value)`, /repo/src/psrpcore/_events.py:1163. -/
def PoolState.of (n : Option Int) : Except Err PoolState :=
  match [BeforeOpen, Opening, Opened, Closed, Closing, Broken, Disconnecting, Disconnected, Connecting].find? fun s =>
      some s.number = n with
  | some s => .ok s
  | none => .error .valueError

/-- `PSInvocationState(value)`, /repo/src/psrpcore/_events.py:789. -/
def PipeState.of (n : Option Int) : Except Err PipeState :=
  match [NotStarted, Running, Stopping, Stopped, Completed, Failed, Disconnected].find? fun s => some s.number = n with
  | some s => .ok s
  | none => .error .valueError

/-- `bool(value)`, /repo/src/psrpcore/_events.py:666, 1064: `None`, zero and what is empty is false. Queues and values with a class
of their own are true. -/
def DState.truth (s : DState) : DVal → Bool
  | .nil => false
  | .bool b => b
  | .prim (.int _ v) => v ≠ 0
  | .prim (.str _ t) => t ≠ []
  | .prim (.bytes b) => b ≠ []
  | .prim _ => true
  | .ref b =>
    match s.heap[b]? with
    | some { data := .list [], .. } => false
    | some { data := .dict [], .. } => false
    | some { data := .prim (.int _ v), .. } => v ≠ 0
    | some { data := .prim (.str _ t), .. } => t ≠ []
    | some { data := .prim (.bytes t), .. } => t ≠ []
    | _ => true

/-- A property with a class that the value is an instance of, or `None` (/repo/src/psrpcore/types/_base.py:369-375). Other values are
converted by the class or not; here they are refused. -/
def castTo (is : Prim → Bool) : DVal → Except Err DVal
  | .nil => .ok .nil
  | .prim p => if is p then .ok (.prim p) else .error .typeError
  | _ => .error .typeError

/-- `isinstance(value, cls)` of an integer class, /repo/src/psrpcore/types/_base.py:371. -/
def isInt (k : IntKind) : Prim → Bool
  | .int k' _ => k' = k
  | _ => false

/-- `isinstance(value, PSString)`, /repo/src/psrpcore/types/_base.py:371. -/
def isString : Prim → Bool
  | .str .string _ => true
  | _ => false

/-- `isinstance(value, PSDateTime)`, /repo/src/psrpcore/types/_base.py:371. -/
def isDate : Prim → Bool
  | .date _ => true
  | _ => false

/-- `isinstance(value, PSGuid)`, /repo/src/psrpcore/types/_base.py:371. -/
def isGuid : Prim → Bool
  | .guid _ => true
  | _ => false

/-- `base64.b64decode(text)` of an event with a key, /repo/src/psrpcore/_events.py:429, 857. -/
def keyBytes : DVal → Except Err Bytes
  | .prim (.str _ t) => b64decode t
  | _ => .error .typeError

/-- An event with what all of its properties give, /repo/src/psrpcore/_events.py:272-1290. `method_parameters` is `none` for the new list in
`mp or []`; parameters and results of host calls are shown as they are before `_decode_host_call_parameters`,
`_decode_host_resp_result` (`Model/Host.lean`), commands and host information before their `FromPSObjectForRemoting`
(`Model/Command.lean`, `Model/Host.lean`), and errors of pipelines before that of `ErrorRecord` (`Model/Records.lean`). -/
inductive EventView
  | sessionCapability (psVersion protocolVersion serializationVersion : DVal)
  | initRunspacePool (min max threadOptions apartment host args : DVal)
  | publicKey (key : Bytes)
  | encryptedSessionKey (key : Bytes)
  | publicKeyRequest
  | setMaxRunspaces (count ci : DVal)
  | setMinRunspaces (count ci : DVal)
  | setAvailability (success ci : DVal)
  | getAvailability (count : Int) (ci : DVal)
  | runspacePoolState (state : PoolState) (reason : DVal)
  | createPipeline (noInput apartment options history host command nested : DVal)
  | getAvailableRunspaces (ci : DVal)
  | userEvent (id source time sender args data computer runspace : DVal)
  | applicationPrivateData (data : DVal)
  | getCommandMetadata (name commandType names args : DVal)
  | runspacePoolHostCall (ci mi : DVal) (mp : Option DVal)
  | runspacePoolHostResponse (ci mi mr me : DVal)
  | pipelineInput (v : DVal)
  | endOfPipelineInput
  | pipelineOutput (v : DVal)
  | pipelineState (state : PipeState) (reason : DVal)
  | progressRecord (activity activityId status operation parentId percent type seconds : DVal)
  | informationRecord (data source time tags user computer process native managed : DVal)
  | pipelineHostCall (ci mi : DVal) (mp : Option DVal)
  | pipelineHostResponse (ci mi mr me : DVal)
  | connectRunspacePool (min max : DVal)
  | runspacePoolInitData (min max : DVal)
  | resetRunspaceState (ci : DVal)
  | record (t : MsgType) (v : DVal)
deriving DecidableEq

/-- `mp or []`, /repo/src/psrpcore/_events.py:666, 1064. -/
def DState.orList (s : DState) (v : DVal) : Option DVal := if s.truth v then some v else none

/-- The event of an object, its class from the type (and for `RunspaceAvailability` from the response), and all its properties
(/repo/src/psrpcore/_events.py:237-247, 272-1290). If one of the properties raises an exception, so does this. -/
def readEvent (L : Lib) (t : MsgType) : Incoming → Except Err EventView
  | .endOfInput => .ok .endOfPipelineInput
  | .object v s =>
    match t with
    | .SessionCapability => do
      .ok (.sessionCapability (← s.attr L v (txt! "PSVersion")) (← s.attr L v (txt! "protocolversion"))
        (← s.attr L v (txt! "SerializationVersion")))
    | .InitRunspacePool => do
      .ok (.initRunspacePool (← s.attr L v (txt! "MinRunspaces")) (← s.attr L v (txt! "MaxRunspaces"))
        (← s.attr L v (txt! "PSThreadOptions")) (← s.attr L v (txt! "ApartmentState")) (← s.attr L v (txt! "HostInfo"))
        (← s.attr L v (txt! "ApplicationArguments")))
    | .PublicKey => do .ok (.publicKey (← keyBytes (← s.attr L v (txt! "PublicKey"))))
    | .EncryptedSessionKey => do .ok (.encryptedSessionKey (← keyBytes (← s.attr L v (txt! "EncryptedSessionKey"))))
    | .PublicKeyRequest => .ok .publicKeyRequest
    | .SetMaxRunspaces => do .ok (.setMaxRunspaces (← s.attr L v (txt! "MaxRunspaces")) (← s.attr L v (txt! "ci")))
    | .SetMinRunspaces => do .ok (.setMinRunspaces (← s.attr L v (txt! "MinRunspaces")) (← s.attr L v (txt! "ci")))
    | .RunspaceAvailability => do
      let r ← s.attr L v (txt! "SetMinMaxRunspacesResponse")
      match r with
      | .bool b => .ok (.setAvailability (.bool b) (← s.attr L v (txt! "ci")))
      | r => .ok (.getAvailability (← s.toInt r) (← s.attr L v (txt! "ci")))
    | .RunspacePoolState => do
      .ok (.runspacePoolState (← PoolState.of (s.number (← s.attr L v (txt! "RunspaceState"))))
        (s.attrOr L v (txt! "ExceptionAsErrorRecord")))
    | .CreatePipeline => do
      .ok (.createPipeline (← s.attr L v (txt! "NoInput")) (← s.attr L v (txt! "ApartmentState"))
        (← s.attr L v (txt! "RemoteStreamOptions")) (← s.attr L v (txt! "AddToHistory")) (← s.attr L v (txt! "HostInfo"))
        (← s.attr L v (txt! "PowerShell")) (← s.attr L v (txt! "IsNested")))
    | .GetAvailableRunspaces => do .ok (.getAvailableRunspaces (← s.attr L v (txt! "ci")))
    | .UserEvent => do
      .ok (.userEvent (← castTo (isInt .psInt) (← s.attr L v (txt! "PSEventArgs.EventIdentifier")))
        (← castTo isString (← s.attr L v (txt! "PSEventArgs.SourceIdentifier")))
        (← castTo isDate (← s.attr L v (txt! "PSEventArgs.TimeGenerated"))) (← s.attr L v (txt! "PSEventArgs.Sender"))
        (← s.attr L v (txt! "PSEventArgs.SourceArgs")) (← s.attr L v (txt! "PSEventArgs.MessageData"))
        (← castTo isString (← s.attr L v (txt! "PSEventArgs.ComputerName")))
        (← castTo isGuid (← s.attr L v (txt! "PSEventArgs.RunspaceId"))))
    | .ApplicationPrivateData => do .ok (.applicationPrivateData (← s.attr L v (txt! "ApplicationPrivateData")))
    | .GetCommandMetadata => do
      .ok (.getCommandMetadata (← s.attr L v (txt! "Name")) (← s.attr L v (txt! "CommandType")) (← s.attr L v (txt! "Namespace"))
        (← s.attr L v (txt! "ArgumentList")))
    | .RunspacePoolHostCall => do
      .ok (.runspacePoolHostCall (← s.attr L v (txt! "ci")) (← s.attr L v (txt! "mi")) (s.orList (← s.attr L v (txt! "mp"))))
    | .RunspacePoolHostResponse => do
      .ok (.runspacePoolHostResponse (← s.attr L v (txt! "ci")) (← s.attr L v (txt! "mi")) (s.attrOr L v (txt! "mr"))
        (s.attrOr L v (txt! "me")))
    | .PipelineInput => .ok (.pipelineInput v)
    | .EndOfPipelineInput => .ok .endOfPipelineInput
    | .PipelineOutput => .ok (.pipelineOutput v)
    | .PipelineState => do
      .ok (.pipelineState (← PipeState.of (s.number (← s.attr L v (txt! "PipelineState"))))
        (s.attrOr L v (txt! "ExceptionAsErrorRecord")))
    | .ProgressRecord => do
      .ok (.progressRecord (← castTo isString (← s.attr L v (txt! "Activity")))
        (← castTo (isInt .psInt) (← s.attr L v (txt! "ActivityId"))) (← castTo isString (← s.attr L v (txt! "StatusDescription")))
        (← castTo isString (← s.attr L v (txt! "CurrentOperation")))
        (← castTo (isInt .psInt) (← s.attr L v (txt! "ParentActivityId")))
        (← castTo (isInt .psInt) (← s.attr L v (txt! "PercentComplete"))) (← s.attr L v (txt! "Type"))
        (← castTo (isInt .psInt) (← s.attr L v (txt! "SecondsRemaining"))))
    | .InformationRecord => do
      .ok (.informationRecord (← s.attr L v (txt! "MessageData")) (← s.attr L v (txt! "Source")) (← s.attr L v (txt! "TimeGenerated"))
        (← s.attr L v (txt! "Tags")) (← s.attr L v (txt! "User")) (← s.attr L v (txt! "Computer"))
        (← s.attr L v (txt! "ProcessId")) (← s.attr L v (txt! "NativeThreadId")) (← s.attr L v (txt! "ManagedThreadId")))
    | .PipelineHostCall => do
      .ok (.pipelineHostCall (← s.attr L v (txt! "ci")) (← s.attr L v (txt! "mi")) (s.orList (← s.attr L v (txt! "mp"))))
    | .PipelineHostResponse => do
      .ok (.pipelineHostResponse (← s.attr L v (txt! "ci")) (← s.attr L v (txt! "mi")) (s.attrOr L v (txt! "mr"))
        (s.attrOr L v (txt! "me")))
    | .ConnectRunspacePool => .ok (.connectRunspacePool (s.attrOr L v (txt! "MinRunspaces")) (s.attrOr L v (txt! "MaxRunspaces")))
    | .RunspacePoolInitData => do
      .ok (.runspacePoolInitData (← s.attr L v (txt! "MinRunspaces")) (← s.attr L v (txt! "MaxRunspaces")))
    | .ResetRunspaceState => do .ok (.resetRunspaceState (← s.attr L v (txt! "ci")))
    | .ErrorRecord => .ok (.record .ErrorRecord v)
    | .DebugRecord => .ok (.record .DebugRecord v)
    | .VerboseRecord => .ok (.record .VerboseRecord v)
    | .WarningRecord => .ok (.record .WarningRecord v)

end Verif
