import Verif.Spec.Events
import Verif.Spec.Forms

/-! # The layout of what is sent (specification for C84)

The tables of [MS-PSRP] 2.2.1 (messages), 2.2.2 (the data of each message) and 2.2.4 (fragments). Nothing here refers to the
functions that write messages. -/

namespace Verif

/-! ## Bytes -/

/-- The number some bytes are, the first of them being the most significant. -/
def bigEndian (bs : Bytes) : Nat := bs.foldl (fun n b => 256 * n + b.toNat) 0

/-- A number in `k` bytes, the most significant first. -/
def Big (k n : Nat) (bs : Bytes) : Prop := bs.length = k ∧ bigEndian bs = n

/-- A number in `k` bytes, the least significant first. -/
def Little (k n : Nat) (bs : Bytes) : Prop := bs.length = k ∧ bigEndian bs.reverse = n

/-- The bytes of a GUID as .NET has them: its first three groups are numbers with the least significant byte first. -/
def GuidBytes (u : UUID) (bs : Bytes) : Prop :=
  ∃ a b c d, u.bytes = a ++ b ++ c ++ d ∧ a.length = 4 ∧ b.length = 2 ∧ c.length = 2 ∧ d.length = 8 ∧
    bs = a.reverse ++ b.reverse ++ c.reverse ++ d

/-- A fragment, [MS-PSRP] 2.2.4: the object id, the fragment id, the flags (1 at the start, 2 at the end), the length, the data. -/
def FragmentLayout (oid fid : Nat) (data : Bytes) (last : Bool) (wire : Bytes) : Prop :=
  ∃ o f l flags, Big 8 oid o ∧ Big 8 fid f ∧ Big 4 data.length l ∧
    UInt8.toNat flags = (if fid = 0 then 1 else 0) + (if last then 2 else 0) ∧ wire = o ++ f ++ [flags] ++ l ++ data

/-- The numbers of the messages, [MS-PSRP] 2.2.1. -/
def messageNumbers : List (MsgType × Nat) :=
  [(.SessionCapability, 0x00010002), (.InitRunspacePool, 0x00010004), (.PublicKey, 0x00010005),
    (.EncryptedSessionKey, 0x00010006), (.PublicKeyRequest, 0x00010007), (.ConnectRunspacePool, 0x00010008),
    (.SetMaxRunspaces, 0x00021002), (.SetMinRunspaces, 0x00021003), (.RunspaceAvailability, 0x00021004),
    (.RunspacePoolState, 0x00021005), (.CreatePipeline, 0x00021006), (.GetAvailableRunspaces, 0x00021007),
    (.UserEvent, 0x00021008), (.ApplicationPrivateData, 0x00021009), (.GetCommandMetadata, 0x0002100A),
    (.RunspacePoolInitData, 0x0002100B), (.ResetRunspaceState, 0x0002100C), (.RunspacePoolHostCall, 0x00021100),
    (.RunspacePoolHostResponse, 0x00021101), (.PipelineInput, 0x00041002), (.EndOfPipelineInput, 0x00041003),
    (.PipelineOutput, 0x00041004), (.ErrorRecord, 0x00041005), (.PipelineState, 0x00041006), (.DebugRecord, 0x00041007),
    (.VerboseRecord, 0x00041008), (.WarningRecord, 0x00041009), (.ProgressRecord, 0x00041010),
    (.InformationRecord, 0x00041011), (.PipelineHostCall, 0x00041100), (.PipelineHostResponse, 0x00041101)]

/-- A message, [MS-PSRP] 2.2.1: the destination (1 for the client, 2 for the server), the type, the id of the pool, the id of the
pipeline or zeros, the data. -/
def MessageLayout (toServer : Bool) (t : MsgType) (data : Bytes) (rpid : UUID) (pid : Option UUID) (wire : Bytes) : Prop :=
  ∃ d n ty r p, Little 4 (if toServer then 2 else 1) d ∧ (t, n) ∈ messageNumbers ∧ Little 4 n ty ∧ GuidBytes rpid r ∧
    ((∃ q, pid = some q ∧ GuidBytes q p) ∨ (pid = none ∧ p = List.replicate 16 0)) ∧ wire = d ++ ty ++ r ++ p ++ data

/-! ## The data of a message -/

/-- What is in a property of a message. -/
inductive Field
  | int32 (v : Int)
  | int64 (v : Int)
  | uint32 (v : Int)
  /-- an `Int32` or an `Int64` -/
  | number (v : Int)
  | flag (b : Bool)
  | version (v : PSVersion)
  | text (s : PyStr)
  | bytes (b : Bytes)
  | base64 (b : Bytes)
  | time (d : DateFields)
  | guid (n : Nat)
  | null
  | object (v : PVal)

/-- The element of a property with the attributes `x`. -/
inductive FieldText (H : Heap) (x : PyStr) : Field → PyStr → Prop
  | int32 {v : Int} {t : PyStr} (h : Signed v t) : FieldText H x (.int32 v) (element (txt! "I32") x t)
  | int64 {v : Int} {t : PyStr} (h : Signed v t) : FieldText H x (.int64 v) (element (txt! "I64") x t)
  | uint32 {v : Int} {t : PyStr} (h : Signed v t) : FieldText H x (.uint32 v) (element (txt! "U32") x t)
  | number32 {v : Int} {t : PyStr} (h : Signed v t) (hv : IntKind.psInt.InRange v) :
      FieldText H x (.number v) (element (txt! "I32") x t)
  | number64 {v : Int} {t : PyStr} (h : Signed v t) (hv : IntKind.psInt64.InRange v) :
      FieldText H x (.number v) (element (txt! "I64") x t)
  | true : FieldText H x (.flag true) (element (txt! "B") x (txt! "true"))
  | false : FieldText H x (.flag false) (element (txt! "B") x (txt! "false"))
  | version {v : PSVersion} {t : PyStr} (h : VersionText v t) : FieldText H x (.version v) (element (txt! "Version") x t)
  | text {s u : PyStr} (h : Esc s u) : FieldText H x (.text s) (element (txt! "S") x (xmlText u))
  | bytes {b : Bytes} {t : PyStr} (h : Base64 b t) : FieldText H x (.bytes b) (element (txt! "BA") x t)
  | base64 {b : Bytes} {t : PyStr} (h : Base64 b t) : FieldText H x (.base64 b) (element (txt! "S") x t)
  | time {d : DateFields} {t : PyStr} (h : DateText d t) : FieldText H x (.time d) (element (txt! "DT") x t)
  | guid {n : Nat} {t : PyStr} (h : GuidGroups HexLow n t) : FieldText H x (.guid n) (element (txt! "G") x t)
  | null : FieldText H x .null (element (txt! "Nil") x [])
  | object {v : PVal} {t : PyStr} (h : Form H v x t) : FieldText H x (.object v) t

/-- Properties with their names, one after another. -/
inductive FieldTexts (H : Heap) : List (PyStr × Field) → PyStr → Prop
  | nil : FieldTexts H [] []
  | cons {n t ts : PyStr} {f : Field} {fs : List (PyStr × Field)} (h : FieldText H (attrib (txt! "N") n) f t)
      (hs : FieldTexts H fs ts) : FieldTexts H ((n, f) :: fs) (t ++ ts)

/-- The numbers of the states of a pool. -/
def PoolState.code : PoolState → Int
  | .BeforeOpen => 0
  | .Opening => 1
  | .Opened => 2
  | .Closed => 3
  | .Closing => 4
  | .Broken => 5
  | .Disconnecting => 6
  | .Disconnected => 7
  | .Connecting => 8

/-- The numbers of the states of a pipeline. -/
def PipeState.code : PipeState → Int
  | .NotStarted => 0
  | .Running => 1
  | .Stopping => 2
  | .Stopped => 3
  | .Completed => 4
  | .Failed => 5
  | .Disconnected => 6

/-- Something, or a null value. -/
def Field.orNull {α : Type} (f : α → Field) : Option α → Field
  | none => .null
  | some v => f v

/-- A property that is left out if there is nothing to say. -/
def optional (n : PyStr) (v : PVal) : List (PyStr × Field) := if v = .nil then [] else [(n, .object v)]

/-- What the data of a message is. -/
inductive MessageBody
  | empty
  | value (v : PVal)
  | fields (fs : List (PyStr × Field))

/-- The data of each message, [MS-PSRP] 2.2.2.1 to 2.2.2.31. -/
def Letter.body : Letter → MessageBody
  | sessionCapability ps protocol serialization timeZone =>
    .fields ([(txt! "PSVersion", .version ps), (txt! "protocolversion", .version protocol),
      (txt! "SerializationVersion", .version serialization)] ++
        (timeZone.toList.filter (· ≠ [])).map fun b => (txt! "TimeZone", .bytes b))
  | initRunspacePool min max threadOptions apartment host args =>
    .fields [(txt! "MinRunspaces", .int32 min), (txt! "MaxRunspaces", .int32 max), (txt! "PSThreadOptions", .object threadOptions),
      (txt! "ApartmentState", .object apartment), (txt! "HostInfo", .object host), (txt! "ApplicationArguments", .object args)]
  | publicKey key => .fields [(txt! "PublicKey", .base64 key)]
  | encryptedSessionKey key => .fields [(txt! "EncryptedSessionKey", .base64 key)]
  | publicKeyRequest => .value (.prim (.str .string []))
  | setMaxRunspaces count ci => .fields [(txt! "MaxRunspaces", .int32 count), (txt! "ci", .int64 ci)]
  | setMinRunspaces count ci => .fields [(txt! "MinRunspaces", .int32 count), (txt! "ci", .int64 ci)]
  | runspaceAvailability (.bool b) ci => .fields [(txt! "SetMinMaxRunspacesResponse", .flag b), (txt! "ci", .int64 ci)]
  | runspaceAvailability (.int n) ci => .fields [(txt! "SetMinMaxRunspacesResponse", .number n), (txt! "ci", .int64 ci)]
  | runspacePoolState state reason =>
    .fields ((txt! "RunspaceState", .int32 state.code) :: optional (txt! "ExceptionAsErrorRecord") reason)
  | createPipeline noInput apartment options history host command nested =>
    .fields [(txt! "NoInput", .flag noInput), (txt! "ApartmentState", .object apartment),
      (txt! "RemoteStreamOptions", .object options), (txt! "AddToHistory", .flag history), (txt! "HostInfo", .object host),
      (txt! "PowerShell", .object command), (txt! "IsNested", .flag nested)]
  | getAvailableRunspaces ci => .fields [(txt! "ci", .int64 ci)]
  | userEvent id source time sender args data computer runspace =>
    .fields [(txt! "PSEventArgs.EventIdentifier", .orNull .int32 id), (txt! "PSEventArgs.SourceIdentifier", .orNull .text source),
      (txt! "PSEventArgs.TimeGenerated", .orNull .time time), (txt! "PSEventArgs.Sender", .object sender),
      (txt! "PSEventArgs.SourceArgs", .object args), (txt! "PSEventArgs.MessageData", .object data),
      (txt! "PSEventArgs.ComputerName", .orNull .text computer), (txt! "PSEventArgs.RunspaceId", .orNull .guid runspace)]
  | applicationPrivateData data => .fields [(txt! "ApplicationPrivateData", .object data)]
  | getCommandMetadata name commandType names args =>
    .fields [(txt! "Name", .object name), (txt! "CommandType", .object commandType), (txt! "Namespace", .object names),
      (txt! "ArgumentList", .object args)]
  | runspacePoolHostCall ci mi mp => .fields [(txt! "ci", .int64 ci), (txt! "mi", .object mi), (txt! "mp", .object mp)]
  | runspacePoolHostResponse ci mi mr me =>
    .fields ([(txt! "ci", .int64 ci), (txt! "mi", .object mi)] ++ optional (txt! "mr") mr ++ optional (txt! "me") me)
  | pipelineInput v => .value v
  | endOfPipelineInput => .empty
  | pipelineOutput .nil => .empty
  | pipelineOutput v => .value v
  | pipelineState state reason =>
    .fields ((txt! "PipelineState", .int32 state.code) :: optional (txt! "ExceptionAsErrorRecord") reason)
  | progressRecord activity activityId status operation parentId percent type seconds =>
    .fields [(txt! "Activity", .orNull .text activity), (txt! "ActivityId", .orNull .int32 activityId),
      (txt! "StatusDescription", .orNull .text status), (txt! "CurrentOperation", .orNull .text operation),
      (txt! "ParentActivityId", .orNull .int32 parentId), (txt! "PercentComplete", .orNull .int32 percent),
      (txt! "Type", .object type), (txt! "SecondsRemaining", .orNull .int32 seconds)]
  | informationRecord data source time tags user computer process native managed =>
    .fields [(txt! "MessageData", .object data), (txt! "Source", .orNull .text source), (txt! "TimeGenerated", .orNull .time time),
      (txt! "Tags", .object tags), (txt! "User", .orNull .text user), (txt! "Computer", .orNull .text computer),
      (txt! "ProcessId", .orNull .uint32 process), (txt! "NativeThreadId", .orNull .uint32 native),
      (txt! "ManagedThreadId", .orNull .uint32 managed)]
  | pipelineHostCall ci mi mp => .fields [(txt! "ci", .int64 ci), (txt! "mi", .object mi), (txt! "mp", .object mp)]
  | pipelineHostResponse ci mi mr me =>
    .fields ([(txt! "ci", .int64 ci), (txt! "mi", .object mi)] ++ optional (txt! "mr") mr ++ optional (txt! "me") me)
  | connectRunspacePool none none => .value (.prim (.str .string []))
  | connectRunspacePool min max =>
    .fields ((min.toList.map fun v => (txt! "MinRunspaces", .int32 v)) ++ max.toList.map fun v => (txt! "MaxRunspaces", .int32 v))
  | runspacePoolInitData min max => .fields [(txt! "MinRunspaces", .int32 min), (txt! "MaxRunspaces", .int32 max)]
  | resetRunspaceState ci => .fields [(txt! "ci", .int64 ci)]
  | record _ v => .value v

/-- The text of the data. The object may say that it is a `System.Object`. -/
inductive MessageBodyText (H : Heap) : MessageBody → PyStr → Prop
  | empty : MessageBodyText H .empty []
  | value {v : PVal} {t : PyStr} (h : Form H v [] t) : MessageBodyText H (.value v) t
  | fields {fs : List (PyStr × Field)} {t1 t2 : PyStr} (h1 : t1 = [] ∨ t1 = element (txt! "TN") (attrib (txt! "RefId") (txt! "0"))
      (element (txt! "T") [] (txt! "System.Object"))) (h2 : FieldTexts H fs t2) :
      MessageBodyText H (.fields fs) (element (txt! "Obj") (attrib (txt! "RefId") (txt! "0")) (t1 ++ element (txt! "MS") [] t2))

/-- The values of a message have a form in the protocol (see `Prim.Formal`). -/
def Letter.FieldsFormal (E : TextEnv) : Letter → Prop
  | sessionCapability ps protocol serialization _ => ∀ v ∈ [ps, protocol, serialization], v.WellFormed
  | runspaceAvailability (.int n) _ => -(2 ^ 31) ≤ n ∧ n < 2 ^ 63
  | userEvent _ source time _ _ _ computer runspace => (∀ t, some t ∈ [source, computer] → Sound t) ∧
      (∀ d, time = some d → (Prim.date d).Formal E) ∧ ∀ g, runspace = some g → g < 2 ^ 128
  | pipelineInput v => v ≠ .nil
  | record _ v => v ≠ .nil
  | progressRecord activity _ status operation _ _ _ _ => ∀ t, some t ∈ [activity, status, operation] → Sound t
  | informationRecord _ source time _ user computer _ _ _ => (∀ t, some t ∈ [source, user, computer] → Sound t) ∧
      ∀ d, time = some d → (Prim.date d).Formal E
  | connectRunspacePool min max => min ≠ some 0 ∧ max ≠ some 0
  | _ => True

end Verif
