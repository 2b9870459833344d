import Verif.Model.Payload
import Verif.Model.Version
import Verif.Model.HostMethod

/-!
# The runspace pool base class

Models /repo/src/psrpcore/_base.py: the fields, the counters, the message
queue and the operations common to the client and the server pool, and the
pipeline base class.

This is the *typed* level: a message is an object (`Obj`) instead of its
CLIXML bytes. The byte level (fragments, buffers) is `Verif.Model.Transport`.
What the serializer does with an object matters here only in whether it raises:
`Val` carries that.
-/

namespace Verif

/-- `RunspacePoolState`, /repo/src/psrpcore/types/_complex.py:192-212. -/
inductive PoolState
  | BeforeOpen | Opening | Opened | Closed | Closing | Broken | Disconnecting | Disconnected
  | Connecting
deriving DecidableEq, Repr

/-- `PSInvocationState`, /repo/src/psrpcore/types/_complex.py:216-234. -/
inductive PipeState
  | NotStarted | Running | Stopping | Stopped | Completed | Failed | Disconnected
deriving DecidableEq, Repr

/-- An object supplied by the caller (pipeline input and output, records, arguments, error
records, ...). Its content is opaque (`tag`); what is kept is how it behaves when it is
serialized (/repo/src/psrpcore/_base.py:386-393) and deserialized
(/repo/src/psrpcore/_base.py:452-458): whether it holds a secure string made from plain text,
which needs the session key to be sent, and the exception it may raise otherwise (numbered; psrpcore's
own state exceptions are not raised there). -/
structure Val where
  tag : Nat
  needsKey : Bool := false
  serializeError : Option Nat := none
  deserializeError : Option Nat := none
deriving DecidableEq, Repr

/-- The `SessionCapability` of a peer, /repo/src/psrpcore/types/_psrp.py:117-155. Only the
protocol version is read by the modelled code; the others are kept. -/
structure Capability where
  psVersion : PSVersion
  protocolVersion : PSVersion
  serializationVersion : PSVersion
deriving DecidableEq, Repr

/-- The value of `SetMinMaxRunspacesResponse`, a bool or an int
(/repo/src/psrpcore/types/_psrp.py:279, /repo/src/psrpcore/_events.py:955-961). -/
inductive Resp
  | bool (b : Bool)
  | int (n : Int)
deriving DecidableEq, Repr

/-- The PSRP message objects, /repo/src/psrpcore/types/_psrp.py:117-851. Public keys and
key pairs are identified by a number; `encryptedSessionKey k s` is the session key `s`
encrypted for key pair `k` (/repo/src/psrpcore/_crypto.py:48-82). Enumerations that the
pool only stores are numbers. -/
inductive Body
  | sessionCapability (c : Capability)
  | initRunspacePool (min max : Int) (threadOptions apartment : Nat) (host args : Val)
  | publicKey (key : Nat)
  | encryptedSessionKey (key session : Nat)
  | publicKeyRequest
  | setMaxRunspaces (count ci : Int)
  | setMinRunspaces (count ci : Int)
  | runspaceAvailability (response : Resp) (ci : Int)
  | runspacePoolState (state : PoolState) (error : Option Val)
  | createPipeline (metadata : Val)
  | getAvailableRunspaces (ci : Int)
  | userEvent (v : Val)
  | applicationPrivateData (v : Val)
  | getCommandMetadata (metadata : Val)
  | runspacePoolHostCall (ci : Int) (mi : HostMethod) (mp : Val)
  | runspacePoolHostResponse (ci : Int) (mi : HostMethod) (mr me : Option Val)
  | endOfPipelineInput
  | pipelineState (state : PipeState) (error : Option Val)
  | pipelineHostCall (ci : Int) (mi : HostMethod) (mp : Val)
  | pipelineHostResponse (ci : Int) (mi : HostMethod) (mr me : Option Val)
  | connectRunspacePool (min max : Option Int)
  | runspacePoolInitData (min max : Int)
  | resetRunspaceState (ci : Int)
deriving DecidableEq, Repr

/-- `PSRPMessageType.get_message_id(type(message))`, /repo/src/psrpcore/types/_psrp.py:85-87
and the registrations of /repo/src/psrpcore/types/_psrp.py:117-851. -/
def Body.type : Body → MsgType
  | sessionCapability _ => .SessionCapability
  | initRunspacePool .. => .InitRunspacePool
  | publicKey _ => .PublicKey
  | encryptedSessionKey .. => .EncryptedSessionKey
  | publicKeyRequest => .PublicKeyRequest
  | setMaxRunspaces .. => .SetMaxRunspaces
  | setMinRunspaces .. => .SetMinRunspaces
  | runspaceAvailability .. => .RunspaceAvailability
  | runspacePoolState .. => .RunspacePoolState
  | createPipeline _ => .CreatePipeline
  | getAvailableRunspaces _ => .GetAvailableRunspaces
  | userEvent _ => .UserEvent
  | applicationPrivateData _ => .ApplicationPrivateData
  | getCommandMetadata _ => .GetCommandMetadata
  | runspacePoolHostCall .. => .RunspacePoolHostCall
  | runspacePoolHostResponse .. => .RunspacePoolHostResponse
  | endOfPipelineInput => .EndOfPipelineInput
  | pipelineState .. => .PipelineState
  | pipelineHostCall .. => .PipelineHostCall
  | pipelineHostResponse .. => .PipelineHostResponse
  | connectRunspacePool .. => .ConnectRunspacePool
  | runspacePoolInitData .. => .RunspacePoolInitData
  | resetRunspaceState _ => .ResetRunspaceState

/-- The caller's objects inside a message (/repo/src/psrpcore/types/_psrp.py:117-851). -/
def Body.vals : Body → List Val
  | initRunspacePool _ _ _ _ h a => [h, a]
  | runspacePoolState _ e => e.toList
  | createPipeline m => [m]
  | userEvent v => [v]
  | applicationPrivateData v => [v]
  | getCommandMetadata m => [m]
  | runspacePoolHostCall _ _ mp => [mp]
  | runspacePoolHostResponse _ _ mr me => mr.toList ++ me.toList
  | pipelineState _ e => e.toList
  | pipelineHostCall _ _ mp => [mp]
  | pipelineHostResponse _ _ mr me => mr.toList ++ me.toList
  | _ => []

/-- An object handed to `prepare_message`: a PSRP message object or any other value
(/repo/src/psrpcore/_base.py:357-401). -/
inductive Obj
  | msg (b : Body)
  | val (v : Val)
deriving DecidableEq, Repr

/-- The caller's objects inside an object (/repo/src/psrpcore/_base.py:386-392). -/
def Obj.vals : Obj → List Val
  | .msg b => b.vals
  | .val v => [v]

/-- Whether serializing one value raises (/repo/src/psrpcore/types/_serializer.py:670-968,
/repo/src/psrpcore/_crypto.py:130-132). -/
def Val.serializeFails (cipher : Option Nat) (v : Val) : Option Err :=
  if v.needsKey ∧ cipher = none then some .missingCipher else v.serializeError.map .raised

/-- Whether deserializing one value raises (/repo/src/psrpcore/types/_serializer.py:970-1175). A
secure string is kept encrypted and only decrypted when asked for, so that the session key plays no
role (/repo/src/psrpcore/types/_serializer.py:994-995). -/
def Val.deserializeFails (v : Val) : Option Err := v.deserializeError.map .raised

/-- `serialize` of an object: the exception it raises, if any
(/repo/src/psrpcore/_base.py:386-393). -/
def Obj.serializeFails (cipher : Option Nat) (o : Obj) : Option Err :=
  o.vals.findSome? (Val.serializeFails cipher)

/-- A bare int of a message is written as I32 when it is at most `2^31 - 1` and as I64
otherwise, and the reader raises `ValueError` when it does not fit
(/repo/src/psrpcore/types/_serializer.py:740-753, /repo/src/psrpcore/types/_primitive.py:131-135). -/
def bareIntFits (n : Int) : Bool := decide (-(2 ^ 31) ≤ n ∧ n < 2 ^ 63)

/-- `deserialize` of an object: the exception it raises, if any
(/repo/src/psrpcore/_base.py:452-458). -/
def Obj.deserializeFails (o : Obj) : Option Err :=
  match o with
  | .msg (.runspaceAvailability (.int n) _) => if bareIntFits n then none else some .valueError
  | o => o.vals.findSome? Val.deserializeFails

/-- A message in the send buffer (`PSRPMessage`, /repo/src/psrpcore/_base.py:403-417);
`content = none` is the empty data of `None` and `EndOfPipelineInput`. -/
structure Msg where
  type : MsgType
  content : Option Obj
  rpid : UUID
  pid : Option UUID
  oid : Nat
  stream : StreamType := .default
deriving DecidableEq

/-- The callables kept in `_ci_handlers`: set a limit to a value
(/repo/src/psrpcore/_client.py:281, 308, /repo/src/psrpcore/_server.py:436, 443). -/
inductive Handler
  | setMax (v : Int)
  | setMin (v : Int)
deriving DecidableEq, Repr

/-- A pipeline object, /repo/src/psrpcore/_base.py:514-529. `kind` is `_message_type` of a
client pipeline (/repo/src/psrpcore/_client.py:453). -/
structure Pipe where
  pid : UUID
  state : PipeState := .NotStarted
  metadata : Option Obj := none
  kind : Option MsgType := none
deriving DecidableEq

/-- A `RunspacePool`, /repo/src/psrpcore/_base.py:100-148, with the fields of the client
(/repo/src/psrpcore/_client.py:109-114) and the server (/repo/src/psrpcore/_server.py:96-98).
`pipes` are the pipeline objects created on this pool in creation order (the caller holds
them); `table` is `pipeline_table`, pointing to them by index. `sendBuffer` is
`_send_buffer`: the pool operations only append to it; taking messages out of it is the
business of `data_to_send`, modelled in `Verif.Model.Transport`. `keyPair` is the key pair
`create_keypair` will produce (it is called at most once) and `sessionKey` what
`os.urandom` produced. -/
structure Pool where
  isClient : Bool
  rpid : UUID
  ours : Capability
  theirs : Option Capability := none
  appArgs : Val
  appPrivate : Val
  host : Option Val := none
  state : PoolState := .BeforeOpen
  apartment : Nat := 0
  threadOptions : Nat := 0
  ciHandlers : Dict Int (Option Handler) := []
  ciEvents : Dict Int Msg := []
  ciCount : Nat := 1
  fragmentCount : Nat := 1
  keyRequested : Bool := false
  cipher : Option Nat := none
  exchangeKey : Option Nat := none
  keyPair : Nat
  sessionKey : Nat
  minR : Int := 0
  maxR : Int := 0
  sendBuffer : List Msg := []
  pipes : List Pipe := []
  table : Dict UUID Nat := []
deriving DecidableEq

/-- `our_capability`, /repo/src/psrpcore/_base.py:117-121. -/
def ourCapability : Capability :=
  { psVersion := { major := 2, minor := 0 }, protocolVersion := Pwsh5,
    serializationVersion := { major := 1, minor := 1, build := some 0, revision := some 1 } }

/-- A method of a pool: the pool it leaves behind and its result or exception. -/
abbrev Res (α : Type) := Pool × Except Err α

/-- Sequencing: an exception ends the method and keeps the changes made so far (Python
statement order, e.g. /repo/src/psrpcore/_client.py:127-139). -/
def Res.next {α β : Type} (r : Res α) (f : Pool → α → Res β) : Res β :=
  match r with
  | (p, .ok a) => f p a
  | (p, .error e) => (p, .error e)

namespace Pool

/-- Queue a message under the next object id, /repo/src/psrpcore/_base.py:173-180, 401-417. -/
def queue (p : Pool) (t : MsgType) (content : Option Obj) (pid : Option UUID)
    (stream : StreamType) : Pool :=
  { p with
    fragmentCount := p.fragmentCount + 1
    sendBuffer := p.sendBuffer ++
      [{ type := t, content := content, rpid := p.rpid, pid := pid, oid := p.fragmentCount,
         stream := stream }] }

/-- The type of a message: the given one, or that of the message class, else `ValueError`
(/repo/src/psrpcore/_base.py:395-399). -/
def messageType (o : Obj) (t : Option MsgType) : Except Err MsgType :=
  match t, o with
  | some t, _ => .ok t
  | none, .msg b => .ok b.type
  | none, .val _ => .error .valueError

/-- `RunspacePool.prepare_message`, /repo/src/psrpcore/_base.py:357-417. -/
def prepareMessage (p : Pool) (message : Option Obj) (t : Option MsgType := none)
    (pid : Option UUID := none) (stream : StreamType := .default) : Res Unit :=
  match message with
  | none => (p.queue .PipelineOutput none pid stream, .ok ())
  | some (.msg .endOfPipelineInput) => (p.queue .EndOfPipelineInput none pid stream, .ok ())
  | some o =>
    match o.serializeFails p.cipher with
    | some e => (p, .error e)
    | none =>
      match messageType o t with
      | .error e => (p, .error e)
      | .ok t => (p.queue t (some o) pid stream, .ok ())

/-- `_ci_counter`, /repo/src/psrpcore/_base.py:164-171: the id and the pool with the
counter advanced. -/
def nextCi (p : Pool) : Pool × Int := ({ p with ciCount := p.ciCount + 1 }, p.ciCount)

/-- Whether the server tells the client about a state, /repo/src/psrpcore/_server.py:304-309. -/
def emitted (s : PoolState) : Bool :=
  s != .Disconnected && s != .Disconnecting && s != .Connecting

/-- `_change_state`: /repo/src/psrpcore/_base.py:419-425 for a client,
/repo/src/psrpcore/_server.py:296-315 (with `emit=True`) for a server. The state is set
before the message is built, so it stays set when the error record does not serialize. -/
def changeState (p : Pool) (s : PoolState) (error : Option Val := none) : Res Unit :=
  if p.isClient then ({ p with state := s }, .ok ())
  else if emitted s then
    prepareMessage { p with state := s } (some (.msg (.runspacePoolState s error)))
  else ({ p with state := s }, .ok ())

/-- `begin_close`, /repo/src/psrpcore/_base.py:182-184. -/
def beginClose (p : Pool) : Res Unit := p.changeState .Closing

/-- `close`, /repo/src/psrpcore/_base.py:186-201. -/
def close (p : Pool) : Res Unit :=
  if p.table ≠ [] then (p, .error .psrpCore)
  else if p.state ∉ [PoolState.Closed, .Closing, .Opened] then (p, .error .invalidPoolState)
  else p.changeState .Closed

/-- `begin_disconnect`, /repo/src/psrpcore/_base.py:203-205. -/
def beginDisconnect (p : Pool) : Res Unit := p.changeState .Disconnecting

/-- `disconnect`, /repo/src/psrpcore/_base.py:207-217. -/
def disconnect (p : Pool) : Res Unit :=
  if p.state ∉ [PoolState.Opened, .Disconnecting, .Disconnected] then (p, .error .invalidPoolState)
  else p.changeState .Disconnected

/-- `reconnect`, /repo/src/psrpcore/_base.py:219-225. -/
def reconnect (p : Pool) : Res Unit :=
  if p.state ∉ [PoolState.Disconnected, .Opened] then (p, .error .invalidPoolState)
  else p.changeState .Opened

/-! ## Pipelines -/

/-- `Pipeline.__init__`, /repo/src/psrpcore/_base.py:514-529, with the metadata the client
subclasses set (/repo/src/psrpcore/_client.py:447-453, 518-729). -/
def newPipe (p : Pool) (pid : UUID) (kind : Option MsgType) (metadata : Option Obj) : Pool :=
  { p with
    pipes := p.pipes ++ [{ pid := pid, kind := kind, metadata := metadata }]
    table := p.table.set pid p.pipes.length }

/-- Assignment to a field of pipeline object `h` (/repo/src/psrpcore/_base.py:582). -/
def updPipe (p : Pool) (h : Nat) (f : Pipe → Pipe) : Pool :=
  { p with pipes := p.pipes.modify h f }

/-- A method on the pipeline object `h` of this pool. Python method calls are always on an
existing object (/repo/src/psrpcore/_base.py:525); for an index without an object nothing
happens and the result is an `AttributeError`. -/
def onPipe {α : Type} (p : Pool) (h : Nat) (f : Pipe → Res α) : Res α :=
  match p.pipes[h]? with
  | none => (p, .error .attributeError)
  | some q => f q

/-- `Pipeline._change_state`: /repo/src/psrpcore/_base.py:576-582 for a client,
/repo/src/psrpcore/_server.py:764-778 for a server, which queues the message first. -/
def pipeChangeState (p : Pool) (h : Nat) (s : PipeState) (error : Option Val := none) :
    Res Unit :=
  p.onPipe h fun q =>
    if p.isClient then (p.updPipe h fun q => { q with state := s }, .ok ())
    else
      (p.prepareMessage (some (.msg (.pipelineState s error))) none (some q.pid)).next
        fun p _ => (p.updPipe h fun q => { q with state := s }, .ok ())

/-- `Pipeline.begin_stop`, /repo/src/psrpcore/_base.py:531-537. -/
def pipeBeginStop (p : Pool) (h : Nat) : Res Unit :=
  p.onPipe h fun q =>
    if q.state ∉ [PipeState.Running, .Stopping] then (p, .error .invalidPipelineState)
    else p.pipeChangeState h .Stopping

/-- `Pipeline.close`, /repo/src/psrpcore/_base.py:539-554. -/
def pipeClose (p : Pool) (h : Nat) : Res Unit :=
  p.onPipe h fun q =>
    if q.state ∉ [PipeState.NotStarted, .Stopped, .Stopping, .Completed, .Failed] then
      (p, .error .invalidPipelineState)
    else ({ p with table := p.table.erase q.pid }, .ok ())

/-- `Pipeline.prepare_message`, /repo/src/psrpcore/_base.py:556-574. -/
def pipePrepare (p : Pool) (q : Pipe) (message : Option Obj) (t : Option MsgType := none)
    (stream : StreamType := .default) : Res Unit :=
  p.prepareMessage message t (some q.pid) stream

/-! ## Receiving -/

/-- The first half of `_process_message`, /repo/src/psrpcore/_base.py:443-460: the object a
message holds, or the exception raised by deserializing it. Empty data is only accepted
where the code special cases it; anywhere else it is not XML. -/
def decode (m : Msg) : Except Err (Option Obj) :=
  if m.type = .EndOfPipelineInput then .ok (some (.msg .endOfPipelineInput))
  else match m.content with
    | none => if m.type = .PipelineOutput then .ok none else .error .parseError
    | some o =>
      match o.deserializeFails with
      | some e => .error e
      | none => .ok (some o)

/-- `_process_SessionCapability` of the base class, /repo/src/psrpcore/_base.py:471-480. -/
def processSessionCapability (p : Pool) (c : Capability) : Pool := { p with theirs := some c }

end Pool

end Verif
