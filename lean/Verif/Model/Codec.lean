import Verif.Model.ByteSession
import Verif.Model.Events

/-!
# The serializer as the codec of sessions

`Model/ByteSession.lean` takes the way from objects to bytes and back as a parameter. Here it is the code's own: the message
classes and the serializer on the way out (`Model/Events.lean`, `Model/Wire.lean`), the parser, the deserializer and the properties of the
events on the way in. The state machines know the caller's objects by a number (`Val`), key pairs and session keys too; a `Store` has
the objects themselves, a `Naming` tells which of them a received object is.
-/

namespace Verif

/-- The objects that the numbers of a session stand for, /repo/src/psrpcore/_base.py:357-393: the caller's objects, whole messages that
the state machines do not look into (pipelines, user events, progress and information records), members of enums, the bytes of
public keys (/repo/src/psrpcore/_client.py:186) and of encrypted session keys (/repo/src/psrpcore/_server.py:400). New message objects are
made at `addr`. -/
structure Store where
  heap : Heap
  addr : Nat
  key : Nat
  value : Val → PVal
  letter : Val → Letter
  threadOptions : Nat → PVal
  apartment : Nat → PVal
  method : HostMethod → PVal
  publicKey : Nat → Bytes
  sessionKey : Nat → Nat → Bytes

/-- An optional object, `None` if there is none (/repo/src/psrpcore/types/_psrp.py:326, 552, 555, 629). -/
def Store.option (S : Store) : Option Val → PVal
  | none => .nil
  | some v => S.value v

/-- The message object that is made, with the arguments given (/repo/src/psrpcore/_client.py:116-348, 455-515,
/repo/src/psrpcore/_server.py:100-443, 764-778). The time zone of the capabilities is not given. -/
def Body.letter (S : Store) : Body → Letter
  | sessionCapability c => .sessionCapability c.psVersion c.protocolVersion c.serializationVersion none
  | initRunspacePool min max t a h g => .initRunspacePool min max (S.threadOptions t) (S.apartment a) (S.value h) (S.value g)
  | publicKey k => .publicKey (S.publicKey k)
  | encryptedSessionKey k s => .encryptedSessionKey (S.sessionKey k s)
  | publicKeyRequest => .publicKeyRequest
  | setMaxRunspaces count ci => .setMaxRunspaces count ci
  | setMinRunspaces count ci => .setMinRunspaces count ci
  | runspaceAvailability r ci => .runspaceAvailability r ci
  | runspacePoolState s e => .runspacePoolState s (S.option e)
  | createPipeline v => S.letter v
  | getAvailableRunspaces ci => .getAvailableRunspaces ci
  | userEvent v => S.letter v
  | applicationPrivateData v => .applicationPrivateData (S.value v)
  | getCommandMetadata v => S.letter v
  | runspacePoolHostCall ci mi mp => .runspacePoolHostCall ci (S.method mi) (S.value mp)
  | runspacePoolHostResponse ci mi mr me => .runspacePoolHostResponse ci (S.method mi) (S.option mr) (S.option me)
  | endOfPipelineInput => .endOfPipelineInput
  | pipelineState s e => .pipelineState s (S.option e)
  | pipelineHostCall ci mi mp => .pipelineHostCall ci (S.method mi) (S.value mp)
  | pipelineHostResponse ci mi mr me => .pipelineHostResponse ci (S.method mi) (S.option mr) (S.option me)
  | connectRunspacePool min max => .connectRunspacePool min max
  | runspacePoolInitData min max => .runspacePoolInitData min max
  | resetRunspaceState ci => .resetRunspaceState ci

/-- What is given to `prepare_message` with the type `t` of the message: pipeline input and output and records are sent as they are
(/repo/src/psrpcore/_client.py:481, /repo/src/psrpcore/_server.py:543, 589, 607, 625, 643), progress and information records are message
objects (690-693, 736-739). -/
def Obj.letter (S : Store) (t : MsgType) : Obj → Letter
  | .msg b => b.letter S
  | .val v =>
    match t with
    | .PipelineInput => .pipelineInput (S.value v)
    | .PipelineOutput => .pipelineOutput (S.value v)
    | .ErrorRecord => .record .error (S.value v)
    | .DebugRecord => .record .debug (S.value v)
    | .VerboseRecord => .record .verbose (S.value v)
    | .WarningRecord => .record .warning (S.value v)
    | _ => S.letter v

/-- The data of a message, /repo/src/psrpcore/_base.py:377-399; `n` is Python's recursion limit. Nothing if an exception is raised, the
message is not sent then. -/
def Store.write (E : TextEnv) (n : Nat) (S : Store) (m : Msg) : Bytes :=
  match m.content with
  | none => []
  | some o =>
    match (o.letter S m.type).shape with
    | .error _ => []
    | .ok sh =>
      match messageData E n m.type (sh.outgoing S.heap S.addr S.key) with
      | .error _ => []
      | .ok (_, d) => d

/-- Which of the caller's objects a received object is: of a value, of the parameters of a host call, of a whole event, and which keys
the bytes are (/repo/src/psrpcore/_events.py:272-1290). -/
structure Naming where
  value : DState → DVal → Val
  params : DState → Option DVal → Val
  event : DState → EventView → Val
  publicKey : Bytes → Nat
  sessionKey : Bytes → Nat × Nat

/-- An optional value, /repo/src/psrpcore/_events.py:714, 794, 1086, 1168. -/
def Naming.option (N : Naming) (s : DState) (d : DVal) : Option Val := if d = .nil then none else some (N.value s d)

/-- A number of an event, /repo/src/psrpcore/_client.py:425, /repo/src/psrpcore/_server.py:353-360. -/
def DVal.theInt : DVal → Option Int
  | .prim (.int _ n) => some n
  | _ => none

/-- A version of an event, /repo/src/psrpcore/_base.py:471-480. -/
def DVal.theVersion : DVal → Option PSVersion
  | .prim (.version v) => some v
  | _ => none

/-- A limit or `None`, /repo/src/psrpcore/_server.py:353-360. -/
def DVal.limit : DVal → Option (Option Int)
  | .nil => some none
  | d => d.theInt.map some

/-- `HostMethodIdentifier` of a number, /repo/src/psrpcore/types/_host.py:26-91. -/
def HostMethod.ofNumber (n : Int) : Option HostMethod := HostMethod.all.find? fun m => (m.value : Int) = n

/-- The member a received value is, /repo/src/psrpcore/_server.py:378-385: its number. -/
def DState.member (s : DState) (d : DVal) : Option Nat :=
  match s.number d with
  | some n => if n < 0 then none else some n.toNat
  | none => none

/-- What the state machines get of an event (/repo/src/psrpcore/_client.py:350-445, /repo/src/psrpcore/_server.py:327-443). -/
def EventView.obj (N : Naming) (s : DState) (e : EventView) : Option Obj :=
  match e with
  | .sessionCapability a b c => do
    some (.msg (.sessionCapability { psVersion := ← a.theVersion, protocolVersion := ← b.theVersion, serializationVersion := ← c.theVersion }))
  | .initRunspacePool lo hi t a h g => do
    some (.msg (.initRunspacePool (← lo.theInt) (← hi.theInt) (← s.member t) (← s.member a) (N.value s h) (N.value s g)))
  | .publicKey k => some (.msg (.publicKey (N.publicKey k)))
  | .encryptedSessionKey k => some (.msg (.encryptedSessionKey (N.sessionKey k).1 (N.sessionKey k).2))
  | .publicKeyRequest => some (.msg .publicKeyRequest)
  | .setMaxRunspaces n ci => do some (.msg (.setMaxRunspaces (← n.theInt) (← ci.theInt)))
  | .setMinRunspaces n ci => do some (.msg (.setMinRunspaces (← n.theInt) (← ci.theInt)))
  | .setAvailability (.bool b) ci => do some (.msg (.runspaceAvailability (.bool b) (← ci.theInt)))
  | .setAvailability _ _ => none
  | .getAvailability n ci => do some (.msg (.runspaceAvailability (.int n) (← ci.theInt)))
  | .runspacePoolState st r => some (.msg (.runspacePoolState st (N.option s r)))
  | .createPipeline .. => some (.msg (.createPipeline (N.event s e)))
  | .getAvailableRunspaces ci => do some (.msg (.getAvailableRunspaces (← ci.theInt)))
  | .userEvent .. => some (.msg (.userEvent (N.event s e)))
  | .applicationPrivateData d => some (.msg (.applicationPrivateData (N.value s d)))
  | .getCommandMetadata .. => some (.msg (.getCommandMetadata (N.event s e)))
  | .runspacePoolHostCall ci mi mp => do
    some (.msg (.runspacePoolHostCall (← ci.theInt) (← HostMethod.ofNumber (← s.number mi)) (N.params s mp)))
  | .runspacePoolHostResponse ci mi mr me => do
    some (.msg (.runspacePoolHostResponse (← ci.theInt) (← HostMethod.ofNumber (← s.number mi)) (N.option s mr) (N.option s me)))
  | .pipelineInput v => some (.val (N.value s v))
  | .endOfPipelineInput => none
  | .pipelineOutput v => (N.option s v).map .val
  | .pipelineState st r => some (.msg (.pipelineState st (N.option s r)))
  | .progressRecord .. => some (.val (N.event s e))
  | .informationRecord .. => some (.val (N.event s e))
  | .pipelineHostCall ci mi mp => do
    some (.msg (.pipelineHostCall (← ci.theInt) (← HostMethod.ofNumber (← s.number mi)) (N.params s mp)))
  | .pipelineHostResponse ci mi mr me => do
    some (.msg (.pipelineHostResponse (← ci.theInt) (← HostMethod.ofNumber (← s.number mi)) (N.option s mr) (N.option s me)))
  | .connectRunspacePool lo hi => do some (.msg (.connectRunspacePool (← lo.limit) (← hi.limit)))
  | .runspacePoolInitData lo hi => do some (.msg (.runspacePoolInitData (← lo.theInt) (← hi.theInt)))
  | .resetRunspaceState ci => do some (.msg (.resetRunspaceState (← ci.theInt)))
  | .record _ v => some (.val (N.value s v))

/-- The object of a message, /repo/src/psrpcore/_base.py:427-460. Nothing if an exception is raised: `Model/Pool.lean` has the exceptions of
reading with the object. Every message is read as the first one, `C70` is about what enum classes keep from message to message. -/
def readData (E : TextEnv) (L : Lib) (n : Nat) (N : Naming) (t : MsgType) (d : Bytes) : Option Obj :=
  match messageObject E L n [] { destination := 0, messageType := t, rpid := EMPTY_UUID, pid := none, data := d } with
  | .error _ => none
  | .ok .endOfInput => none
  | .ok (.object v s) =>
    match readEvent L t (.object v s) with
    | .error _ => none
    | .ok e => e.obj N s

/-- The way of an object to the peer, /repo/src/psrpcore/_base.py:357-460: recursion limit `n` when writing, `m` when reading. -/
def Store.codec (E : TextEnv) (L : Lib) (n m : Nat) (N : Naming) (S : Store) : Codec where
  write := S.write E n
  read := readData E L m N

end Verif
