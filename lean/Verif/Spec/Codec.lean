import Verif.Model.Codec
import Verif.Spec.ByteSession
import Verif.Spec.Events

/-! # Messages of a session that the serializer takes there and back -/

namespace Verif

/-- The new objects of `s` stand for objects of the store, `φ` tells which (`a` is not the message object itself). -/
def Stands (L : Lib) (S : Store) (φ : Nat → Option Nat) (s : DState) : Prop :=
  ∀ b a, φ b = some a → a ≠ S.addr → ∃ o, s.heap[b]? = some o ∧ OMatch L φ (S.heap a) (s.shown L o)

/-- The receiver knows the value `v` when it sees it: whatever was received that stands for it is named `v`. -/
def Naming.KnowsValue (L : Lib) (S : Store) (N : Naming) (v : Val) : Prop :=
  S.value v ≠ .nil ∧ ∀ φ s d, Stands L S φ s → VMatch φ (S.value v) d → N.value s d = v

/-- The receiver knows the parameters `v` of a host call. -/
def Naming.KnowsParams (L : Lib) (S : Store) (N : Naming) (v : Val) : Prop :=
  ∀ φ s d, Stands L S φ s → ShowsParams φ S.heap (S.value v) d → N.params s d = v

/-- The receiver knows the whole message `v` by its event. -/
def Naming.KnowsLetter (L : Lib) (S : Store) (N : Naming) (v : Val) : Prop :=
  ∀ φ s e, Stands L S φ s → Shows φ S.heap (S.letter v) e → N.event s e = v

/-- A member of an enum with this number. -/
def IsEnum (H : Heap) (v : PVal) (n : Int) : Prop := ∃ a k, v = .ref a ∧ (H a).data = .enum (.int k n)

/-- The objects, members and keys of a message are known to the receiver. -/
def Body.Known (L : Lib) (S : Store) (N : Naming) : Body → Prop
  | initRunspacePool _ _ t a h g =>
      IsEnum S.heap (S.threadOptions t) t ∧ IsEnum S.heap (S.apartment a) a ∧ N.KnowsValue L S h ∧ N.KnowsValue L S g
  | publicKey k => N.publicKey (S.publicKey k) = k
  | encryptedSessionKey k s => N.sessionKey (S.sessionKey k s) = (k, s)
  | runspacePoolState _ e => ∀ v, e = some v → N.KnowsValue L S v
  | createPipeline v => N.KnowsLetter L S v
  | userEvent v => N.KnowsLetter L S v
  | applicationPrivateData v => N.KnowsValue L S v
  | getCommandMetadata v => N.KnowsLetter L S v
  | runspacePoolHostCall _ mi mp => IsEnum S.heap (S.method mi) mi.value ∧ N.KnowsParams L S mp
  | runspacePoolHostResponse _ mi mr me => IsEnum S.heap (S.method mi) mi.value ∧ (∀ v, mr = some v → N.KnowsValue L S v) ∧
      ∀ v, me = some v → N.KnowsValue L S v
  | pipelineState _ e => ∀ v, e = some v → N.KnowsValue L S v
  | pipelineHostCall _ mi mp => IsEnum S.heap (S.method mi) mi.value ∧ N.KnowsParams L S mp
  | pipelineHostResponse _ mi mr me => IsEnum S.heap (S.method mi) mi.value ∧ (∀ v, mr = some v → N.KnowsValue L S v) ∧
      ∀ v, me = some v → N.KnowsValue L S v
  | _ => True

/-- The same for everything that is given to `prepare_message`; `EndOfPipelineInput` has no content. -/
def Obj.Known (L : Lib) (S : Store) (N : Naming) (t : MsgType) : Obj → Prop
  | .msg b => b ≠ .endOfPipelineInput ∧ b.Known L S N
  | .val v =>
    match t with
    | .PipelineInput | .PipelineOutput | .ErrorRecord | .DebugRecord | .VerboseRecord | .WarningRecord => N.KnowsValue L S v
    | .ProgressRecord | .InformationRecord => N.KnowsLetter L S v
    | _ => False

/-- A message as in `Spec/Events.lean`. The pipeline it is for plays no role for its data. -/
def Store.post (S : Store) (t : MsgType) (o : Obj) : Post where
  letter := o.letter S t
  heap := S.heap
  addr := S.addr
  key := S.key
  pid := none

/-- A message that the serializer takes there and back: it has the type of its message class and of what stands for it in the store, its objects, texts and numbers
come back (C72), the receiver knows them, the serializer finishes within the recursion limit `n` and the data fits into the
fragments. -/
structure Msg.Fine (E : TextEnv) (L : Lib) (n : Nat) (N : Naming) (S : Store) (m : Msg) : Prop where
  oid : m.oid < 2 ^ 64
  none : m.content = none → m.type = .PipelineOutput ∨ m.type = .EndOfPipelineInput
  message : ∀ b, m.content = some (.msg b) → m.type = b.type
  type : ∀ o, m.content = some o → (o.letter S m.type).type = m.type
  ok : ∀ o, m.content = some o → (S.post m.type o).Ok E L
  known : ∀ o, m.content = some o → o.Known L S N m.type
  size : ∀ o sh, m.content = some o → (o.letter S m.type).shape = .ok sh → ∃ t d,
    messageData E n m.type (sh.outgoing S.heap S.addr S.key) = .ok (t, d) ∧ d.length + 40 < 2 ^ 32

/-- The calls among the steps of a session of messages: all but the deliveries. -/
def SessionOp.calls : List SessionOp → List SessionOp
  | [] => []
  | .toServer :: ops => calls ops
  | .toClient :: ops => calls ops
  | op :: ops => op :: calls ops

/-- The calls among the steps of a session over bytes: all but the steps of the transport. -/
def ByteOp.calls : List ByteOp → List SessionOp
  | [] => []
  | .client op :: ops => .client op :: calls ops
  | .server op :: ops => .server op :: calls ops
  | _ :: ops => calls ops

/-- Whatever is delivered when: all messages that the two sides prepare in the first calls of `calls` satisfy `P`. -/
def Session.Prepares (P : Msg → Prop) (s0 : Session) (calls : List SessionOp) : Prop :=
  ∀ ops, SessionOp.calls ops <+: calls → ∀ m, m ∈ (s0.run ops).1.client.sendBuffer ∨ m ∈ (s0.run ops).1.server.sendBuffer → P m

/-- The messages of the handshake: of the client and of the server. -/
def Session.Config.messages (k : Session.Config) : List Msg :=
  [{ type := .SessionCapability, content := some (.msg (.sessionCapability ourCapability)), rpid := k.rpid, pid := none, oid := 1 },
   { type := .InitRunspacePool,
     content := some (.msg (.initRunspacePool k.min k.max k.threadOptions k.apartment (k.host.getD Pool.defaultHost) k.args)),
     rpid := k.rpid, pid := none, oid := 2 },
   { type := .SessionCapability, content := some (.msg (.sessionCapability ourCapability)), rpid := EMPTY_UUID, pid := none, oid := 1 },
   { type := .ApplicationPrivateData, content := some (.msg (.applicationPrivateData k.privateData)), rpid := k.rpid, pid := none,
     oid := 2 },
   { type := .RunspacePoolState, content := some (.msg (.runspacePoolState .Opened none)), rpid := k.rpid, pid := none, oid := 3 }]

end Verif
