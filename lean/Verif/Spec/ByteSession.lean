import Verif.Model.ByteSession
import Verif.Spec.Session

/-! # What the theorems about sessions over bytes speak about -/

namespace Verif

/-- The users do not invent events: messages arrive only as bytes. -/
def ByteOp.IsCall : ByteOp → Prop
  | .client (.recv _) | .server (.recv _) | .server .receiveData => False
  | _ => True

/-- The step is one of the transport: bytes are sent, passed on and read, no method is called. -/
def ByteOp.IsTransport : ByteOp → Prop
  | .client _ | .server _ => False
  | _ => True

/-- The step is one of the transport or a call of the API: the program does not build protocol messages itself with
`prepare_message`. -/
def ByteOp.IsApi : ByteOp → Prop
  | .client op => (SessionOp.client op).IsApi
  | .server op => (SessionOp.server op).IsApi
  | _ => True

/-- A message that can be sent: the object id fits its field, the data fits the length of a fragment, does not begin with a byte
order mark, and is read as the object that was written. -/
structure Codec.Sendable (K : Codec) (m : Msg) : Prop where
  oid : m.oid < 2 ^ 64
  len : (K.write m).length + 40 < 2 ^ 32
  bom : ¬ [0xEF, 0xBB, 0xBF] <+: K.write m
  back : K.read m.type (K.write m) = m.content

/-- Everything the two sides have prepared can be sent. -/
def ByteSession.Sendable (K : Codec) (b : ByteSession) : Prop :=
  (∀ m ∈ b.client.pool.sendBuffer, K.Sendable m) ∧ ∀ m ∈ b.server.pool.sendBuffer, K.Sendable m

/-- Nothing is on the way to the client. -/
def ByteSession.ClientClear (b : ByteSession) : Prop :=
  b.server.out = [] ∧ b.toClient = [] ∧ b.client.recv = {}

/-- Whenever the server connects a disconnected pool again, nothing is on the way to the client (`connect` starts the object ids
over, C11). -/
def ByteSession.Calm (K : Codec) (b : ByteSession) (ops : List ByteOp) : Prop :=
  ∀ before after, ops = before ++ .server .connect :: after →
    (b.run K before).1.server.pool.state = .Disconnected → (b.run K before).1.ClientClear

/-- The session of whole messages that corresponds to what was observed: the same calls with the same results, and for every
event the arrival of a message with the same outcome. -/
def observed : List (ByteOp × Option (Except Err Ret)) → List (SessionOp × Except Err Ret)
  | [] => []
  | (.client op, some r) :: t => (.client op, r) :: observed t
  | (.server op, some r) :: t => (.server op, r) :: observed t
  | (.clientNext, some r) :: t => (.toClient, r) :: observed t
  | (.serverNext, some r) :: t => (.toServer, r) :: observed t
  | _ :: t => observed t

/-- The pool `q` of a server is `p`, except that `q` may have been given bytes it has not read yet: it is `Opening` then
where `p` is `BeforeOpen`. -/
def SeenAs (p q : Pool) : Prop :=
  q = p ∨ p.state = .BeforeOpen ∧ q = { p with state := .Opening }

/-- Everything was sent, given to the peer and asked for: the last calls of `data_to_send` and `next_event` returned
`None`. -/
structure ByteSession.Quiet (K : Codec) (b : ByteSession) : Prop where
  clientSent : (dataToSend b.client.out none).2 = .ok none
  serverSent : (dataToSend b.server.out none).2 = .ok none
  toServer : b.toServer = []
  toClient : b.toClient = []
  clientRead : (b.step K .clientNext).2 = none
  serverRead : (b.step K .serverNext).2 = none

/-- Two pools before any bytes. -/
def ByteSession.of (s : Session) : ByteSession := { client := { pool := s.client }, server := { pool := s.server } }

end Verif
