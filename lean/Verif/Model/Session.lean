import Verif.Model.Ops

/-!
# One client and one server

A client pool and a server pool of psrpcore connected by two reliable, ordered streams, as
PSRP requires. What the streams carry are the messages of the two send buffers, in order:
the send buffers of the pool model are never shortened, so the position reached in the peer's
send buffer says what is still in flight. That two pools that exchange bytes behave as a session
is C73 (`Verif.Props.ByteSession`).
-/

namespace Verif

/-- A client and a server, and how many of the messages queued by each the other has received
(/repo/src/psrpcore/_base.py:227-355). -/
structure Session where
  client : Pool
  server : Pool
  atServer : Nat := 0
  atClient : Nat := 0

/-- What becomes of a message on the wire: the empty UUID as pipeline id means no pipeline
(/repo/src/psrpcore/_payload.py:189, 262-264). The stream type is not sent with it
(/repo/src/psrpcore/_base.py:339-341). -/
def wire (m : Msg) : Msg :=
  { m with pid := if m.pid = some EMPTY_UUID then none else m.pid, stream := .default }

/-- What can happen in a session: an API call on one side, or one side receives the next
message of the other (/repo/src/psrpcore/_base.py:227-355). -/
inductive SessionOp
  | client (op : ClientOp)
  | server (op : ServerOp)
  | toServer
  | toClient
deriving DecidableEq

/-- The server receives one message: `receive_data` and `next_event`
(/repo/src/psrpcore/_server.py:287-294, /repo/src/psrpcore/_base.py:304-355). -/
def serverReceives (p : Pool) (m : Msg) : Res Ret :=
  (ServerOp.recv (wire m)).step (ServerOp.receiveData.step p).1

/-- The client receives one message (/repo/src/psrpcore/_base.py:290-355). -/
def clientReceives (p : Pool) (m : Msg) : Res Ret := (ClientOp.recv (wire m)).step p

/-- One step of a session. A delivery without a message in flight does nothing
(`next_event` returns `None`, /repo/src/psrpcore/_base.py:354-355). -/
def Session.step (s : Session) : SessionOp → Session × Except Err Ret
  | .client op => ({ s with client := (op.step s.client).1 }, (op.step s.client).2)
  | .server op => ({ s with server := (op.step s.server).1 }, (op.step s.server).2)
  | .toServer =>
    match s.client.sendBuffer[s.atServer]? with
    | none => (s, .ok .none)
    | some m =>
      ({ s with server := (serverReceives s.server m).1, atServer := s.atServer + 1 },
       (serverReceives s.server m).2)
  | .toClient =>
    match s.server.sendBuffer[s.atClient]? with
    | none => (s, .ok .none)
    | some m =>
      ({ s with client := (clientReceives s.client m).1, atClient := s.atClient + 1 },
       (clientReceives s.client m).2)

/-- A history of a session (/repo/src/psrpcore/_base.py:227-355). -/
def Session.run (s : Session) : List SessionOp → Session × List (SessionOp × Except Err Ret)
  | [] => (s, [])
  | op :: ops =>
    let r := s.step op
    let rest := r.1.run ops
    (rest.1, (op, r.2) :: rest.2)

end Verif
