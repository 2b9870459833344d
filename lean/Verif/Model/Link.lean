import Verif.Model.Transport

/-!
# A one way link between two pools

Composition of the sender side of one pool, an ordered reliable transport, and the
receiver side of the other pool. The pool methods are those of `Model/Transport`
(/repo/src/psrpcore/_base.py:227-355, 401-417); the composition itself models the
implementer's use of the library described in /repo/src/psrpcore/_base.py:233-236 and
290-316: payloads are delivered in the order `data_to_send` returned them.
-/

namespace Verif

/-- One step of the two users of the link: the sender queues a message
(`prepare_message`, /repo/src/psrpcore/_base.py:401-417), the sender calls
`data_to_send` and puts the payload on the wire (227-288), the receiver passes the next
payload on the wire to `receive_data` (290-302), the receiver calls `next_event`
(304-352). -/
inductive LinkOp
  | queue (t : MsgType) (data : Bytes) (pid : Option UUID) (st : StreamType)
  | flush (amount : Option Int)
  | deliver
  | poll
deriving DecidableEq

/-- The state of the link. `queued`, `taken`, `errors` are the observations: the
messages queued so far, the messages the receiver took out so far, the exceptions
raised so far (/repo/src/psrpcore/_base.py:139-148 for the pool parts). -/
structure Link where
  sender : Sender
  wire : List Bytes := []
  recv : Recv := {}
  queued : List Message := []
  taken : List Message := []
  errors : List Err := []

/-- Effect of one step (/repo/src/psrpcore/_base.py:227-355, 401-417). -/
def Link.step (l : Link) : LinkOp → Link
  | .queue t data pid st =>
    match l.sender.enqueue t data pid st with
    | (s, .ok ()) =>
      let msg : Message := { destination := if l.sender.client then 2 else 1, messageType := t,
                             rpid := l.sender.rpid, pid := pid, data := data }
      { l with sender := s, queued := l.queued ++ [msg] }
    | (s, .error e) => { l with sender := s, errors := l.errors ++ [e] }
  | .flush amount =>
    match dataToSend l.sender.buffer amount with
    | (b, .ok none) => { l with sender := { l.sender with buffer := b } }
    | (b, .ok (some p)) =>
      { l with sender := { l.sender with buffer := b }, wire := l.wire ++ [p.data] }
    | (b, .error e) =>
      { l with sender := { l.sender with buffer := b }, errors := l.errors ++ [e] }
  | .deliver =>
    match l.wire with
    | [] => l
    | p :: ps => { l with wire := ps, recv := l.recv.receiveData p }
  | .poll =>
    match l.recv.nextMessage with
    | (r, .ok none) => { l with recv := r }
    | (r, .ok (some (_, m))) => { l with recv := r, taken := l.taken ++ [m] }
    | (r, .error e) => { l with recv := r, errors := l.errors ++ [e] }

/-- A whole history (/repo/src/psrpcore/_base.py:227-355, 401-417). -/
def Link.run (l : Link) (ops : List LinkOp) : Link := ops.foldl Link.step l

/-- What a receiving user does: pass bytes to `receive_data`
(/repo/src/psrpcore/_base.py:290-302) or call `next_event` (304-352). -/
inductive RecvOp
  | receive (b : Bytes)
  | poll
deriving DecidableEq

/-- A receiver with its observations: the messages taken out and the exceptions raised
(/repo/src/psrpcore/_base.py:141-148 for the pool part). -/
structure RecvRun where
  recv : Recv := {}
  taken : List (Nat × Message) := []
  errors : List Err := []
deriving DecidableEq

/-- Effect of one receiver step (/repo/src/psrpcore/_base.py:290-352). -/
def RecvRun.step (s : RecvRun) : RecvOp → RecvRun
  | .receive b => { s with recv := s.recv.receiveData b }
  | .poll =>
    match s.recv.nextMessage with
    | (r, .ok none) => { s with recv := r }
    | (r, .ok (some m)) => { s with recv := r, taken := s.taken ++ [m] }
    | (r, .error e) => { s with recv := r, errors := s.errors ++ [e] }

/-- A whole receiver history (/repo/src/psrpcore/_base.py:290-352). -/
def RecvRun.run (s : RecvRun) (ops : List RecvOp) : RecvRun := ops.foldl RecvRun.step s

end Verif
