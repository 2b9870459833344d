import Verif.Model.Payload

/-!
# The transport part of a runspace pool

Models the send buffer, `data_to_send`, `receive_data` and the message assembly
loop of `next_event` in /repo/src/psrpcore/_base.py:227-355.
-/

namespace Verif

/-- `amount is not None and amount < n`, /repo/src/psrpcore/_base.py:246, 256. -/
def amountBelow : Option Int → Int → Bool
  | none, _ => false
  | some a, n => decide (a < n)

/-- `allowed_length`, /repo/src/psrpcore/_base.py:267-270. -/
def allowedLength : Option Int → PSRPMessage → Nat
  | none, m => m.data.length
  | some a, _ => (a - 21).toNat

/-- The updated `amount`, /repo/src/psrpcore/_base.py:267-271; it may become negative. -/
def amountLeft : Option Int → PSRPMessage → Option Int
  | none, _ => none
  | some a, m => some (a - (21 + (m.data.length : Int)))

/-- The loop of `data_to_send`, /repo/src/psrpcore/_base.py:255-286.
Arguments: the remaining `amount`, `current_buffer`, `stream_type`, `pipeline_id`, the
messages already visited that are still in the send buffer, the messages not yet
visited. Returns the send buffer left behind (also when an exception is raised) and the
loop variables. `self._send_buffer.remove(message)` removes the visited message itself:
`PSRPMessage` has no `__eq__`. -/
def sendLoop : Option Int → Bytes → StreamType → Option UUID → List PSRPMessage →
    List PSRPMessage → List PSRPMessage × Except Err (Bytes × StreamType × Option UUID)
  | _, buf, st, pid, kept, [] => (kept, .ok (buf, st, pid))
  | amount, buf, st, pid, kept, m :: ms =>
    if amountBelow amount 21 then
      (kept ++ m :: ms, .ok (buf, st, pid))
    else
      let st := if buf.isEmpty then m.streamType else st
      let pid := if buf.isEmpty then m.pipelineId else pid
      if pid ≠ m.pipelineId then
        (kept ++ m :: ms, .ok (buf, st, pid))
      else
        let (m', f) := m.fragment (allowedLength amount m)
        match createFragment f.objectId f.fragmentId f.data f.end_ with
        | .error e => (kept ++ m' :: ms, .error e)
        | .ok b => sendLoop (amountLeft amount m) (buf ++ b) st pid
            (if m'.data.length = 0 then kept else kept ++ [m']) ms

/-- `data_to_send(amount)`, /repo/src/psrpcore/_base.py:227-288. -/
def dataToSend (buffer : List PSRPMessage) (amount : Option Int) :
    List PSRPMessage × Except Err (Option Payload) :=
  if amountBelow amount 22 then
    (buffer, .error .valueError)
  else
    match sendLoop amount [] .default none [] buffer with
    | (buffer', .error e) => (buffer', .error e)
    | (buffer', .ok (b, st, pid)) =>
      (buffer', .ok (if b.isEmpty then none else some ⟨b, st, pid⟩))

/-- The receive side of a pool: `_receive_buffer`, `_incoming_fragments`,
`_incoming_messages`, /repo/src/psrpcore/_base.py:141-148. The stored `Message` keeps
the destination field, which the `PSRPMessage` built at 339-341 drops. -/
structure Recv where
  buffer : Bytes := []
  fragments : Dict Nat (List Bytes) := []
  messages : Dict Nat Message := []
deriving DecidableEq

/-- `receive_data`, /repo/src/psrpcore/_base.py:290-302. -/
def Recv.receiveData (r : Recv) (data : Bytes) : Recv :=
  { r with buffer := r.buffer ++ data }

/-- What the loop of `next_event` does with one unpacked fragment,
/repo/src/psrpcore/_base.py:330-343. -/
def Recv.addFragment (r : Recv) (f : Fragment) : Recv × Except Err Unit :=
  let chunks := (r.fragments.get? f.objectId).getD []
  -- setdefault
  let r := { r with fragments := r.fragments.set f.objectId chunks }
  if f.fragmentId ≠ chunks.length then (r, .error .psrpCore)
  else
    let chunks := chunks ++ [f.data]
    let r := { r with fragments := r.fragments.set f.objectId chunks }
    if f.end_ then
      match unpackMessage chunks.flatten with
      | .error e => (r, .error e)
      | .ok m =>
        ({ r with messages := r.messages.set f.objectId m,
                  fragments := r.fragments.erase f.objectId }, .ok ())
    else (r, .ok ())

/-- The `while self._receive_buffer` loop of `next_event`,
/repo/src/psrpcore/_base.py:318-343. The first argument bounds the number of iterations;
every iteration removes at least 21 bytes from the buffer, so the bound used in `drain`
is never reached (`drainLoop_stable` in Proof/Link). -/
def Recv.drainLoop : Nat → Recv → Recv × Except Err Unit
  | 0, r => (r, .ok ())
  | n + 1, r =>
    if r.buffer = [] then (r, .ok ())
    else
      match unpackFragment r.buffer with
      | .error e => (r, .error e)
      | .ok f =>
        match ({ r with buffer := r.buffer.drop (21 + f.data.length) } : Recv).addFragment f with
        | (r', .error e) => (r', .error e)
        | (r', .ok ()) => drainLoop n r'

/-- The `while self._receive_buffer` loop of `next_event`,
/repo/src/psrpcore/_base.py:318-343. -/
def Recv.drain (r : Recv) : Recv × Except Err Unit := Recv.drainLoop r.buffer.length r

/-- `next_event` up to the point where the message is processed,
/repo/src/psrpcore/_base.py:317-348: assemble, then take out the oldest message. -/
def Recv.nextMessage (r : Recv) : Recv × Except Err (Option (Nat × Message)) :=
  match r.drain with
  | (r, .error e) => (r, .error e)
  | (r, .ok ()) =>
    match r.messages with
    | [] => (r, .ok none)
    | (oid, m) :: ms => ({ r with messages := ms }, .ok (some (oid, m)))

/-- The sending side of a pool as far as the transport goes: `_is_client`,
`runspace_pool_id`, `_fragment_count`, `_send_buffer`,
/repo/src/psrpcore/_base.py:115-139. -/
structure Sender where
  client : Bool
  rpid : UUID
  fragmentCount : Nat := 1
  buffer : List PSRPMessage := []

/-- The end of `prepare_message`, /repo/src/psrpcore/_base.py:401-417 with the counter
of 173-180: pack the message, take the next object id, append to the send buffer. -/
def Sender.enqueue (s : Sender) (t : MsgType) (data : Bytes) (pid : Option UUID)
    (st : StreamType) : Sender × Except Err Unit :=
  match createMessage s.client t data s.rpid pid with
  | .error e => (s, .error e)
  | .ok b =>
    let m : PSRPMessage :=
      { messageType := t, pipelineId := pid, objectId := s.fragmentCount, streamType := st,
        data := b }
    ({ s with fragmentCount := s.fragmentCount + 1, buffer := s.buffer ++ [m] }, .ok ())

end Verif
