import Verif.Model.Link
import Verif.Model.Session

/-!
# One client and one server that exchange bytes

`Model/Session.lean` hands over whole messages. Here the two pools have the send and receive buffers of
`Model/Transport.lean` and all that passes between them are the payloads of `data_to_send`, which the users
may ask for in any size, hold back and pass on at any time. How an object becomes bytes and an object again
is a parameter (`Codec`); that is the subject of `Model/Wire.lean` and `Model/Events.lean`.
-/

namespace Verif

/-- How the content of messages is written and read: `serialize` with `ElementTree.tostring`
(/repo/src/psrpcore/_base.py:377-393) and `ElementTree.fromstring` with `deserialize` (443-460). The bytes may
differ from message to message, also for equal objects (secure strings, the version of the peer). Whether reading an
object raises is part of the object (`Val` in `Model/Pool.lean`). -/
structure Codec where
  write : Msg → Bytes
  read : MsgType → Bytes → Option Obj

/-- The `PSRPMessage` that `prepare_message` appends to the send buffer for a message,
/repo/src/psrpcore/_base.py:401-417. `create_message` does not raise for the message types there are
(`createMessage_ok` in Proof/Bytes). -/
def Codec.pack (K : Codec) (client : Bool) (m : Msg) : PSRPMessage :=
  { messageType := m.type
    pipelineId := m.pid
    objectId := m.oid
    streamType := m.stream
    data := (createMessage client m.type (K.write m) m.rpid m.pid).toOption.getD [] }

/-- One of the two pools with its buffers: `out` is `_send_buffer`, `recv` is `_receive_buffer`,
`_incoming_fragments` and `_incoming_messages` (/repo/src/psrpcore/_base.py:139-148). The field
`sendBuffer` of `pool` is the list of all messages prepared so far. -/
structure End where
  pool : Pool
  out : List PSRPMessage := []
  recv : Recv := {}

/-- The pool after a call: what the call prepared goes to the end of the send buffer,
/repo/src/psrpcore/_base.py:401-417. -/
def End.after (K : Codec) (client : Bool) (e : End) (p : Pool) : End :=
  { e with pool := p, out := e.out ++ (p.sendBuffer.drop e.pool.sendBuffer.length).map (K.pack client) }

/-- `data_to_send(amount)`, /repo/src/psrpcore/_base.py:227-288: the bytes of the payload, if there are any. -/
def End.send (e : End) (amount : Option Int) : End × List Bytes :=
  match dataToSend e.out amount with
  | (out, .ok (some p)) => ({ e with out := out }, [p.data])
  | (out, .ok none) => ({ e with out := out }, [])
  | (out, .error _) => ({ e with out := out }, [])

/-- `next_event` up to `_process_message`, /repo/src/psrpcore/_base.py:317-350, 443-460: no message, an
exception of the assembly, or a message. -/
def End.take (K : Codec) (e : End) : End × Option (Except Err Msg) :=
  match e.recv.nextMessage with
  | (r, .ok none) => ({ e with recv := r }, none)
  | (r, .error x) => ({ e with recv := r }, some (.error x))
  | (r, .ok (some (oid, m))) =>
    ({ e with recv := r },
     some (.ok
       { type := m.messageType
         content := K.read m.messageType m.data
         rpid := m.rpid
         pid := m.pid
         oid := oid }))

/-- The two pools and the payloads on the way (/repo/src/psrpcore/_base.py:227-302). -/
structure ByteSession where
  client : End
  server : End
  toServer : List Bytes := []
  toClient : List Bytes := []

/-- What the users of the two pools do: call a method, call `data_to_send` and put the payload on the way, give the
next payload to `receive_data`, call `next_event` (/repo/src/psrpcore/_base.py:227-355). -/
inductive ByteOp
  | client (op : ClientOp)
  | server (op : ServerOp)
  | clientSends (amount : Option Int)
  | serverSends (amount : Option Int)
  | clientGets
  | serverGets
  | clientNext
  | serverNext
deriving DecidableEq

/-- `next_event` of a client: the message is processed by the pool, which may prepare messages
(/repo/src/psrpcore/_base.py:304-355). -/
def End.clientNext (K : Codec) (e : End) : End × Option (Except Err Ret) :=
  match e.take K with
  | (e, none) => (e, none)
  | (e, some (.error x)) => (e, some (.error x))
  | (e, some (.ok m)) =>
    (e.after K true ((ClientOp.recv m).step e.pool).1, some ((ClientOp.recv m).step e.pool).2)

/-- `next_event` of a server (/repo/src/psrpcore/_base.py:304-355). -/
def End.serverNext (K : Codec) (e : End) : End × Option (Except Err Ret) :=
  match e.take K with
  | (e, none) => (e, none)
  | (e, some (.error x)) => (e, some (.error x))
  | (e, some (.ok m)) =>
    (e.after K false ((ServerOp.recv m).step e.pool).1, some ((ServerOp.recv m).step e.pool).2)

/-- One step and the result or exception of the method or event; nothing for the transport and for a `next_event` that
returns `None` (/repo/src/psrpcore/_base.py:227-355, /repo/src/psrpcore/_server.py:287-294). -/
def ByteSession.step (K : Codec) (b : ByteSession) : ByteOp → ByteSession × Option (Except Err Ret)
  | .client op => ({ b with client := b.client.after K true (op.step b.client.pool).1 }, some (op.step b.client.pool).2)
  | .server op => ({ b with server := b.server.after K false (op.step b.server.pool).1 }, some (op.step b.server.pool).2)
  | .clientSends amount =>
    ({ b with client := (b.client.send amount).1, toServer := b.toServer ++ (b.client.send amount).2 }, none)
  | .serverSends amount =>
    ({ b with server := (b.server.send amount).1, toClient := b.toClient ++ (b.server.send amount).2 }, none)
  | .clientGets =>
    match b.toClient with
    | [] => (b, none)
    | x :: xs => ({ b with client := { b.client with recv := b.client.recv.receiveData x }, toClient := xs }, none)
  | .serverGets =>
    match b.toServer with
    | [] => (b, none)
    | x :: xs =>
      ({ b with
          server := { b.server with
            pool := (ServerOp.receiveData.step b.server.pool).1
            recv := b.server.recv.receiveData x }
          toServer := xs }, none)
  | .clientNext => ({ b with client := (b.client.clientNext K).1 }, (b.client.clientNext K).2)
  | .serverNext => ({ b with server := (b.server.serverNext K).1 }, (b.server.serverNext K).2)

/-- A history and what was observed in it (/repo/src/psrpcore/_base.py:227-355). -/
def ByteSession.run (K : Codec) (b : ByteSession) : List ByteOp → ByteSession × List (ByteOp × Option (Except Err Ret))
  | [] => (b, [])
  | op :: ops =>
    let r := b.step K op
    let rest := r.1.run K ops
    (rest.1, (op, r.2) :: rest.2)

end Verif
