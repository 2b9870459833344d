import Verif.Model.Server

/-!
# Histories of a pool

The API calls a program can make on a client or a server pool, and the messages it can
receive, as operations; a history is a list of operations.
-/

namespace Verif

/-- What an operation returns. -/
inductive Ret
  | none
  | ci (n : Int)
  | event (m : Msg)
deriving DecidableEq

/-- The result of a method as a `Ret`. -/
def Res.ret {α : Type} (f : α → Ret) (r : Res α) : Res Ret := (r.1, r.2.map f)

/-- A call id or `None` (/repo/src/psrpcore/_client.py:262, 289). -/
def Ret.ofOption : Option Int → Ret
  | some n => .ci n
  | .none => .none

/-- The operations common to both sides, /repo/src/psrpcore/_base.py:182-225, 357-417,
531-574. -/
inductive BaseOp
  | beginClose | close | beginDisconnect | disconnect | reconnect
  | pipeBeginStop (h : Nat)
  | pipeClose (h : Nat)
  /-- `prepare_message` called by the program itself -/
  | prepare (message : Option Obj) (t : Option MsgType) (pid : Option UUID) (stream : StreamType)
deriving DecidableEq

/-- One common operation, /repo/src/psrpcore/_base.py:182-225, 357-417, 531-574. -/
def BaseOp.step (p : Pool) : BaseOp → Res Ret
  | beginClose => p.beginClose.ret fun _ => .none
  | close => p.close.ret fun _ => .none
  | beginDisconnect => p.beginDisconnect.ret fun _ => .none
  | disconnect => p.disconnect.ret fun _ => .none
  | reconnect => p.reconnect.ret fun _ => .none
  | pipeBeginStop h => (p.pipeBeginStop h).ret fun _ => .none
  | pipeClose h => (p.pipeClose h).ret fun _ => .none
  | prepare m t pid s => (p.prepareMessage m t pid s).ret fun _ => .none

/-- The two client pipeline classes, /repo/src/psrpcore/_client.py:518-729. -/
inductive PipeKind
  | powerShell | getCommandMetadata
deriving DecidableEq, Repr

/-- `_message_type` of a client pipeline, /repo/src/psrpcore/_client.py:518-729. -/
def PipeKind.type : PipeKind → MsgType
  | powerShell => .CreatePipeline
  | getCommandMetadata => .GetCommandMetadata

/-- The message object a client pipeline sends when started: its metadata in remoting form
(/repo/src/psrpcore/_client.py:465, /repo/src/psrpcore/_pipeline.py:104-142, 145-204); the
content is opaque. -/
def PipeKind.body : PipeKind → Val → Body
  | powerShell, v => .createPipeline v
  | getCommandMetadata, v => .getCommandMetadata v

/-- The operations of a client, /repo/src/psrpcore/_client.py:116-311, 447-515, and
receiving a message. -/
inductive ClientOp
  | base (op : BaseOp)
  | open_ | connect | getAvailableRunspaces | exchangeKey | resetRunspaceState
  | hostResponse (ci : Int) (ret err : Option Val)
  | setMaxRunspaces (v : Int)
  | setMinRunspaces (v : Int)
  | newPipe (pid : UUID) (kind : PipeKind) (metadata : Val)
  | pipeStart (h : Nat)
  | pipeSend (h : Nat) (data : Option Obj)
  | pipeSendEof (h : Nat)
  | pipeHostResponse (h : Nat) (ci : Int) (ret err : Option Val)
  | recv (m : Msg)
deriving DecidableEq

/-- One client operation, /repo/src/psrpcore/_client.py:116-515. -/
def ClientOp.step (p : Pool) : ClientOp → Res Ret
  | base op => op.step p
  | open_ => p.open_.ret fun _ => .none
  | connect => p.connectClient.ret fun _ => .none
  | getAvailableRunspaces => p.getAvailableRunspaces.ret .ci
  | exchangeKey => p.exchangeKeyOp.ret fun _ => .none
  | resetRunspaceState => p.resetRunspaceState.ret .ci
  | hostResponse ci ret err => (p.hostResponse ci ret err).ret fun _ => .none
  | setMaxRunspaces v => (p.setMaxRunspaces v).ret .ofOption
  | setMinRunspaces v => (p.setMinRunspaces v).ret .ofOption
  | newPipe pid kind v => (p.newPipe pid (some kind.type) (some (.msg (kind.body v))), .ok .none)
  | pipeStart h => (p.pipeStartClient h).ret fun _ => .none
  | pipeSend h d => (p.pipeSend h d).ret fun _ => .none
  | pipeSendEof h => (p.pipeSendEof h).ret fun _ => .none
  | pipeHostResponse h ci ret err => (p.pipeHostResponse h ci ret err).ret fun _ => .none
  | recv m => (p.recvClient m).ret .event

/-- The operations of a server, /repo/src/psrpcore/_server.py:100-294, 454-762, and
receiving a message. -/
inductive ServerOp
  | base (op : BaseOp)
  | connect | requestKey
  | sendEvent (v : Val)
  | setBroken (error : Val)
  | hostCall (method : HostMethod) (params : Val) (pid : Option UUID)
  | availabilityResponse (ci : Int) (r : Resp)
  /-- `receive_data` -/
  | receiveData
  | newPipe (pid : UUID)
  | pipeComplete (h : Nat)
  | pipeStart (h : Nat)
  | pipeStop (h : Nat)
  | pipeHostCall (h : Nat) (method : HostMethod) (params : Val)
  | pipeWriteOutput (h : Nat) (value : Option Obj)
  | pipeWriteRecord (h : Nat) (kind : RecordKind) (v : Val)
  | recv (m : Msg)
deriving DecidableEq

/-- One server operation, /repo/src/psrpcore/_server.py:100-762. -/
def ServerOp.step (p : Pool) : ServerOp → Res Ret
  | base op => op.step p
  | connect => p.connectServer.ret fun _ => .none
  | requestKey => p.requestKey.ret fun _ => .none
  | sendEvent v => (p.sendEvent v).ret fun _ => .none
  | setBroken e => (p.setBroken e).ret fun _ => .none
  | hostCall m ps pid => (p.hostCall m ps pid).ret .ci
  | availabilityResponse ci r => (p.availabilityResponse ci r).ret fun _ => .none
  | receiveData => p.receiveServer.ret fun _ => .none
  | newPipe pid => (p.newPipe pid none none, .ok .none)
  | pipeComplete h => (p.pipeComplete h).ret fun _ => .none
  | pipeStart h => (p.pipeStartServer h).ret fun _ => .none
  | pipeStop h => (p.pipeStop h).ret fun _ => .none
  | pipeHostCall h m ps => (p.pipeHostCall h m ps).ret .ci
  | pipeWriteOutput h v => (p.pipeWriteOutput h v).ret fun _ => .none
  | pipeWriteRecord h k v => (p.pipeWriteRecord h k v).ret fun _ => .none
  | recv m => (p.recvServer m).ret .event

/-- A history of a client: the pool after it and the result of each operation
(/repo/src/psrpcore/_client.py:116-515). -/
def runClient (p : Pool) : List ClientOp → Pool × List (ClientOp × Except Err Ret)
  | [] => (p, [])
  | op :: ops =>
    let r := op.step p
    let rest := runClient r.1 ops
    (rest.1, (op, r.2) :: rest.2)

/-- A history of a server (/repo/src/psrpcore/_server.py:100-762). -/
def runServer (p : Pool) : List ServerOp → Pool × List (ServerOp × Except Err Ret)
  | [] => (p, [])
  | op :: ops =>
    let r := op.step p
    let rest := runServer r.1 ops
    (rest.1, (op, r.2) :: rest.2)

end Verif
