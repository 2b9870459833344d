import Verif.Model.Session
import Verif.Spec.Pool

/-! # What the session theorems speak about -/

namespace Verif

namespace Session

/-- Nothing is in flight. -/
def Drained (s : Session) : Prop :=
  s.atServer = s.client.sendBuffer.length ∧ s.atClient = s.server.sendBuffer.length

/-- The messages in flight to the server. -/
def toServer (s : Session) : List Msg := s.client.sendBuffer.drop s.atServer

/-- The messages in flight to the client. -/
def toClient (s : Session) : List Msg := s.server.sendBuffer.drop s.atClient

/-! ## The opening handshake (C21) -/

/-- The configuration of the two sides. -/
structure Config where
  rpid : UUID
  args : Val
  apartment : Nat
  threadOptions : Nat
  host : Option Val
  min : Int
  max : Int
  keyPair : Nat
  privateData : Val
  sessionKey : Nat

variable (k : Config)

open Pool

/-- The client pool with this configuration. -/
def Config.client : Pool :=
  newClient k.rpid k.args k.apartment k.threadOptions k.host k.min k.max k.keyPair

/-- The server pool with this configuration. -/
def Config.server : Pool := newServer k.privateData k.sessionKey

/-- The session before anything happened. -/
def Config.session : Session := { client := k.client, server := k.server }

/-- What the configuration has to satisfy: the limits are 32 bit integers, and the objects can be
serialized and deserialized. -/
structure Config.Ok : Prop where
  min : fitsInt32 k.min = true
  max : fitsInt32 k.max = true
  hostOut : (k.host.getD defaultHost).serializeFails none = none
  argsOut : k.args.serializeFails none = none
  hostIn : (k.host.getD defaultHost).deserializeFails = none
  argsIn : k.args.deserializeFails = none
  dataOut : k.privateData.serializeFails (some k.sessionKey) = none
  dataIn : k.privateData.deserializeFails = none

end Session

/-- The step is a delivery. -/
def SessionOp.IsDelivery : SessionOp → Prop
  | .toServer | .toClient => True
  | _ => False

/-- The step is a delivery or a call of the API: messages arrive only by delivery, and the
program does not build protocol messages itself with `prepare_message`. -/
def SessionOp.IsApi : SessionOp → Prop
  | .client (.recv _) | .client (.base (.prepare ..)) => False
  | .server (.recv _) | .server .receiveData | .server (.base (.prepare ..)) => False
  | _ => True

/-! ## State messages (C22) -/

/-- The operation makes a client change the state of its pool by itself. -/
def ClientOp.changesPool : ClientOp → Bool
  | .base .beginClose | .base .close | .base .beginDisconnect | .base .disconnect
  | .base .reconnect | .open_ | .connect => true
  | _ => false

/-- Whoever has a session key can send the value, and the peer can read it. -/
def Val.Plain (v : Val) : Prop := v.serializeError = none ∧ v.deserializeError = none

/-- A step after which the state messages still tell the state of the pool: the client does not
change it by itself, and the error the server gives when it breaks the pool can be sent. -/
def SessionOp.Mirrored : SessionOp → Prop
  | .client op => op.changesPool = false
  | .server (.setBroken v) => v.Plain
  | _ => True

/-- The pipeline objects `hc` of the client and `hs` of the server have the id `pid`, no other
object has it, and the client lists its one under it. -/
structure Paired (pid : UUID) (hc hs : Nat) (s : Session) : Prop where
  client : (s.client.pipes.map (·.pid))[hc]? = some pid
  server : (s.server.pipes.map (·.pid))[hs]? = some pid
  oneClient : ∀ h : Nat, (s.client.pipes.map (·.pid))[h]? = some pid → h = hc
  oneServer : ∀ h : Nat, (s.server.pipes.map (·.pid))[h]? = some pid → h = hs
  listed : s.client.table.get? pid = some hc

/-- A step in which the program does not start, stop or close the client pipeline `hc` and makes no
further pipeline object with the id `pid`. -/
def SessionOp.Leaves (pid : UUID) (hc : Nat) : SessionOp → Prop
  | .client (.newPipe pid' _ _) => pid' ≠ pid
  | .client (.pipeStart h) | .client (.base (.pipeBeginStop h)) | .client (.base (.pipeClose h)) =>
    h ≠ hc
  | .server (.newPipe pid') => pid' ≠ pid
  | _ => True

/-- The state of pipeline object `h`. -/
def Pool.pipeState (p : Pool) (h : Nat) : Option PipeState := (p.pipes[h]?).map (·.state)

/-! ## Requests and limits (C17, C18) -/

/-- A session that has been opened: the client called `open`, and messages were delivered in any
order until none was left. -/
def OpenSession (s : Session) : Prop :=
  ∃ (k : Session.Config) (ds : List SessionOp), k.Ok ∧ (∀ d ∈ ds, d.IsDelivery) ∧
    s = (k.session.run (.client .open_ :: ds)).1 ∧ s.Drained

/-- What happened in a session. -/
abbrev SessionTrace := List (SessionOp × Except Err Ret)

/-- The call ids the methods of the client returned, in order. -/
def SessionTrace.requested (tr : SessionTrace) : List Int :=
  tr.filterMap fun e => match e with
    | (.client _, .ok (.ci n)) => some n
    | _ => none

/-- The call ids of the requests among some messages. -/
def requestIds (ms : List Msg) : List Int := (ms.filterMap Pool.requestOf).map Prod.fst

/-- The call ids of the answers among some messages. -/
def answerIds (ms : List Msg) : List Int := (ms.filterMap responseOf).map Prod.snd

/-- The runspace limits (min, max) of a pool. -/
def Pool.limits (p : Pool) : Int × Int := (p.minR, p.maxR)

end Verif
