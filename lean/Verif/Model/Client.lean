import Verif.Model.Pool

/-!
# The client runspace pool and pipelines

Models /repo/src/psrpcore/_client.py.
-/

namespace Verif

/-- `PSInt(value)`: an Int32, `ValueError` out of range
(/repo/src/psrpcore/types/_primitive.py:131-135, used by
/repo/src/psrpcore/types/_psrp.py:161-162, 241, 260). -/
def fitsInt32 (n : Int) : Bool := decide (-(2 ^ 31) ≤ n ∧ n < 2 ^ 31)

namespace Pool

/-- `ClientRunspacePool.__init__`, /repo/src/psrpcore/_client.py:94-114. -/
def newClient (rpid : UUID) (args : Val) (apartment threadOptions : Nat) (host : Option Val)
    (min max : Int) (keyPair : Nat) : Pool :=
  { isClient := true, rpid := rpid, ours := ourCapability, appArgs := args, appPrivate := { tag := 0 },
    host := host, apartment := apartment, threadOptions := threadOptions, keyPair := keyPair,
    sessionKey := 0, minR := min, maxR := max }

/-- `HostInfo()`: the host description sent when the pool has none
(/repo/src/psrpcore/_client.py:126). -/
def defaultHost : Val := { tag := 0 }

/-- `ClientRunspacePool.open`, /repo/src/psrpcore/_client.py:116-139. -/
def open_ (p : Pool) : Res Unit :=
  if p.state = .Opened then (p, .ok ())
  else if p.state ≠ .BeforeOpen then (p, .error .invalidPoolState)
  else
    (p.changeState .Opening).next fun p _ =>
    (p.prepareMessage (some (.msg (.sessionCapability p.ours)))).next fun p _ =>
    if ¬ (fitsInt32 p.minR ∧ fitsInt32 p.maxR) then (p, .error .valueError)
    else p.prepareMessage (some (.msg
      (.initRunspacePool p.minR p.maxR p.threadOptions p.apartment (p.host.getD defaultHost)
        p.appArgs)))

/-- `ClientRunspacePool.connect`, /repo/src/psrpcore/_client.py:141-153. -/
def connectClient (p : Pool) : Res Unit :=
  if p.state = .Opened then (p, .ok ())
  else if p.state ∉ [PoolState.BeforeOpen, .Disconnected] then (p, .error .invalidPoolState)
  else
    (p.changeState .Connecting).next fun p _ =>
    (p.prepareMessage (some (.msg (.sessionCapability p.ours)))).next fun p _ =>
    p.prepareMessage (some (.msg (.connectRunspacePool none none)))

/-- `get_available_runspaces`, /repo/src/psrpcore/_client.py:155-172. -/
def getAvailableRunspaces (p : Pool) : Res Int :=
  if p.state ≠ .Opened then (p, .error .invalidPoolState)
  else
    let (p, ci) := p.nextCi
    let p := { p with ciHandlers := p.ciHandlers.set ci none }
    (p.prepareMessage (some (.msg (.getAvailableRunspaces ci)))).next fun p _ => (p, .ok ci)

/-- `exchange_key`, /repo/src/psrpcore/_client.py:174-189. -/
def exchangeKeyOp (p : Pool) : Res Unit :=
  if p.keyRequested then (p, .ok ())
  else if p.state ≠ .Opened then (p, .error .invalidPoolState)
  else
    let p := { p with exchangeKey := some p.keyPair }
    (p.prepareMessage (some (.msg (.publicKey p.keyPair)))).next fun p _ =>
    ({ p with keyRequested := true }, .ok ())

/-- The method identifier and pipeline id of a recorded host call
(/repo/src/psrpcore/_client.py:213-217). Only host call events are ever recorded by a
client (/repo/src/psrpcore/_client.py:353-354, 394-395). -/
def hostCallOf (m : Msg) : Option HostMethod :=
  match m.content with
  | some (.msg (.pipelineHostCall _ mi _)) => some mi
  | some (.msg (.runspacePoolHostCall _ mi _)) => some mi
  | _ => none

/-- The response object for a call of a pipeline or of the pool
(/repo/src/psrpcore/_client.py:219-226). -/
def responseBody (pid : Option UUID) (ci : Int) (mi : HostMethod) (ret err : Option Val) : Body :=
  match pid with
  | some _ => .pipelineHostResponse ci mi ret err
  | none => .runspacePoolHostResponse ci mi ret err

/-- `ClientRunspacePool.host_response`, /repo/src/psrpcore/_client.py:191-233. -/
def hostResponse (p : Pool) (ci : Int) (ret err : Option Val) : Res Unit :=
  if p.state ≠ .Opened then (p, .error .invalidPoolState)
  else match p.ciEvents.get? ci with
    | none => (p, .error .keyError)
    | some call =>
      match hostCallOf call with
      | none => (p, .error .attributeError)
      | some mi =>
        (p.prepareMessage (some (.msg (responseBody call.pid ci mi ret err))) none call.pid .prompt_response).next fun p _ =>
        ({ p with ciEvents := p.ciEvents.erase ci }, .ok ())

/-- `getattr(their_capability, "protocolversion", Win7RC)`
(/repo/src/psrpcore/_client.py:245, /repo/src/psrpcore/_server.py:732). -/
def theirVersion (p : Pool) : PSVersion := (p.theirs.map (·.protocolVersion)).getD Win7RC

/-- `reset_runspace_state`, /repo/src/psrpcore/_client.py:235-257. -/
def resetRunspaceState (p : Pool) : Res Int :=
  if p.theirVersion.lt Pwsh5 then (p, .error .invalidProtocolVersion)
  else if p.state ≠ .Opened then (p, .error .invalidPoolState)
  else
    let (p, ci) := p.nextCi
    let p := { p with ciHandlers := p.ciHandlers.set ci none }
    (p.prepareMessage (some (.msg (.resetRunspaceState ci)))).next fun p _ => (p, .ok ci)

/-- `set_max_runspaces`, /repo/src/psrpcore/_client.py:259-284. -/
def setMaxRunspaces (p : Pool) (value : Int) : Res (Option Int) :=
  if p.state = .BeforeOpen ∨ p.maxR = value then ({ p with maxR := value }, .ok none)
  else
    let (p, ci) := p.nextCi
    let p := { p with ciHandlers := p.ciHandlers.set ci (some (.setMax value)) }
    if ¬ fitsInt32 value then (p, .error .valueError)
    else (p.prepareMessage (some (.msg (.setMaxRunspaces value ci)))).next fun p _ =>
      (p, .ok (some ci))

/-- `set_min_runspaces`, /repo/src/psrpcore/_client.py:286-311. -/
def setMinRunspaces (p : Pool) (value : Int) : Res (Option Int) :=
  if p.state = .BeforeOpen ∨ p.minR = value then ({ p with minR := value }, .ok none)
  else
    let (p, ci) := p.nextCi
    let p := { p with ciHandlers := p.ciHandlers.set ci (some (.setMin value)) }
    if ¬ fitsInt32 value then (p, .error .valueError)
    else (p.prepareMessage (some (.msg (.setMinRunspaces value ci)))).next fun p _ =>
      (p, .ok (some ci))

/-! ## Pipelines -/

/-- `_ClientPipeline.start`, /repo/src/psrpcore/_client.py:455-466. -/
def pipeStartClient (p : Pool) (h : Nat) : Res Unit :=
  p.onPipe h fun q =>
    if q.state ∉ [PipeState.NotStarted, .Stopped, .Completed] then
      (p, .error .invalidPipelineState)
    else (p.pipePrepare q q.metadata q.kind).next fun p _ =>
      (p.updPipe h fun q => { q with state := .Running }, .ok ())

/-- `_ClientPipeline.send`, /repo/src/psrpcore/_client.py:468-482. -/
def pipeSend (p : Pool) (h : Nat) (data : Option Obj) : Res Unit :=
  p.onPipe h fun q =>
    if q.state ≠ .Running then (p, .error .invalidPipelineState)
    else p.pipePrepare q data (some .PipelineInput)

/-- `_ClientPipeline.send_eof`, /repo/src/psrpcore/_client.py:484-493. -/
def pipeSendEof (p : Pool) (h : Nat) : Res Unit :=
  p.onPipe h fun q =>
    if q.state ≠ .Running then (p, .error .invalidPipelineState)
    else p.pipePrepare q (some (.msg .endOfPipelineInput))

/-- `_ClientPipeline.host_response`, /repo/src/psrpcore/_client.py:495-515. -/
def pipeHostResponse (p : Pool) (h : Nat) (ci : Int) (ret err : Option Val) : Res Unit :=
  p.onPipe h fun q =>
    if q.state ≠ .Running then (p, .error .invalidPipelineState)
    else p.hostResponse ci ret err

/-! ## Processing received messages -/

/-- `_process_RunspaceAvailability` and `_set_runspaces_handler`,
/repo/src/psrpcore/_client.py:382-388, 428-436: an unknown id is a `KeyError`; a handler
needs a bool response (an int has no `success`). -/
def clientAvailability (p : Pool) (r : Resp) (ci : Int) : Res Unit :=
  match p.ciHandlers.get? ci with
  | none => (p, .error .keyError)
  | some handler =>
    let p := { p with ciHandlers := p.ciHandlers.erase ci }
    match handler, r with
    | none, _ => (p, .ok ())
    | some _, .int _ => (p, .error .attributeError)
    | some _, .bool false => (p, .ok ())
    | some (.setMax v), .bool true => ({ p with maxR := v }, .ok ())
    | some (.setMin v), .bool true => ({ p with minR := v }, .ok ())

/-- `_process_PipelineState`, /repo/src/psrpcore/_client.py:362-368. -/
def clientPipelineState (p : Pool) (pid : Option UUID) (s : PipeState) : Res Unit :=
  match pid.bind p.table.get? with
  | none => (p, .error .keyError)
  | some h => (p.updPipe h fun q => { q with state := s }, .ok ())

/-- `_process_EncryptedSessionKey`, /repo/src/psrpcore/_client.py:327-335: without an
exchange key there is an `AttributeError`; a key encrypted for another key pair does not
decrypt (`ValueError`). Session keys that are no AES keys are not modelled. -/
def clientSessionKey (p : Pool) (key session : Nat) : Res Unit :=
  match p.exchangeKey with
  | none => (p, .error .attributeError)
  | some k => if k = key then ({ p with cipher := some session }, .ok ()) else (p, .error .valueError)

/-- The `_process_*` methods of a client, /repo/src/psrpcore/_client.py:313-426 and
/repo/src/psrpcore/_base.py:471-480; the other types only give a log message. The message
object of the type is expected inside: that a peer sends other properties than those of the
message is not modelled beyond this being an `AttributeError` that changes nothing. -/
def processClient (p : Pool) (m : Msg) (o : Option Obj) : Res Unit :=
  match m.type, o with
  | .SessionCapability, some (.msg (.sessionCapability c)) => (p.processSessionCapability c, .ok ())
  | .ApplicationPrivateData, some (.msg (.applicationPrivateData v)) =>
    let p := { p with appPrivate := v }
    if p.state = .Connecting then p.changeState .Opened else (p, .ok ())
  | .EncryptedSessionKey, some (.msg (.encryptedSessionKey k s)) => p.clientSessionKey k s
  | .PipelineHostCall, some (.msg (.pipelineHostCall ci _ _)) =>
    if ci ≠ -100 then ({ p with ciEvents := p.ciEvents.set ci m }, .ok ()) else (p, .ok ())
  | .RunspacePoolHostCall, some (.msg (.runspacePoolHostCall ci _ _)) =>
    if ci ≠ -100 then ({ p with ciEvents := p.ciEvents.set ci m }, .ok ()) else (p, .ok ())
  | .PipelineState, some (.msg (.pipelineState s _)) => p.clientPipelineState m.pid s
  | .PublicKeyRequest, some (.msg .publicKeyRequest) => p.exchangeKeyOp
  | .RunspaceAvailability, some (.msg (.runspaceAvailability r ci)) => p.clientAvailability r ci
  | .RunspacePoolInitData, some (.msg (.runspacePoolInitData mn mx)) =>
    ({ p with minR := mn, maxR := mx }, .ok ())
  | .RunspacePoolState, some (.msg (.runspacePoolState s _)) => p.changeState s
  | .SessionCapability, _ | .ApplicationPrivateData, _ | .EncryptedSessionKey, _
  | .PipelineHostCall, _ | .RunspacePoolHostCall, _ | .PipelineState, _ | .PublicKeyRequest, _
  | .RunspaceAvailability, _ | .RunspacePoolInitData, _ | .RunspacePoolState, _ =>
    (p, .error .attributeError)
  | _, _ => (p, .ok ())

/-- `next_event` of a client for one received message (the transport part is in
`Verif.Model.Transport`), /repo/src/psrpcore/_base.py:345-352, 427-469: the event
carries the message. -/
def recvClient (p : Pool) (m : Msg) : Res Msg :=
  match Pool.decode m with
  | .error e => (p, .error e)
  | .ok o => (p.processClient m o).next fun p _ => (p, .ok m)

end Pool

end Verif
