import Verif.Model.Client

/-!
# The server runspace pool and pipelines

Models /repo/src/psrpcore/_server.py.
-/

namespace Verif

/-- The record writing methods of a server pipeline besides `write_output`
(/repo/src/psrpcore/_server.py:545-762). -/
inductive RecordKind
  | error | debug | verbose | warning | progress | information
deriving DecidableEq, Repr

/-- The message type each of them queues, /repo/src/psrpcore/_server.py:545-762. -/
def RecordKind.type : RecordKind → MsgType
  | error => .ErrorRecord
  | debug => .DebugRecord
  | verbose => .VerboseRecord
  | warning => .WarningRecord
  | progress => .ProgressRecord
  | information => .InformationRecord

namespace Pool

/-- `ServerRunspacePool.__init__`, /repo/src/psrpcore/_server.py:79-98; the default version
table entries of the private data are part of the opaque value. -/
def newServer (privateData : Val) (sessionKey : Nat) : Pool :=
  { isClient := false, rpid := EMPTY_UUID, ours := ourCapability, appArgs := { tag := 0 },
    appPrivate := privateData, cipher := some sessionKey, keyPair := 0, sessionKey := sessionKey }

/-- `ServerRunspacePool.connect`, /repo/src/psrpcore/_server.py:100-118. -/
def connectServer (p : Pool) : Res Unit :=
  if p.state = .Opened then (p, .ok ())
  else if p.state ≠ .Disconnected then (p, .error .invalidPoolState)
  else changeState { p with ciCount := 1, fragmentCount := 1 } .Connecting

/-- `send_event`, /repo/src/psrpcore/_server.py:120-165; the event as one opaque value. -/
def sendEvent (p : Pool) (v : Val) : Res Unit :=
  if p.state ≠ .Opened then (p, .error .invalidPoolState)
  else p.prepareMessage (some (.msg (.userEvent v)))

/-- `set_broken`, /repo/src/psrpcore/_server.py:167-184. -/
def setBroken (p : Pool) (error : Val) : Res Unit :=
  if p.state ∉ [PoolState.Broken, .Opened] then (p, .error .invalidPoolState)
  else p.changeState .Broken (some error)

/-- The host call object for a pipeline or the pool
(/repo/src/psrpcore/_server.py:212-217). -/
def callBody (pid : Option UUID) (ci : Int) (mi : HostMethod) (mp : Val) : Body :=
  match pid with
  | some _ => .pipelineHostCall ci mi mp
  | none => .runspacePoolHostCall ci mi mp

/-- `ServerRunspacePool.host_call`, /repo/src/psrpcore/_server.py:186-220. -/
def hostCall (p : Pool) (method : HostMethod) (params : Val) (pid : Option UUID) : Res Int :=
  if p.state ≠ .Opened then (p, .error .invalidPoolState)
  else
    let (p, ci) := if method.isVoid then (p, -100) else p.nextCi
    (p.prepareMessage (some (.msg (callBody pid ci method params))) none pid .prompt_response).next fun p _ => (p, .ok ci)

/-- `request_key`, /repo/src/psrpcore/_server.py:222-240. -/
def requestKey (p : Pool) : Res Unit :=
  if p.keyRequested then (p, .ok ())
  else if p.state ≠ .Opened then (p, .error .invalidPoolState)
  else (p.prepareMessage (some (.msg .publicKeyRequest))).next fun p _ =>
    ({ p with keyRequested := true }, .ok ())

/-- Whether a response suits a recorded request: the set and reset requests take a bool,
the get request an int (and every bool is an int)
(/repo/src/psrpcore/_server.py:271-278). -/
def respSuits (request : Msg) (r : Resp) : Bool :=
  match request.type, r with
  | .SetMaxRunspaces, .int _ => false
  | .SetMinRunspaces, .int _ => false
  | .ResetRunspaceState, .int _ => false
  | _, _ => true

/-- `handler(event)` of a server: /repo/src/psrpcore/_server.py:282-283, 436, 443. -/
def runServerHandler (p : Pool) (h : Option Handler) (r : Resp) : Pool :=
  match h, r with
  | some (.setMax v), .bool true => { p with maxR := v }
  | some (.setMin v), .bool true => { p with minR := v }
  | _, _ => p

/-- `runspace_availability_response`, /repo/src/psrpcore/_server.py:242-285. -/
def availabilityResponse (p : Pool) (ci : Int) (r : Resp) : Res Unit :=
  match p.ciEvents.get? ci with
  | none => (p, .error .psrpCore)
  | some request =>
    if ¬ respSuits request r then (p, .error .psrpCore)
    else
      let handler := (p.ciHandlers.get? ci).join
      let p := { p with ciEvents := p.ciEvents.erase ci, ciHandlers := p.ciHandlers.erase ci }
      let p := p.runServerHandler handler r
      p.prepareMessage (some (.msg (.runspaceAvailability r ci)))

/-- `ServerRunspacePool.receive_data`, /repo/src/psrpcore/_server.py:287-294: the state
change without a message; storing the bytes is in `Verif.Model.Transport`. -/
def receiveServer (p : Pool) : Res Unit :=
  if p.state = .BeforeOpen then ({ p with state := .Opening }, .ok ()) else (p, .ok ())

/-! ## Pipelines -/

/-- `ServerPipeline.complete`, /repo/src/psrpcore/_server.py:454-460. -/
def pipeComplete (p : Pool) (h : Nat) : Res Unit := p.pipeChangeState h .Completed

/-- `ServerPipeline.start`, /repo/src/psrpcore/_server.py:462-468. -/
def pipeStartServer (p : Pool) (h : Nat) : Res Unit :=
  p.onPipe h fun q =>
    if q.state ∉ [PipeState.NotStarted, .Stopped, .Completed] then
      (p, .error .invalidPipelineState)
    else p.pipeChangeState h .Running

/-- The error record of a stopped pipeline, /repo/src/psrpcore/_server.py:483-503: always
serializable. -/
def stoppedError : Val := { tag := 0 }

/-- `ServerPipeline.stop`, /repo/src/psrpcore/_server.py:470-504. -/
def pipeStop (p : Pool) (h : Nat) : Res Unit :=
  p.onPipe h fun q =>
    if q.state = .Stopped then (p, .ok ())
    else if q.state ∉ [PipeState.Running, .Stopping] then (p, .error .invalidPipelineState)
    else p.pipeChangeState h .Stopped (some stoppedError)

/-- `ServerPipeline.host_call`, /repo/src/psrpcore/_server.py:506-527. -/
def pipeHostCall (p : Pool) (h : Nat) (method : HostMethod) (params : Val) : Res Int :=
  p.onPipe h fun q =>
    if q.state ≠ .Running then (p, .error .invalidPipelineState)
    else p.hostCall method params (some q.pid)

/-- `ServerPipeline.write_output`, /repo/src/psrpcore/_server.py:529-543. -/
def pipeWriteOutput (p : Pool) (h : Nat) (value : Option Obj) : Res Unit :=
  p.onPipe h fun q =>
    if q.state ≠ .Running then (p, .error .invalidPipelineState)
    else p.pipePrepare q value (some .PipelineOutput)

/-- The record writing methods, /repo/src/psrpcore/_server.py:545-762;
`write_information` checks the version before the state. The record as one opaque value. -/
def pipeWriteRecord (p : Pool) (h : Nat) (kind : RecordKind) (v : Val) : Res Unit :=
  p.onPipe h fun q =>
    if kind = .information ∧ p.theirVersion.lt Pwsh5 then (p, .error .invalidProtocolVersion)
    else if q.state ≠ .Running then (p, .error .invalidPipelineState)
    else p.pipePrepare q (some (.val v)) (some kind.type)

/-! ## Processing received messages -/

/-- `x or y` for an optional int: `None` and 0 give `y`
(/repo/src/psrpcore/_server.py:322-323). -/
def orCurrent (x : Option Int) (y : Int) : Int :=
  match x with
  | none => y
  | some v => if v = 0 then y else v

/-- `_process_ConnectRunspacePool`, /repo/src/psrpcore/_server.py:317-333. -/
def serverConnect (p : Pool) (mn mx : Option Int) : Res Unit :=
  let p := { p with maxR := orCurrent mx p.maxR, minR := orCurrent mn p.minR }
  (p.prepareMessage (some (.msg (.runspacePoolInitData p.minR p.maxR)))).next fun p _ =>
  (p.prepareMessage (some (.msg (.applicationPrivateData p.appPrivate)))).next fun p _ =>
  p.changeState .Opened

/-- `_process_CreatePipeline` / `_process_GetCommandMetadata`,
/repo/src/psrpcore/_server.py:335-342, 357-364. -/
def serverPipelineData (p : Pool) (pid : Option UUID) (o : Obj) : Res Unit :=
  match pid.bind p.table.get? with
  | none => (p, .error .psrpCore)
  | some h => (p.updPipe h fun q => { q with metadata := some o }, .ok ())

/-- `_process_InitRunspacePool`, /repo/src/psrpcore/_server.py:366-378. -/
def serverInit (p : Pool) (mn mx : Int) (threadOptions apartment : Nat) (host args : Val) :
    Res Unit :=
  let p := { p with apartment := apartment, appArgs := args, host := some host,
                    threadOptions := threadOptions, maxR := mx, minR := mn }
  (p.prepareMessage (some (.msg (.applicationPrivateData p.appPrivate)))).next fun p _ =>
  p.changeState .Opened

/-- `_process_PublicKey`, /repo/src/psrpcore/_server.py:392-402. -/
def serverPublicKey (p : Pool) (key : Nat) : Res Unit :=
  prepareMessage { p with keyRequested := true } (some (.msg (.encryptedSessionKey key p.sessionKey)))

/-- `_process_SessionCapability` of the server, /repo/src/psrpcore/_server.py:417-429. -/
def serverCapability (p : Pool) (c : Capability) (rpid : UUID) : Res Unit :=
  let p := p.processSessionCapability c
  if p.state = .Connecting then
    if p.rpid ≠ rpid then (p, .error .psrpCore) else (p, .ok ())
  else
    (p.prepareMessage (some (.msg (.sessionCapability p.ours)))).next fun p _ =>
    ({ p with rpid := rpid }, .ok ())

/-- Record a request of the client, /repo/src/psrpcore/_server.py:350-355, 404-409, 431-443. -/
def record (p : Pool) (ci : Int) (m : Msg) (h : Option Handler) : Res Unit :=
  ({ p with ciEvents := p.ciEvents.set ci m, ciHandlers := p.ciHandlers.set ci h }, .ok ())

/-- The `_process_*` methods of a server, /repo/src/psrpcore/_server.py:317-443; see
`processClient` for what is not modelled. -/
def processServer (p : Pool) (m : Msg) (o : Option Obj) : Res Unit :=
  match m.type, o with
  | .SessionCapability, some (.msg (.sessionCapability c)) => p.serverCapability c m.rpid
  | .InitRunspacePool, some (.msg (.initRunspacePool mn mx t a h args)) =>
    p.serverInit mn mx t a h args
  | .ConnectRunspacePool, some (.msg (.connectRunspacePool mn mx)) => p.serverConnect mn mx
  | .CreatePipeline, some (.msg (.createPipeline v)) =>
    p.serverPipelineData m.pid (.msg (.createPipeline v))
  | .GetCommandMetadata, some (.msg (.getCommandMetadata v)) =>
    p.serverPipelineData m.pid (.msg (.getCommandMetadata v))
  | .PublicKey, some (.msg (.publicKey k)) => p.serverPublicKey k
  | .GetAvailableRunspaces, some (.msg (.getAvailableRunspaces ci)) => p.record ci m none
  | .ResetRunspaceState, some (.msg (.resetRunspaceState ci)) => p.record ci m none
  | .SetMaxRunspaces, some (.msg (.setMaxRunspaces v ci)) => p.record ci m (some (.setMax v))
  | .SetMinRunspaces, some (.msg (.setMinRunspaces v ci)) => p.record ci m (some (.setMin v))
  | .SessionCapability, _ | .InitRunspacePool, _ | .ConnectRunspacePool, _ | .CreatePipeline, _
  | .GetCommandMetadata, _ | .PublicKey, _ | .GetAvailableRunspaces, _ | .ResetRunspaceState, _
  | .SetMaxRunspaces, _ | .SetMinRunspaces, _ => (p, .error .attributeError)
  | _, _ => (p, .ok ())

/-- `next_event` of a server for one received message, /repo/src/psrpcore/_base.py:345-352,
427-469. -/
def recvServer (p : Pool) (m : Msg) : Res Msg :=
  match Pool.decode m with
  | .error e => (p, .error e)
  | .ok o => (p.processServer m o).next fun p _ => (p, .ok m)

end Pool

end Verif
