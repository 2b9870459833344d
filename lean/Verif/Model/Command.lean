import Verif.Model.Version

/-!
# Commands and pipelines in their remoting form

Models /repo/src/psrpcore/_command.py and /repo/src/psrpcore/_pipeline.py. The values of parameters are
of an arbitrary type `V`, the host information of an arbitrary type `H` (its own remoting form is the
subject of C46). `None` of optional Python values is `none`.
-/

namespace Verif

/-- `PipelineResultTypes` as its number, /repo/src/psrpcore/types/_complex.py:390-415: a flag class, so
any number may occur. -/
abbrev ResultType := Nat

namespace ResultType
/-- /repo/src/psrpcore/types/_complex.py:407 -/
def none : ResultType := 0
/-- /repo/src/psrpcore/types/_complex.py:408 -/
def output : ResultType := 1
/-- /repo/src/psrpcore/types/_complex.py:409 -/
def error : ResultType := 2
/-- /repo/src/psrpcore/types/_complex.py:415 -/
def null : ResultType := 8
end ResultType

/-- The attributes of a `Command`, /repo/src/psrpcore/_command.py:33-52. -/
structure Command (V : Type) where
  commandText : PyStr
  isScript : Bool := false
  useLocalScope : Option Bool := Option.none
  parameters : List (Option PyStr × V) := []
  endOfStatement : Bool := false
  mergeUnclaimed : Bool := false
  mergeMy : ResultType := ResultType.none
  mergeTo : ResultType := ResultType.none
  mergeError : ResultType := ResultType.none
  mergeWarning : ResultType := ResultType.none
  mergeVerbose : ResultType := ResultType.none
  mergeDebug : ResultType := ResultType.none
  mergeInformation : ResultType := ResultType.none
deriving DecidableEq, Repr

namespace Command

variable {V : Type}

/-- `add_parameter`, and `add_argument` with no name, /repo/src/psrpcore/_command.py:98-112. -/
def addParameter (c : Command V) (name : Option PyStr) (value : V) : Command V :=
  { c with parameters := c.parameters ++ [(name, value)] }

/-- `_validate_redirection_to`, /repo/src/psrpcore/_command.py:190-195. -/
def validTarget (s : ResultType) : Bool :=
  s == ResultType.none || s == ResultType.output || s == ResultType.null

/-- `redirect_error`, /repo/src/psrpcore/_command.py:142-156. -/
def redirectError (c : Command V) (s : ResultType) : Command V × Except Err Unit :=
  if validTarget s then
    let c :=
      if s = ResultType.none then { c with mergeMy := ResultType.none, mergeTo := ResultType.none }
      else if s ≠ ResultType.null then { c with mergeMy := ResultType.error, mergeTo := s }
      else c
    ({ c with mergeError := s }, .ok ())
  else (c, .error .valueError)

/-- `redirect_warning`, /repo/src/psrpcore/_command.py:158-164. -/
def redirectWarning (c : Command V) (s : ResultType) : Command V × Except Err Unit :=
  if validTarget s then ({ c with mergeWarning := s }, .ok ()) else (c, .error .valueError)

/-- `redirect_verbose`, /repo/src/psrpcore/_command.py:166-172. -/
def redirectVerbose (c : Command V) (s : ResultType) : Command V × Except Err Unit :=
  if validTarget s then ({ c with mergeVerbose := s }, .ok ()) else (c, .error .valueError)

/-- `redirect_debug`, /repo/src/psrpcore/_command.py:174-180. -/
def redirectDebug (c : Command V) (s : ResultType) : Command V × Except Err Unit :=
  if validTarget s then ({ c with mergeDebug := s }, .ok ()) else (c, .error .valueError)

/-- `redirect_information`, /repo/src/psrpcore/_command.py:182-188. -/
def redirectInformation (c : Command V) (s : ResultType) : Command V × Except Err Unit :=
  if validTarget s then ({ c with mergeInformation := s }, .ok ()) else (c, .error .valueError)

/-- One call after another, an exception ends the sequence (/repo/src/psrpcore/_command.py:136-140). -/
def andThen (r : Command V × Except Err Unit) (f : Command V → Command V × Except Err Unit) :
    Command V × Except Err Unit :=
  match r with
  | (c, .ok ()) => f c
  | (c, .error e) => (c, .error e)

/-- `redirect_all`, /repo/src/psrpcore/_command.py:124-140. -/
def redirectAll (c : Command V) (s : ResultType) : Command V × Except Err Unit :=
  andThen (andThen (andThen (andThen (c.redirectError s) (·.redirectWarning s))
    (·.redirectVerbose s)) (·.redirectDebug s)) (·.redirectInformation s)

end Command

/-- The object `Command.ToPSObjectForRemoting` makes and `FromPSObjectForRemoting` reads,
/repo/src/psrpcore/_command.py:244-264: the last five properties may be missing. -/
structure RemoteCommand (V : Type) where
  cmd : PyStr
  args : List (Option PyStr × V)
  isScript : Bool
  useLocalScope : Option Bool
  mergeMyResult : ResultType
  mergeToResult : ResultType
  mergePreviousResults : ResultType
  mergeError : Option ResultType := Option.none
  mergeWarning : Option ResultType := Option.none
  mergeVerbose : Option ResultType := Option.none
  mergeDebug : Option ResultType := Option.none
  mergeInformation : Option ResultType := Option.none
deriving DecidableEq, Repr

namespace Command

variable {V : Type}

/-- `PipelineResultTypes.Output | PipelineResultTypes.Error`, /repo/src/psrpcore/_command.py:211, 239. -/
def mergePrevious : ResultType := ResultType.output ||| ResultType.error

/-- `ToPSObjectForRemoting` for a peer of the given protocol version, `none` when the peer has not told
its version yet, /repo/src/psrpcore/_command.py:225-264. -/
def toRemoting (c : Command V) (peer : Option PSVersion) : RemoteCommand V :=
  let v := peer.getD Win7RC
  let base : RemoteCommand V := {
    cmd := c.commandText
    args := c.parameters
    isScript := c.isScript
    useLocalScope := c.useLocalScope
    mergeMyResult := c.mergeMy
    mergeToResult := c.mergeTo
    mergePreviousResults := if c.mergeUnclaimed then mergePrevious else ResultType.none }
  let r3 : RemoteCommand V :=
    if v.ge Pwsh3 then
      { base with mergeError := some c.mergeError, mergeWarning := some c.mergeWarning,
                  mergeVerbose := some c.mergeVerbose, mergeDebug := some c.mergeDebug }
    else base
  if v.ge Pwsh5 then { r3 with mergeInformation := some c.mergeInformation } else r3

/-- `FromPSObjectForRemoting`, /repo/src/psrpcore/_command.py:197-223. -/
def fromRemoting (o : RemoteCommand V) : Command V where
  commandText := o.cmd
  isScript := o.isScript
  useLocalScope := o.useLocalScope
  parameters := o.args
  endOfStatement := false
  mergeUnclaimed := o.mergePreviousResults == mergePrevious
  mergeMy := o.mergeMyResult
  mergeTo := o.mergeToResult
  mergeError := o.mergeError.getD ResultType.none
  mergeWarning := o.mergeWarning.getD ResultType.none
  mergeVerbose := o.mergeVerbose.getD ResultType.none
  mergeDebug := o.mergeDebug.getD ResultType.none
  mergeInformation := o.mergeInformation.getD ResultType.none

end Command

/-- The attributes of a `PowerShell` pipeline, /repo/src/psrpcore/_pipeline.py:41-60. -/
structure PowerShell (V H : Type) where
  addToHistory : Bool := false
  apartmentState : Option Nat := none
  commands : List (Command V) := []
  history : Option PyStr := none
  host : H
  isNested : Bool := false
  noInput : Bool := true
  remoteStreamOptions : Nat := 0
  redirectShellErrorToOut : Bool := true

/-- The `CreatePipeline` message with its `PowerShell` object, /repo/src/psrpcore/_pipeline.py:122-142,
/repo/src/psrpcore/types/_psrp.py:332-343. The statements of `ExtraCmds` are lists of commands. -/
structure CreatePipeline (V H : Type) where
  noInput : Bool
  apartmentState : Option Nat
  remoteStreamOptions : Nat
  addToHistory : Bool
  hostInfo : H
  isNested : Bool
  cmds : List (RemoteCommand V)
  powerShellIsNested : Bool
  history : Option PyStr
  redirectShellErrorOutputPipe : Bool
  extraCmds : Option (List (List (RemoteCommand V)))

namespace PowerShell

variable {V H : Type}

/-- The loop of `ToPSObjectForRemoting`, /repo/src/psrpcore/_pipeline.py:113-117, with the open last
statement apart from those before it. -/
def groupLoop (done : List (List (Command V))) (cur : List (Command V)) :
    List (Command V) → List (List (Command V))
  | [] => done ++ [cur]
  | c :: cs =>
    if c.endOfStatement then groupLoop (done ++ [cur ++ [c]]) [] cs
    else groupLoop done (cur ++ [c]) cs

/-- `ToPSObjectForRemoting`, /repo/src/psrpcore/_pipeline.py:104-142, with the commands in their own
remoting form, as the serializer makes it (/repo/src/psrpcore/types/_serializer.py:716-728). -/
def toRemoting (p : PowerShell V H) (peer : Option PSVersion) : Except Err (CreatePipeline V H) :=
  if p.commands = [] then .error .valueError
  else
    let extra := (groupLoop [] [] p.commands).map (·.map (·.toRemoting peer))
    .ok {
      noInput := p.noInput
      apartmentState := p.apartmentState
      remoteStreamOptions := p.remoteStreamOptions
      addToHistory := p.addToHistory
      hostInfo := p.host
      isNested := p.isNested
      cmds := extra.headD []
      powerShellIsNested := p.isNested
      history := p.history
      redirectShellErrorOutputPipe := p.redirectShellErrorToOut
      extraCmds := if extra.length > 1 then some extra else none }

/-- `pipeline.commands[-1].end_of_statement = True`, /repo/src/psrpcore/_pipeline.py:100. -/
def markLast : List (Command V) → Except Err (List (Command V))
  | [] => .error .indexError
  | [c] => .ok [{ c with endOfStatement := true }]
  | c :: d :: cs =>
    match markLast (d :: cs) with
    | .ok r => .ok (c :: r)
    | .error e => .error e

/-- The loop of `FromPSObjectForRemoting`, /repo/src/psrpcore/_pipeline.py:95-100. -/
def readLoop (acc : List (Command V)) : List (List (RemoteCommand V)) → Except Err (List (Command V))
  | [] => .ok acc
  | s :: ss =>
    match markLast (acc ++ s.map Command.fromRemoting) with
    | .ok acc => readLoop acc ss
    | .error e => .error e

/-- `FromPSObjectForRemoting`, /repo/src/psrpcore/_pipeline.py:70-102. -/
def fromRemoting (m : CreatePipeline V H) : Except Err (PowerShell V H) :=
  match readLoop [] (m.extraCmds.getD [m.cmds]) with
  | .error e => .error e
  | .ok cs => .ok {
      addToHistory := m.addToHistory
      apartmentState := m.apartmentState
      commands := cs
      history := m.history
      host := m.hostInfo
      isNested := m.isNested
      noInput := m.noInput
      remoteStreamOptions := m.remoteStreamOptions
      redirectShellErrorToOut := m.redirectShellErrorOutputPipe }

end PowerShell

end Verif
