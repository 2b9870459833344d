import Verif.Model.Command

/-! # What a peer of some version understands, and what statements are (specification for C31, C32, C54) -/

namespace Verif

/-- The version is 2.`n` or later. -/
def PSVersion.AtLeast2 (v : PSVersion) (n : Int) : Prop :=
  2 < v.major ∨ v.major = 2 ∧ n ≤ v.minor

instance (v : PSVersion) (n : Int) : Decidable (v.AtLeast2 n) := by
  unfold PSVersion.AtLeast2; exact inferInstance

/-- The settings of a command that a peer of version `v` knows: those of errors, warnings, verbose and
debug records since 2.2, that of information records since 2.3, the others always. The end of a
statement is no setting of the command itself. -/
def Command.knownTo {V : Type} (v : PSVersion) (c : Command V) : Command V where
  commandText := c.commandText
  isScript := c.isScript
  useLocalScope := c.useLocalScope
  parameters := c.parameters
  mergeUnclaimed := c.mergeUnclaimed
  mergeMy := c.mergeMy
  mergeTo := c.mergeTo
  mergeError := if v.AtLeast2 2 then c.mergeError else 0
  mergeWarning := if v.AtLeast2 2 then c.mergeWarning else 0
  mergeVerbose := if v.AtLeast2 2 then c.mergeVerbose else 0
  mergeDebug := if v.AtLeast2 2 then c.mergeDebug else 0
  mergeInformation := if v.AtLeast2 3 then c.mergeInformation else 0

/-- The statements of a list of commands: each ends after a command that is marked so, the last one at
the end of the list. -/
def statements {V : Type} : List (Command V) → List (List (Command V))
  | [] => []
  | c :: cs =>
    if c.endOfStatement then [c] :: statements cs
    else match statements cs with
      | [] => [[c]]
      | s :: ss => (c :: s) :: ss

/-- The command without its mark. -/
def Command.unmarked {V : Type} (c : Command V) : Command V := { c with endOfStatement := false }

/-- The streams that can be redirected. -/
inductive RedirectStream
  | error | warning | verbose | debug | information
deriving DecidableEq, Repr

/-- A call of one of the redirect methods, `none` is `redirect_all`. -/
structure RedirectCall where
  stream : Option RedirectStream
  target : ResultType
deriving DecidableEq, Repr

/-- The method that is called. -/
def RedirectCall.run {V : Type} (r : RedirectCall) (c : Command V) : Command V × Except Err Unit :=
  match r.stream with
  | none => c.redirectAll r.target
  | some .error => c.redirectError r.target
  | some .warning => c.redirectWarning r.target
  | some .verbose => c.redirectVerbose r.target
  | some .debug => c.redirectDebug r.target
  | some .information => c.redirectInformation r.target

/-- The command after a number of calls, whether or not they raise. -/
def runRedirects {V : Type} (c : Command V) (rs : List RedirectCall) : Command V :=
  rs.foldl (fun c r => (r.run c).1) c

/-- The calls a command can carry out: to no stream (0), output (1) or null (8). -/
def RedirectCall.Allowed (r : RedirectCall) : Prop := r.target = 0 ∨ r.target = 1 ∨ r.target = 8

instance (r : RedirectCall) : Decidable r.Allowed := by
  unfold RedirectCall.Allowed; exact inferInstance

/-- The target of the last allowed call for a stream, 0 when there is none. -/
def lastTarget (s : RedirectStream) (rs : List RedirectCall) : ResultType :=
  (((rs.filter fun r => decide (r.Allowed ∧ (r.stream = none ∨ r.stream = some s))).getLast?).map
    (·.target)).getD 0

/-- The setting of a stream. -/
def Command.setting {V : Type} (c : Command V) : RedirectStream → ResultType
  | .error => c.mergeError
  | .warning => c.mergeWarning
  | .verbose => c.mergeVerbose
  | .debug => c.mergeDebug
  | .information => c.mergeInformation

end Verif
