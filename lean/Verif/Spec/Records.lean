import Verif.Model.Records

/-! # What is said about records -/

namespace Verif

variable {V : Type}

/-- The enums of an invocation info hold members of their classes: `CommandOrigin` and
`SessionStateEntryVisibility` have the members 0 and 1. -/
def InvocationInfo.Valid (i : InvocationInfo V) : Prop :=
  (∀ n, i.commandOrigin = some n → n < 2) ∧
  ∀ c n, i.myCommand = some c → c.visibility = some (some n) → n < 2

/-- The category is a member of `ErrorCategory`, the invocation info holds members. -/
def ErrorRecord.Valid (r : ErrorRecord V) : Prop :=
  (∀ n, r.categoryInfo.category = some n → n < 32) ∧ ∀ i, r.invocationInfo = some i → i.Valid

/-- The invocation info of a record is sent: there is one, and the record is marked so. -/
def ErrorRecord.Sends (r : ErrorRecord V) (i : InvocationInfo V) : Prop :=
  r.serializeExtendedInfo = true ∧ r.invocationInfo = some i

/-- The invocation info of a record is sent: there is one, and the record is marked so. -/
def InformationalRecord.Sends (r : InformationalRecord V) (i : InvocationInfo V) : Prop :=
  r.serializeExtendedInfo = true ∧ r.invocationInfo = some i

/-- The origin is known, and so is the visibility of the command, unless the type of the command is
`None`. -/
def InvocationInfo.Complete (i : InvocationInfo V) : Prop :=
  i.commandOrigin ≠ none ∧
  ∀ c, i.myCommand = some c → c.commandType ≠ some none → c.visibility ≠ some none

/-- Two records tell the same error: all but what belongs to the invocation. -/
def ErrorRecord.SameError (r s : ErrorRecord V) : Prop :=
  (∃ e f, r.exception = .exception e ∧ s.exception = .exception f ∧ f.value = e.value ∧
    f.message = e.message) ∧
  s.targetObject = r.targetObject ∧
  s.fullyQualifiedErrorId = r.fullyQualifiedErrorId ∧
  s.categoryInfo.category = r.categoryInfo.category ∧
  s.categoryInfo.activity = r.categoryInfo.activity ∧
  s.categoryInfo.reason = r.categoryInfo.reason ∧
  s.categoryInfo.targetName = r.categoryInfo.targetName ∧
  s.categoryInfo.targetType = r.categoryInfo.targetType ∧
  s.errorDetails = r.errorDetails ∧
  s.scriptStackTrace = r.scriptStackTrace

/-- A text, if there is one, is not empty. -/
def NotEmpty (t : Option PyStr) : Prop := t ≠ some []

/-- There is a text, and it is not empty. -/
def HasText (t : Option PyStr) : Prop := ∃ s, t = some s ∧ s ≠ []

/-- `j` tells about the invocation what `i` tells and every reader relies on. -/
def InvocationInfo.SameCall (i j : InvocationInfo V) : Prop :=
  j.commandOrigin = i.commandOrigin ∧
  j.expectingInput = i.expectingInput ∧
  j.historyId = i.historyId ∧
  j.invocationName = i.invocationName ∧
  j.offsetInLine = i.offsetInLine ∧
  j.pipelineLength = i.pipelineLength ∧
  j.pipelinePosition = i.pipelinePosition ∧
  j.scriptLineNumber = i.scriptLineNumber ∧
  j.scriptName = i.scriptName ∧
  j.line = some (i.line.getD []) ∧
  j.boundParameters = some (i.boundParameters.getD []) ∧
  j.unboundArguments = some (i.unboundArguments.getD [])

/-- Two extents with the same file, lines and columns; the texts of the lines are not compared. -/
def ScriptExtent.SamePlace (a b : ScriptExtent) : Prop :=
  b.start.file = a.start.file ∧ b.start.line = a.start.line ∧ b.start.column = a.start.column ∧
  b.stop.line = a.stop.line ∧ b.stop.column = a.stop.column

/-- An invocation info that nothing is taken from and nothing added to on the way. -/
def InvocationInfo.Settled (i : InvocationInfo V) : Prop :=
  i.positionMessage = none ∧ i.psCommandPath = some [] ∧ i.psScriptRoot = some [] ∧
  i.line ≠ none ∧ i.boundParameters ≠ none ∧ i.unboundArguments ≠ none ∧
  (∃ e, i.displayScriptPosition = some e ∧ e.stop.file = e.start.file ∧
    e.start.text = some [] ∧ e.stop.text = some []) ∧
  ∀ c, i.myCommand = some c →
    (∃ t, c.commandType = some (some t)) ∧ c.name ≠ none ∧ c.definition ≠ none ∧
    ∃ v, c.visibility = some (some v)

/-- The command at the other end is the same one. -/
def CommandInfo.SameCommand (c d : CommandInfo) : Prop :=
  d.commandType = some (c.commandType.getD (some 32)) ∧
  d.name = some (c.name.getD (some [])) ∧
  d.definition = some (c.definition.getD (some [])) ∧
  d.visibility = some (c.visibility.getD (some 0))

/-- What `j` keeps of `i`: the call, the place of the extent if there is one, the command if its type is
not `None`. -/
def InvocationInfo.Keeps (i j : InvocationInfo V) : Prop :=
  i.SameCall j ∧
  (∀ e, i.displayScriptPosition = some e → ∃ e', j.displayScriptPosition = some e' ∧ e.SamePlace e') ∧
  (∀ c, i.myCommand = some c → c.commandType ≠ some none → ∃ d, j.myCommand = some d ∧ c.SameCommand d) ∧
  (i.myCommand = none → j.myCommand = none)

/-- Some text can be shown for the record: the message of its details or that of its exception. -/
def ErrorRecord.Showable (r : ErrorRecord V) : Prop :=
  (∃ d, r.errorDetails = some d ∧ HasText d.message) ∨
  ∃ e m, r.exception = .exception e ∧ e.message = some (some m)

/-- The text of an extent can be told: the last column is known, and what else is needed to cut the
text out of the lines. -/
def ScriptExtent.Measurable (e : ScriptExtent) : Prop :=
  ∃ stop, e.stop.column = some stop ∧ (1 ≤ stop → e.start.text ≠ none ∧
    (e.start.line = e.stop.line → e.start.column ≠ none) ∧
    (e.start.line ≠ e.stop.line → e.stop.text ≠ none))

/-- The details, if any, hold a text, and the stack trace, if any, is not empty. -/
def ErrorRecord.NoEmptyTexts (r : ErrorRecord V) : Prop :=
  (∀ d, r.errorDetails = some d → HasText d.message ∨ HasText d.action) ∧ NotEmpty r.scriptStackTrace

/-! ## What a peer is sent -/

/-- An object holds an invocation info: under each name the protocol has for it the value that goes
with it, whatever the receiver makes of it. -/
structure HoldsInfo (o : Notes V) (i : InvocationInfo V) : Prop where
  bound : o.lookup (txt! "InvocationInfo_BoundParameters") = some (.ofDict i.boundParameters)
  origin : o.lookup (txt! "InvocationInfo_CommandOrigin") = some (.ofEnum i.commandOrigin)
  expecting : o.lookup (txt! "InvocationInfo_ExpectingInput") = some (.ofBool i.expectingInput)
  name : o.lookup (txt! "InvocationInfo_InvocationName") = some (.ofStr i.invocationName)
  line : o.lookup (txt! "InvocationInfo_Line") = some (.ofStr i.line)
  offset : o.lookup (txt! "InvocationInfo_OffsetInLine") = some (.ofInt i.offsetInLine)
  history : o.lookup (txt! "InvocationInfo_HistoryId") = some (.ofInt i.historyId)
  length : o.lookup (txt! "InvocationInfo_PipelineLength") = some (.ofInt i.pipelineLength)
  place : o.lookup (txt! "InvocationInfo_PipelinePosition") = some (.ofInt i.pipelinePosition)
  root : o.lookup (txt! "InvocationInfo_PSScriptRoot") = some (.ofStr i.psScriptRoot)
  path : o.lookup (txt! "InvocationInfo_PSCommandPath") = some (.ofStr i.psCommandPath)
  message : o.lookup (txt! "InvocationInfo_PositionMessage") = some (.ofStr i.positionMessage)
  lineNumber : o.lookup (txt! "InvocationInfo_ScriptLineNumber") = some (.ofInt i.scriptLineNumber)
  script : o.lookup (txt! "InvocationInfo_ScriptName") = some (.ofStr i.scriptName)
  unbound : o.lookup (txt! "InvocationInfo_UnboundArguments") = some (.ofList i.unboundArguments)
  flag : o.lookup (txt! "SerializeExtent") = some (.bool i.displayScriptPosition.isSome)
  extent : ∀ e, i.displayScriptPosition = some e →
    o.lookup (txt! "ScriptExtent_File") = some (.ofStr e.start.file) ∧
    o.lookup (txt! "ScriptExtent_StartLineNumber") = some (.ofInt e.start.line) ∧
    o.lookup (txt! "ScriptExtent_StartColumnNumber") = some (.ofInt e.start.column) ∧
    o.lookup (txt! "ScriptExtent_EndLineNumber") = some (.ofInt e.stop.line) ∧
    o.lookup (txt! "ScriptExtent_EndColumnNumber") = some (.ofInt e.stop.column)

end Verif
