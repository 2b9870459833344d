import Verif.Model.Enum

/-!
# Error and informational records in their remoting form

Models `ToPSObjectForRemoting` and `FromPSObjectForRemoting` of `ErrorRecord` and `InformationalRecord`
with the helpers for invocation details, /repo/src/psrpcore/types/_complex.py:418-974. The texts, numbers
and enums of records are modelled, other values (exceptions, targets, parameters) are of an arbitrary
type `V`. `None` is `none`. What the serializer does to the properties in between is the matter of C41:
here the reader gets the properties the writer has made, by name. The functions of `posixpath` and
`ntpath` are not modelled (`root`).
-/

namespace Verif

/-! ## Script positions -/

/-- `ScriptPosition`, /repo/src/psrpcore/types/_complex.py:418-449. -/
structure ScriptPosition where
  file : Option PyStr := none
  line : Option Int := none
  column : Option Int := none
  text : Option PyStr := none
deriving DecidableEq, Repr

/-- `ScriptExtent`, /repo/src/psrpcore/types/_complex.py:451-487: all its properties come from the two
positions, the file from the first. -/
structure ScriptExtent where
  start : ScriptPosition
  stop : ScriptPosition
deriving DecidableEq, Repr

/-- `s[i:]` of a text, /repo/src/psrpcore/types/_complex.py:498-499: a negative place counts from the
end, `None` is the beginning. -/
def tailFrom (s : PyStr) : Option Int → PyStr
  | none => s
  | some (.ofNat n) => s.drop n
  | some (.negSucc n) => s.drop (s.length - (n + 1))

/-- `ScriptExtent.Text`, /repo/src/psrpcore/types/_complex.py:489-502: `TypeError` when `None` is
compared, subtracted from or sliced. -/
def ScriptExtent.text (e : ScriptExtent) : Except Err PyStr :=
  match e.stop.column with
  | none => .error .typeError
  | some stop =>
    if stop < 1 then .ok []
    else if e.start.line = e.stop.line then
      match e.start.text, e.start.column with
      | some line, some column => .ok (slice line (max (column - 1) 0).toNat stop.toNat)
      | _, _ => .error .typeError
    else
      match e.start.text, e.stop.text with
      | some first, some last =>
        .ok (tailFrom first e.start.column ++ txt! "..." ++ tailFrom last (some stop))
      | _, _ => .error .typeError

/-! ## The records -/

/-- What `getattr` finds on the object in `MyCommand`, /repo/src/psrpcore/types/_complex.py:683-691: the
first option tells whether there is such an attribute, the second whether it is `None`. Numbers are
members of `CommandTypes` and `SessionStateEntryVisibility`. -/
structure CommandInfo where
  commandType : Option (Option Nat) := none
  name : Option (Option PyStr) := none
  definition : Option (Option PyStr) := none
  visibility : Option (Option Nat) := none
deriving DecidableEq, Repr

/-- `InvocationInfo`, /repo/src/psrpcore/types/_complex.py:533-592. `commandOrigin` is a member of
`CommandOrigin`. -/
structure InvocationInfo (V : Type) where
  boundParameters : Option (List (V × V)) := none
  commandOrigin : Option Nat := none
  displayScriptPosition : Option ScriptExtent := none
  expectingInput : Option Bool := none
  historyId : Option Int := none
  invocationName : Option PyStr := none
  line : Option PyStr := none
  myCommand : Option CommandInfo := none
  offsetInLine : Option Int := none
  pipelineLength : Option Int := none
  pipelinePosition : Option Int := none
  positionMessage : Option PyStr := none
  psCommandPath : Option PyStr := none
  psScriptRoot : Option PyStr := none
  scriptLineNumber : Option Int := none
  scriptName : Option PyStr := none
  unboundArguments : Option (List V) := none
deriving DecidableEq, Repr

/-- `ErrorCategoryInfo`, /repo/src/psrpcore/types/_complex.py:694-726. `toString` is the string form of
the object (line 826), which `__str__` does not use. -/
structure ErrorCategoryInfo where
  category : Option Nat := some 0
  activity : Option PyStr := none
  reason : Option PyStr := none
  targetName : Option PyStr := none
  targetType : Option PyStr := none
  toString : Option PyStr := none
deriving DecidableEq, Repr

/-- `ErrorDetails`, /repo/src/psrpcore/types/_complex.py:729-753. -/
structure ErrorDetails where
  message : Option PyStr := none
  action : Option PyStr := none
deriving DecidableEq, Repr

/-- The exception of a record: a value, what `.Message` finds on it
(/repo/src/psrpcore/types/_complex.py:811) and its property `SerializedRemoteInvocationInfo`, `none` if
it has none (line 840). -/
structure RecordException (V : Type) where
  value : V
  message : Option (Option PyStr) := none
  remoteInfo : Option (Option (InvocationInfo V)) := none
deriving DecidableEq, Repr

/-- What is in the property `Exception`, /repo/src/psrpcore/types/_complex.py:761: `None` and bools have
no `PSObject`. -/
inductive ExceptionSlot (V : Type)
  | none
  | bool (b : Bool)
  | exception (e : RecordException V)
deriving DecidableEq, Repr

/-- `ErrorRecord`, /repo/src/psrpcore/types/_complex.py:756-804. A record with `None` for `CategoryInfo`
is not modelled. -/
structure ErrorRecord (V : Type) where
  exception : ExceptionSlot V
  categoryInfo : ErrorCategoryInfo
  targetObject : Option V := none
  fullyQualifiedErrorId : Option PyStr := none
  invocationInfo : Option (InvocationInfo V) := none
  errorDetails : Option ErrorDetails := none
  pipelineIterationInfo : Option (List V) := none
  scriptStackTrace : Option PyStr := none
  serializeExtendedInfo : Bool := false
deriving DecidableEq, Repr

/-- `InformationalRecord` and its subclasses, /repo/src/psrpcore/types/_complex.py:897-934, 977-1004. -/
structure InformationalRecord (V : Type) where
  message : Option PyStr := none
  invocationInfo : Option (InvocationInfo V) := none
  pipelineIterationInfo : Option (List V) := none
  serializeExtendedInfo : Bool := false
deriving DecidableEq, Repr

/-! ## Properties by name -/

/-- The value of a property between the two ends, /repo/src/psrpcore/types/_base.py:422-456. -/
inductive NoteVal (V : Type)
  | nil
  | bool (b : Bool)
  | int (v : Int)
  | enum (v : Nat)
  | str (s : PyStr)
  | list (l : List V)
  | dict (d : List (V × V))
  | value (v : V)
  | exception (e : RecordException V)
  | info (i : InvocationInfo V)
deriving DecidableEq, Repr

/-- The note properties of an object, /repo/src/psrpcore/types/_base.py:904-924. -/
abbrev Notes (V : Type) := List (PyStr × NoteVal V)

namespace NoteVal

variable {V : Type}

/-- A text or `None` as a value, /repo/src/psrpcore/types/_complex.py:870. -/
def ofStr : Option PyStr → NoteVal V
  | none => nil
  | some s => str s

/-- A number or `None` as a value, /repo/src/psrpcore/types/_complex.py:664. -/
def ofInt : Option Int → NoteVal V
  | none => nil
  | some v => int v

/-- An enum member or `None` as a value, /repo/src/psrpcore/types/_complex.py:660. -/
def ofEnum : Option Nat → NoteVal V
  | none => nil
  | some v => enum v

/-- A bool or `None` as a value, /repo/src/psrpcore/types/_complex.py:661. -/
def ofBool : Option Bool → NoteVal V
  | none => nil
  | some b => bool b

/-- A list or `None` as a value, /repo/src/psrpcore/types/_complex.py:674. -/
def ofList : Option (List V) → NoteVal V
  | none => nil
  | some l => list l

/-- A dict or `None` as a value, /repo/src/psrpcore/types/_complex.py:659. -/
def ofDict : Option (List (V × V)) → NoteVal V
  | none => nil
  | some d => dict d

/-- Any object or `None` as a value, /repo/src/psrpcore/types/_complex.py:869. -/
def ofValue : Option V → NoteVal V
  | none => nil
  | some v => value v

/-- The invocation info or `None` as a value, /repo/src/psrpcore/types/_complex.py:871. -/
def ofInfo : Option (InvocationInfo V) → NoteVal V
  | none => nil
  | some i => info i

/-- The exception as a value, /repo/src/psrpcore/types/_complex.py:868. -/
def ofException : ExceptionSlot V → NoteVal V
  | .none => nil
  | .bool b => bool b
  | .exception e => exception e

/-- A property of type `PSString` gets the value, /repo/src/psrpcore/types/_base.py:369-375. Values of
other classes, which would be converted, are refused here; so in the functions below. -/
def toStr : NoteVal V → Except Err (Option PyStr)
  | nil => .ok none
  | str s => .ok (some s)
  | _ => .error .typeError

/-- A property of type `PSInt` or `PSInt64` gets the value, /repo/src/psrpcore/types/_base.py:369-375. -/
def toInt : NoteVal V → Except Err (Option Int)
  | nil => .ok none
  | int v => .ok (some v)
  | _ => .error .typeError

/-- A property of type `PSBool` gets the value, /repo/src/psrpcore/types/_base.py:369-375. -/
def toBool : NoteVal V → Except Err (Option Bool)
  | nil => .ok none
  | bool b => .ok (some b)
  | _ => .error .typeError

/-- A property of type `PSList` gets the value, /repo/src/psrpcore/types/_base.py:369-375. -/
def toList : NoteVal V → Except Err (Option (List V))
  | nil => .ok none
  | list l => .ok (some l)
  | _ => .error .typeError

/-- A property of type `PSDict` gets the value, /repo/src/psrpcore/types/_base.py:369-375. -/
def toDict : NoteVal V → Except Err (Option (List (V × V)))
  | nil => .ok none
  | dict d => .ok (some d)
  | _ => .error .typeError

/-- A property without type gets the value, /repo/src/psrpcore/types/_complex.py:763, 850. -/
def toValue : NoteVal V → Except Err (Option V)
  | nil => .ok none
  | value v => .ok (some v)
  | _ => .error .typeError

/-- The value of `obj.InvocationInfo`, /repo/src/psrpcore/types/_complex.py:840. -/
def toInfo : NoteVal V → Except Err (Option (InvocationInfo V))
  | nil => .ok none
  | info i => .ok (some i)
  | _ => .error .typeError

/-- Truth of a value, /repo/src/psrpcore/types/_complex.py:603, 844: `None`, `False`, 0 and empty texts
and containers are false. -/
def truth : NoteVal V → Bool
  | nil => false
  | bool b => b
  | int v => v != 0
  | enum v => v != 0
  | str s => s != []
  | list l => !l.isEmpty
  | dict d => !d.isEmpty
  | _ => true

/-- `value is None`, /repo/src/psrpcore/types/_complex.py:626. -/
def isNone : NoteVal V → Bool
  | nil => true
  | _ => false

/-- `Enum(value)` of an enum with the members below `n`, /repo/src/psrpcore/types/_complex.py:631, 636, 820: a
member, or the number of one; `ValueError` for `None` and other numbers. -/
def toMember (n : Nat) : NoteVal V → Except Err Nat
  | enum v => if v < n then .ok v else .error .valueError
  | int v => if 0 ≤ v ∧ v < n then .ok v.toNat else .error .valueError
  | _ => .error .valueError

/-- `CommandTypes(value)`, /repo/src/psrpcore/types/_complex.py:628: a member stays as it is. Numbers
are not modelled. -/
def toFlag : NoteVal V → Except Err Nat
  | enum v => .ok v
  | _ => .error .valueError

end NoteVal

namespace Notes

variable {V : Type}

/-- `obj.name` of a property the class does not know, /repo/src/psrpcore/types/_base.py:663-692. -/
def get (o : Notes V) (name : PyStr) : Except Err (NoteVal V) :=
  match o.lookup name with
  | some v => .ok v
  | none => .error .attributeError

/-- `getattr(obj, name, None)`, and `obj.name` of a property that the class of the object knows but has
not set: the reader gets an instance made without `__init__`
(/repo/src/psrpcore/types/_base.py:69-77). -/
def getD (o : Notes V) (name : PyStr) : NoteVal V := (o.lookup name).getD .nil

end Notes

/-! ## Invocation details -/

variable {V : Type}

/-- `_script_extent_to_ps_object`, /repo/src/psrpcore/types/_complex.py:521-530. -/
def extentNotes (e : ScriptExtent) : Notes V :=
  [(txt! "ScriptExtent_File", .ofStr e.start.file),
   (txt! "ScriptExtent_StartLineNumber", .ofInt e.start.line),
   (txt! "ScriptExtent_StartColumnNumber", .ofInt e.start.column),
   (txt! "ScriptExtent_EndLineNumber", .ofInt e.stop.line),
   (txt! "ScriptExtent_EndColumnNumber", .ofInt e.stop.column)]

/-- The properties of `MyCommand`, /repo/src/psrpcore/types/_complex.py:683-691: 32 is
`CommandTypes.Application`, 0 is `SessionStateEntryVisibility.Public`. -/
def commandNotes (c : CommandInfo) : Notes V :=
  [(txt! "CommandInfo_CommandType", .ofEnum (c.commandType.getD (some 32))),
   (txt! "CommandInfo_Definition", .ofStr (c.definition.getD (some []))),
   (txt! "CommandInfo_Name", .ofStr (c.name.getD (some []))),
   (txt! "CommandInfo_Visibility", .ofEnum (c.visibility.getD (some 0)))]

/-- `_invocation_info_to_ps_object`, /repo/src/psrpcore/types/_complex.py:654-691. An extent and an
object in `MyCommand` are true, unless it is an empty container, which is not modelled. -/
def infoNotes (i : InvocationInfo V) : Notes V :=
  [(txt! "InvocationInfo_BoundParameters", .ofDict i.boundParameters),
   (txt! "InvocationInfo_CommandOrigin", .ofEnum i.commandOrigin),
   (txt! "InvocationInfo_ExpectingInput", .ofBool i.expectingInput),
   (txt! "InvocationInfo_InvocationName", .ofStr i.invocationName),
   (txt! "InvocationInfo_Line", .ofStr i.line),
   (txt! "InvocationInfo_OffsetInLine", .ofInt i.offsetInLine),
   (txt! "InvocationInfo_HistoryId", .ofInt i.historyId),
   (txt! "InvocationInfo_PipelineIterationInfo", .list []),
   (txt! "InvocationInfo_PipelineLength", .ofInt i.pipelineLength),
   (txt! "InvocationInfo_PipelinePosition", .ofInt i.pipelinePosition),
   (txt! "InvocationInfo_PSScriptRoot", .ofStr i.psScriptRoot),
   (txt! "InvocationInfo_PSCommandPath", .ofStr i.psCommandPath),
   (txt! "InvocationInfo_PositionMessage", .ofStr i.positionMessage),
   (txt! "InvocationInfo_ScriptLineNumber", .ofInt i.scriptLineNumber),
   (txt! "InvocationInfo_ScriptName", .ofStr i.scriptName),
   (txt! "InvocationInfo_UnboundArguments", .ofList i.unboundArguments)] ++
  (match i.displayScriptPosition with
   | some e => extentNotes e ++ [(txt! "SerializeExtent", .bool true)]
   | none => [(txt! "SerializeExtent", .bool false)]) ++
  (match i.myCommand with
   | some c => commandNotes c
   | none => [])

/-- `_script_extent_from_ps_object`, /repo/src/psrpcore/types/_complex.py:505-518. -/
def readExtent (o : Notes V) : Except Err ScriptExtent := do
  let file ← (← o.get (txt! "ScriptExtent_File")).toStr
  let startLine ← (← o.get (txt! "ScriptExtent_StartLineNumber")).toInt
  let endLine ← (← o.get (txt! "ScriptExtent_EndLineNumber")).toInt
  let startColumn ← (← o.get (txt! "ScriptExtent_StartColumnNumber")).toInt
  let endColumn ← (← o.get (txt! "ScriptExtent_EndColumnNumber")).toInt
  return ⟨⟨file, startLine, startColumn, some []⟩, ⟨file, endLine, endColumn, some []⟩⟩

/-- The extent made of the script name and the line,
/repo/src/psrpcore/types/_complex.py:607-616. -/
def lineExtent (scriptName : PyStr) (lineNumber offset : Option Int) (line : PyStr) : ScriptExtent :=
  ⟨⟨some scriptName, lineNumber, offset, some line⟩,
   if line = [] then ⟨some scriptName, lineNumber, offset, some line⟩
   else ⟨some scriptName, lineNumber, some (line.length + 1), some line⟩⟩

/-- The display position, the path and the root, /repo/src/psrpcore/types/_complex.py:599-622. `root` is
what `posixpath.dirname` or `ntpath.dirname` make of the path. -/
def readPosition (root : PyStr → PyStr) (o : Notes V) (line : PyStr) :
    Except Err (ScriptExtent × PyStr × PyStr) := do
  if (← o.get (txt! "SerializeExtent")).truth then
    return (← readExtent o, [], [])
  else
    let scriptName := (← (← o.get (txt! "InvocationInfo_ScriptName")).toStr).getD []
    let lineNumber ← (← o.get (txt! "InvocationInfo_ScriptLineNumber")).toInt
    let offset ← (← o.get (txt! "InvocationInfo_OffsetInLine")).toInt
    return (lineExtent scriptName lineNumber offset line, scriptName, root scriptName)

/-- The command, /repo/src/psrpcore/types/_complex.py:624-632: a named tuple, which has all four
attributes. -/
def readCommand (o : Notes V) : Except Err (Option CommandInfo) := do
  let commandType := o.getD (txt! "CommandInfo_CommandType")
  if commandType.isNone then
    return none
  else
    let t ← commandType.toFlag
    let name ← (← o.get (txt! "CommandInfo_Name")).toStr
    let definition ← (← o.get (txt! "CommandInfo_Definition")).toStr
    let visibility ← (← o.get (txt! "CommandInfo_Visibility")).toMember 2
    return some ⟨some (some t), some name, some definition, some (some visibility)⟩

/-- `_invocation_info_from_ps_object`, /repo/src/psrpcore/types/_complex.py:595-651. `PositionMessage` is
not given to the new object. -/
def readInfo (root : PyStr → PyStr) (o : Notes V) : Except Err (InvocationInfo V) := do
  let line := (← (o.getD (txt! "InvocationInfo_Line")).toStr).getD []
  let (position, path, scriptRoot) ← readPosition root o line
  let myCommand ← readCommand o
  let bound := (← (o.getD (txt! "InvocationInfo_BoundParameters")).toDict).getD []
  let origin ← (← o.get (txt! "InvocationInfo_CommandOrigin")).toMember 2
  let expecting ← (← o.get (txt! "InvocationInfo_ExpectingInput")).toBool
  let history ← (← o.get (txt! "InvocationInfo_HistoryId")).toInt
  let name ← (← o.get (txt! "InvocationInfo_InvocationName")).toStr
  let offset ← (← o.get (txt! "InvocationInfo_OffsetInLine")).toInt
  let length ← (← o.get (txt! "InvocationInfo_PipelineLength")).toInt
  let place ← (← o.get (txt! "InvocationInfo_PipelinePosition")).toInt
  let lineNumber ← (← o.get (txt! "InvocationInfo_ScriptLineNumber")).toInt
  let scriptName ← (← o.get (txt! "InvocationInfo_ScriptName")).toStr
  let unbound := (← (o.getD (txt! "InvocationInfo_UnboundArguments")).toList).getD []
  return {
    boundParameters := some bound
    commandOrigin := some origin
    displayScriptPosition := some position
    expectingInput := expecting
    historyId := history
    invocationName := name
    line := some line
    myCommand := myCommand
    offsetInLine := offset
    pipelineLength := length
    pipelinePosition := place
    psCommandPath := some path
    psScriptRoot := some scriptRoot
    scriptLineNumber := lineNumber
    scriptName := scriptName
    unboundArguments := some unbound }

/-! ## Error records -/

/-- The members of `ErrorCategory`, /repo/src/psrpcore/types/_complex.py:313-344. -/
def errorCategories : List PyStr :=
  [txt! "NotSpecified", txt! "OpenError", txt! "CloseError", txt! "DeviceError", txt! "DeadlockDetected",
   txt! "InvalidArgument", txt! "InvalidData", txt! "InvalidOperation", txt! "InvalidResult",
   txt! "InvalidType", txt! "MetadataError", txt! "NotImplemented", txt! "NotInstalled",
   txt! "ObjectNotFound", txt! "OperationStopped", txt! "OperationTimeout", txt! "SyntaxError",
   txt! "ParserError", txt! "PermissionDenied", txt! "ResourceBusy", txt! "ResourceExists",
   txt! "ResourceUnavailable", txt! "ReadError", txt! "WriteError", txt! "FromStdErr",
   txt! "SecurityError", txt! "ProtocolError", txt! "ConnectionError", txt! "AuthenticationError",
   txt! "LimitsExceeded", txt! "QuotaExceeded", txt! "NotEnabled"]

/-- `ErrorCategoryInfo.__str__`, /repo/src/psrpcore/types/_complex.py:722-726. -/
def ErrorCategoryInfo.shown (c : ErrorCategoryInfo) : Except Err PyStr :=
  match c.category with
  | none => .error .attributeError
  | some n =>
    .ok (errorCategories.getD n [] ++ txt! " (" ++ c.targetName.getD [] ++ txt! ":" ++
      c.targetType.getD [] ++ txt! ") [" ++ c.activity.getD [] ++ txt! "], " ++ c.reason.getD [])

/-- The properties of the details, /repo/src/psrpcore/types/_complex.py:879-881: an `ErrorDetails` is
true. -/
def detailsNotes : Option ErrorDetails → Notes V
  | none => []
  | some d =>
    [(txt! "ErrorDetails_Message", .ofStr d.message), (txt! "ErrorDetails_RecommendedAction", .ofStr d.action)]

/-- The property of the stack trace, /repo/src/psrpcore/types/_complex.py:883-884. -/
def traceNotes : Option PyStr → Notes V
  | none => []
  | some t => if t = [] then [] else [(txt! "ErrorDetails_ScriptStackTrace", .str t)]

/-- The properties behind the flag, /repo/src/psrpcore/types/_complex.py:886-892. -/
def extendedNotes (r : ErrorRecord V) : Notes V :=
  match r.serializeExtendedInfo, r.invocationInfo with
  | true, some i =>
    [(txt! "SerializeExtendedInfo", .bool true)] ++ infoNotes i ++
      [(txt! "PipelineIterationInfo", .ofList r.pipelineIterationInfo)]
  | _, _ => [(txt! "SerializeExtendedInfo", .bool false)]

/-- `ErrorRecord.ToPSObjectForRemoting`, /repo/src/psrpcore/types/_complex.py:861-894. A category of
`None` has no value. -/
def ErrorRecord.toRemoting (r : ErrorRecord V) : Except Err (Notes V) :=
  match r.categoryInfo.category, r.categoryInfo.shown with
  | some n, .ok shown =>
    .ok ([(txt! "Exception", .ofException r.exception),
      (txt! "TargetObject", .ofValue r.targetObject),
      (txt! "FullyQualifiedErrorId", .ofStr r.fullyQualifiedErrorId),
      (txt! "InvocationInfo", .ofInfo r.invocationInfo),
      (txt! "ErrorCategory_Category", .int n),
      (txt! "ErrorCategory_Activity", .ofStr r.categoryInfo.activity),
      (txt! "ErrorCategory_Reason", .ofStr r.categoryInfo.reason),
      (txt! "ErrorCategory_TargetName", .ofStr r.categoryInfo.targetName),
      (txt! "ErrorCategory_TargetType", .ofStr r.categoryInfo.targetType),
      (txt! "ErrorCategory_Message", .str shown)] ++
      detailsNotes r.errorDetails ++ traceNotes r.scriptStackTrace ++ extendedNotes r)
  | _, _ => .error .attributeError

/-- Whether the values of the properties can be serialized: the text of the display position of the
invocation info is one of them (/repo/src/psrpcore/types/_serializer.py:889,
/repo/src/psrpcore/types/_complex.py:465). -/
def infoSerializable : Option (InvocationInfo V) → Except Err Unit
  | none => .ok ()
  | some i =>
    match i.displayScriptPosition with
    | none => .ok ()
    | some e => e.text.map fun _ => ()

/-- `self.Exception.Message` as a text, /repo/src/psrpcore/types/_complex.py:811: `AttributeError` without
one, `TypeError` when `__str__` gives `None`. -/
def ExceptionSlot.shown : ExceptionSlot V → Except Err PyStr
  | .exception e =>
    match e.message with
    | Option.none => .error .attributeError
    | some Option.none => .error .typeError
    | some (some m) => .ok m
  | _ => .error .attributeError

/-- `ErrorRecord.__str__`, /repo/src/psrpcore/types/_complex.py:806-811. -/
def ErrorRecord.shown (r : ErrorRecord V) : Except Err PyStr :=
  match r.errorDetails with
  | some ⟨some m, _⟩ => if m = [] then r.exception.shown else .ok m
  | _ => r.exception.shown

/-- Serializing an error record, /repo/src/psrpcore/types/_serializer.py:681-691, 889: its string form is
made on the way (/repo/src/psrpcore/types/_base.py:138-158). A string form set by the caller is not
modelled. -/
def ErrorRecord.send (r : ErrorRecord V) : Except Err (Notes V) := do
  let o ← r.toRemoting
  let _ ← r.shown
  infoSerializable r.invocationInfo
  return o

/-- `ErrorDetails` of the two texts, /repo/src/psrpcore/types/_complex.py:828-835: made unless both are
`None` or empty. -/
def readDetails (message action : Option PyStr) : Option ErrorDetails :=
  if message.getD [] = [] ∧ action.getD [] = [] then none else some ⟨message, action⟩

/-- `add_note_property(obj.Exception, "SerializedRemoteInvocationInfo", ..., force=True)`,
/repo/src/psrpcore/types/_complex.py:840, /repo/src/psrpcore/types/_base.py:861-863. -/
def noteRemoteInfo (i : Option (InvocationInfo V)) : NoteVal V → Except Err (ExceptionSlot V)
  | .exception e => .ok (.exception { e with remoteInfo := some i })
  | _ => .error .valueError

/-- `ErrorRecord.FromPSObjectForRemoting`, /repo/src/psrpcore/types/_complex.py:813-859. -/
def ErrorRecord.fromRemoting (root : PyStr → PyStr) (o : Notes V) : Except Err (ErrorRecord V) := do
  let category ← (← o.get (txt! "ErrorCategory_Category")).toMember 32
  let activity ← (← o.get (txt! "ErrorCategory_Activity")).toStr
  let reason ← (← o.get (txt! "ErrorCategory_Reason")).toStr
  let targetName ← (← o.get (txt! "ErrorCategory_TargetName")).toStr
  let targetType ← (← o.get (txt! "ErrorCategory_TargetType")).toStr
  let shown ← (← o.get (txt! "ErrorCategory_Message")).toStr
  let message ← (o.getD (txt! "ErrorDetails_Message")).toStr
  let action ← (o.getD (txt! "ErrorDetails_RecommendedAction")).toStr
  let exception ← noteRemoteInfo (← (o.getD (txt! "InvocationInfo")).toInfo) (o.getD (txt! "Exception"))
  let extended := (← o.get (txt! "SerializeExtendedInfo")).truth
  let iteration ← if extended then (o.getD (txt! "PipelineIterationInfo")).toList else pure none
  let info ← if extended then (readInfo root o).map some else pure none
  let target ← (o.getD (txt! "TargetObject")).toValue
  let errorId ← (o.getD (txt! "FullyQualifiedErrorId")).toStr
  let trace ← (o.getD (txt! "ErrorDetails_ScriptStackTrace")).toStr
  return {
    exception := exception
    categoryInfo := ⟨some category, activity, reason, targetName, targetType, shown⟩
    targetObject := target
    fullyQualifiedErrorId := errorId
    invocationInfo := info
    errorDetails := readDetails message action
    pipelineIterationInfo := iteration
    scriptStackTrace := trace
    serializeExtendedInfo := extended }

/-- An error record at the other end, /repo/src/psrpcore/types/_serializer.py:683, 1171-1173. -/
def ErrorRecord.trip (root : PyStr → PyStr) (r : ErrorRecord V) : Except Err (ErrorRecord V) :=
  match r.send with
  | .ok o => ErrorRecord.fromRemoting root o
  | .error e => .error e

/-! ## Debug, verbose and warning records -/

/-- `InformationalRecord.ToPSObjectForRemoting`, /repo/src/psrpcore/types/_complex.py:957-974. -/
def InformationalRecord.toRemoting (r : InformationalRecord V) : Notes V :=
  [(txt! "InformationalRecord_Message", .ofStr r.message)] ++
  match r.serializeExtendedInfo, r.invocationInfo with
  | true, some i =>
    [(txt! "InformationalRecord_SerializeInvocationInfo", .bool true)] ++ infoNotes i ++
      [(txt! "InformationalRecord_PipelineIterationInfo", .ofList r.pipelineIterationInfo)]
  | _, _ => [(txt! "InformationalRecord_SerializeInvocationInfo", .bool false)]

/-- `InformationalRecord.FromPSObjectForRemoting`, /repo/src/psrpcore/types/_complex.py:936-955. -/
def InformationalRecord.fromRemoting (root : PyStr → PyStr) (o : Notes V) :
    Except Err (InformationalRecord V) := do
  let extended := (← o.get (txt! "InformationalRecord_SerializeInvocationInfo")).truth
  let iteration ←
    if extended then (← o.get (txt! "InformationalRecord_PipelineIterationInfo")).toList else pure none
  let info ← if extended then (readInfo root o).map some else pure none
  let message ← (← o.get (txt! "InformationalRecord_Message")).toStr
  return ⟨message, info, iteration, extended⟩

/-- An informational record at the other end, /repo/src/psrpcore/types/_serializer.py:683, 1171-1173. -/
def InformationalRecord.trip (root : PyStr → PyStr) (r : InformationalRecord V) :
    Except Err (InformationalRecord V) :=
  InformationalRecord.fromRemoting root r.toRemoting

/-! ## What a server writes -/

/-- `ServerPipeline.write_error`, /repo/src/psrpcore/_server.py:576-589: the record it sends. -/
def writeError (exception : ExceptionSlot V) (category : Option ErrorCategoryInfo) (target : Option V)
    (errorId : Option PyStr) (details : Option ErrorDetails) (info : Option (InvocationInfo V))
    (iteration : Option (List V)) (trace : Option PyStr) : ErrorRecord V where
  exception := exception
  categoryInfo := category.getD {}
  targetObject := target
  fullyQualifiedErrorId := errorId
  invocationInfo := info
  errorDetails := details
  pipelineIterationInfo := iteration
  scriptStackTrace := trace
  serializeExtendedInfo := info.isSome

/-- `ServerPipeline.write_debug`, `write_verbose` and `write_warning`,
/repo/src/psrpcore/_server.py:601-607, 619-625, 637-643: the record they send. -/
def writeInformational (message : PyStr) (info : Option (InvocationInfo V)) (iteration : Option (List V)) :
    InformationalRecord V where
  message := some message
  invocationInfo := info
  pipelineIterationInfo := iteration
  serializeExtendedInfo := info.isSome

end Verif
