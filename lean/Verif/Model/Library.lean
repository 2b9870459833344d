import Verif.Model.Serializer

/-! # The classes of the library, as the serializer sees them -/

namespace Verif

/-- `cls(value)` of an enum class whose members have the values from `lo` to `hi`,
/repo/src/psrpcore/types/_enum.py:53-107: all these classes are based on `PSInt`. -/
def memberOf (lo hi v : Int) : Option Prim := if lo ≤ v ∧ v ≤ hi then some (.int .psInt v) else none

/-- `cls(value)` of a flag class whose members have these bits, /repo/src/psrpcore/types/_enum.py:109-140, as
of Python 3.11; before, every int is accepted. Negative values are not modelled. -/
def flagsOf (mask : Nat) (v : Int) : Option Prim :=
  if 0 ≤ v ∧ v.toNat &&& mask = v.toNat then some (.int .psInt v) else none

/-- What is declared for each class: its kind by its bases, the values of its members, the properties its
decorator names and which of them start with another value than `None`. Classes without an entry are plain
objects that declare none. -/
def libraryInfo : Dict PyStr ClassInfo :=
  [
    -- /repo/src/psrpcore/types/_primitive.py
    (txt! "PSString", { kind := .prim }),
    (txt! "PSChar", { kind := .prim }),
    (txt! "PSDateTime", { kind := .prim }),
    (txt! "PSDuration", { kind := .prim }),
    (txt! "PSByte", { kind := .prim }),
    (txt! "PSSByte", { kind := .prim }),
    (txt! "PSUInt16", { kind := .prim }),
    (txt! "PSInt16", { kind := .prim }),
    (txt! "PSUInt", { kind := .prim }),
    (txt! "PSInt", { kind := .prim }),
    (txt! "PSUInt64", { kind := .prim }),
    (txt! "PSInt64", { kind := .prim }),
    (txt! "PSSingle", { kind := .prim }),
    (txt! "PSDouble", { kind := .prim }),
    (txt! "PSDecimal", { kind := .prim }),
    (txt! "PSByteArray", { kind := .prim }),
    (txt! "PSGuid", { kind := .prim }),
    (txt! "PSUri", { kind := .prim }),
    (txt! "PSVersion", { kind := .prim }),
    (txt! "PSXml", { kind := .prim }),
    (txt! "PSScriptBlock", { kind := .prim }),
    (txt! "PSSecureString", { kind := .prim }),
    -- /repo/src/psrpcore/types/_collection.py
    (txt! "PSStack", { kind := .list .stack }),
    (txt! "PSQueue", { kind := .queue }),
    (txt! "PSList", { kind := .list .list }),
    (txt! "PSDict", { kind := .dict }),
    (txt! "PSIEnumerable", { kind := .list .ienum }),
    -- /repo/src/psrpcore/types/_complex.py
    (txt! "ConsoleColor", { kind := .enum (memberOf 0 15) }),
    (txt! "ProgressRecordType", { kind := .enum (memberOf 0 1) }),
    (txt! "PSCredentialTypes", { kind := .enum (flagsOf 3) }),
    (txt! "PSCredentialUIOptions", { kind := .enum (flagsOf 3) }),
    (txt! "SessionStateEntryVisibility", { kind := .enum (memberOf 0 1) }),
    (txt! "RunspacePoolState", { kind := .enum (memberOf 0 8) }),
    (txt! "PSInvocationState", { kind := .enum (memberOf 0 6) }),
    (txt! "PSThreadOptions", { kind := .enum (memberOf 0 3) }),
    (txt! "ApartmentState", { kind := .enum (memberOf 0 2) }),
    (txt! "RemoteStreamOptions", { kind := .enum (flagsOf 15) }),
    (txt! "ErrorCategory", { kind := .enum (memberOf 0 31) }),
    (txt! "CommandTypes", { kind := .enum (flagsOf 383) }),
    (txt! "CommandOrigin", { kind := .enum (memberOf 0 1) }),
    (txt! "PipelineResultTypes", { kind := .enum (flagsOf 15) }),
    (txt! "ScriptPosition", {
      adapted := [txt! "File", txt! "LineNumber", txt! "ColumnNumber", txt! "Line",
        txt! "Offset"],
      preset := [txt! "Offset"] }),
    (txt! "ScriptExtent", {
      adapted := [txt! "File", txt! "StartScriptPosition", txt! "EndScriptPosition",
        txt! "StartLineNumber", txt! "StartColumnNumber", txt! "EndLineNumber", txt! "EndColumnNumber", txt!
        "StartOffset", txt! "EndOffset", txt! "Text"],
      preset := [txt! "File", txt! "StartScriptPosition",
        txt! "EndScriptPosition", txt! "StartLineNumber", txt! "StartColumnNumber", txt! "EndLineNumber",
        txt! "EndColumnNumber", txt! "StartOffset", txt! "EndOffset", txt! "Text"] }),
    (txt! "InvocationInfo", { adapted := [txt! "BoundParameters", txt! "CommandOrigin", txt!
      "DisplayScriptPosition", txt! "ExpectingInput", txt! "HistoryId", txt! "InvocationName", txt! "Line", txt!
      "MyCommand", txt! "OffsetInLine", txt! "PipelineLength", txt! "PipelinePosition", txt! "PositionMessage",
      txt! "PSCommandPath", txt! "PSScriptRoot", txt! "ScriptLineNumber", txt! "ScriptName", txt!
      "UnboundArguments"] }),
    (txt! "ErrorCategoryInfo", {
      adapted := [txt! "Category", txt! "Activity", txt! "Reason", txt!
        "TargetName", txt! "TargetType"],
      preset := [txt! "Category"] }),
    (txt! "ErrorDetails", { adapted := [txt! "Message", txt! "RecommendedAction"] }),
    (txt! "ErrorRecord", { adapted := [txt! "Exception", txt! "CategoryInfo", txt! "TargetObject", txt!
      "FullyQualifiedErrorId", txt! "InvocationInfo", txt! "ErrorDetails", txt! "PipelineIterationInfo", txt!
      "ScriptStackTrace"] }),
    (txt! "InformationalRecord", { adapted := [txt! "Message", txt! "InvocationInfo", txt!
      "PipelineIterationInfo"] }),
    (txt! "DebugRecord", { adapted := [txt! "Message", txt! "InvocationInfo", txt! "PipelineIterationInfo"] }),
    (txt! "VerboseRecord", { adapted := [txt! "Message", txt! "InvocationInfo", txt!
      "PipelineIterationInfo"] }),
    (txt! "WarningRecord", { adapted := [txt! "Message", txt! "InvocationInfo", txt!
      "PipelineIterationInfo"] }),
    (txt! "ProgressRecord", {
      adapted := [txt! "ActivityId", txt! "Activity", txt! "StatusDescription", txt!
        "CurrentOperation", txt! "ParentActivityId", txt! "PercentComplete", txt! "RecordType", txt!
        "SecondsRemaining"],
      preset := [txt! "ParentActivityId", txt! "PercentComplete", txt! "RecordType",
        txt! "SecondsRemaining"] }),
    (txt! "InformationRecord", { adapted := [txt! "MessageData", txt! "Source", txt! "TimeGenerated", txt!
      "Tags", txt! "User", txt! "Computer", txt! "ProcessId", txt! "NativeThreadId", txt! "ManagedThreadId"] }),
    (txt! "PSPrimitiveDictionary", { kind := .dict }),
    (txt! "CommandMetadataCount", { extended := [txt! "Count"] }),
    (txt! "PSCredential", { adapted := [txt! "UserName", txt! "Password"] }),
    (txt! "NETException", { adapted := [txt! "Message", txt! "Data", txt! "HelpLink", txt! "HResult", txt!
      "InnerException", txt! "Source", txt! "StackTrace", txt! "TargetSite"] }),
    -- /repo/src/psrpcore/types/_host.py
    (txt! "HostMethodIdentifier", { kind := .enum (memberOf 1 56) }),
    (txt! "ControlKeyStates", { kind := .enum (flagsOf 511) }),
    (txt! "BufferCellType", { kind := .enum (flagsOf 3) }),
    (txt! "ReadKeyOptions", { kind := .enum (flagsOf 15) }),
    (txt! "BufferCell", { adapted := [txt! "Character", txt! "ForegroundColor", txt! "BackgroundColor", txt!
      "BufferCellType"] }),
    (txt! "ChoiceDescription", { adapted := [txt! "Label", txt! "HelpMessage"] }),
    (txt! "Coordinates", { adapted := [txt! "X", txt! "Y"] }),
    (txt! "FieldDescription", {
      adapted := [txt! "Name", txt! "ParameterTypeName", txt!
        "ParameterTypeFullName", txt! "ParameterAssemblyFullName", txt! "Label", txt! "HelpMessage", txt!
        "IsMandatory", txt! "DefaultValue", txt! "Attributes"],
      preset := [txt! "Label", txt! "HelpMessage",
        txt! "IsMandatory"] }),
    (txt! "KeyInfo", { adapted := [txt! "VirtualKeyCode", txt! "Character", txt! "ControlKeyState", txt!
      "KeyDown"] }),
    (txt! "Rectangle", { adapted := [txt! "Left", txt! "Top", txt! "Right", txt! "Bottom"] }),
    (txt! "Size", { adapted := [txt! "Width", txt! "Height"] }),
    (txt! "HostDefaultData", { extended := [txt! "ForegroundColor", txt! "BackgroundColor", txt!
      "CursorPosition", txt! "WindowPosition", txt! "CursorSize", txt! "BufferSize", txt! "WindowSize", txt!
      "MaxWindowSize", txt! "MaxPhysicalWindowSize", txt! "WindowTitle"] }),
    (txt! "HostInfo", {
      extended := [txt! "IsHostNull", txt! "IsHostUINull", txt! "IsHostRawUINull", txt!
        "UseRunspaceHost", txt! "HostDefaultData"],
      preset := [txt! "IsHostNull", txt! "IsHostUINull",
        txt! "IsHostRawUINull", txt! "UseRunspaceHost"] }) ]

/-- The library once it is imported, /repo/src/psrpcore/types/_base.py:48-84. -/
def library : Lib where
  reg := Registry.load {} libraryTypes
  info := fun c => (libraryInfo.get? c).getD {}

end Verif
