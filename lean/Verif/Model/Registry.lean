import Verif.Model.Text
import Verif.Model.Transport

/-! # The registry of types

`TypeRegistry` and `PSType`, /repo/src/psrpcore/types/_base.py:48-84,732-796: which Python class an
object with given type names is made of again. -/

namespace Verif

/-- A use of the decorator `PSType`, /repo/src/psrpcore/types/_base.py:757-772: the class, the class it
inherits `PSObject` from (`none` is the class `PSObject`) and the arguments. -/
structure TypeDecl where
  cls : PyStr
  base : Option PyStr := none
  names : List PyStr
  skip : Bool := false
  rehydrate : Bool := true
  tag : Option PyStr := none
  deriving DecidableEq

/-- `TypeRegistry`, /repo/src/psrpcore/types/_base.py:56-58, and the `PSObject.type_names` of the classes
decorated so far. -/
structure Registry where
  classes : Dict PyStr (List PyStr) := []
  types : Dict PyStr PyStr := []
  elements : Dict PyStr PyStr := []
  deriving DecidableEq

/-- `cls.PSObject.type_names` before the decorator runs, /repo/src/psrpcore/types/_base.py:559-563,782. -/
def Registry.inherited (r : Registry) (d : TypeDecl) : List PyStr :=
  match d.base with
  | none => [txt! "System.Object"]
  | some b => (r.classes.get? b).getD []

/-- `self.type_names` after /repo/src/psrpcore/types/_base.py:781-784. -/
def Registry.namesOf (r : Registry) (d : TypeDecl) : List PyStr :=
  if d.skip then d.names else d.names ++ r.inherited d

/-- /repo/src/psrpcore/types/_base.py:790-791. -/
def Registry.addType (r : Registry) (d : TypeDecl) (names : List PyStr) : Registry :=
  match names with
  | [] => r
  | n :: _ => if d.rehydrate && !r.types.contains n then { r with types := r.types.set n d.cls } else r

/-- /repo/src/psrpcore/types/_base.py:793-794. -/
def Registry.addElement (r : Registry) (d : TypeDecl) : Registry :=
  match d.tag with
  | none => r
  | some t => if !r.elements.contains t then { r with elements := r.elements.set t d.cls } else r

/-- `PSType.__call__`, /repo/src/psrpcore/types/_base.py:774-796, for a class that inherits from
`PSObject`. The lists given to the decorator are also changed in place, which is not modelled. -/
def Registry.decorate (r : Registry) (d : TypeDecl) : Registry :=
  let names := r.namesOf d
  let r := { r with classes := r.classes.set d.cls names }
  (r.addType d names).addElement d

/-- The module is imported: its decorators run in order. -/
def Registry.load (r : Registry) (ds : List TypeDecl) : Registry := ds.foldl Registry.decorate r

/-- What `rehydrate` gives: a blank instance of (or for enums, the class of) a registered class, or a
plain `PSObject` with type names. -/
inductive Rehydrated
  | instance_ (cls : PyStr)
  | plain (names : List PyStr)
  deriving DecidableEq

/-- `TypeRegistry.rehydrate`, /repo/src/psrpcore/types/_base.py:60-84. -/
def Registry.rehydrate (r : Registry) (names : List PyStr) : Rehydrated :=
  match names with
  | [] => .plain []
  | n :: _ =>
    if n = [] then .plain (names.map ((txt! "Deserialized.") ++ ·)) else
    match r.types.get? n with
    | some c => .instance_ c
    | none => .plain (names.map ((txt! "Deserialized.") ++ ·))

/-- Every class of the library decorated with `PSType`, in the order in which the decorators run. The
classes of messages (/repo/src/psrpcore/types/_psrp.py) are decorated with `rehydrate=False` and no tag,
so they do not touch the registry and are left out. -/
def libraryTypes : List TypeDecl :=
  [ -- /repo/src/psrpcore/types/_primitive.py
   { cls := txt! "PSString", names := [txt! "System.String"], tag := some (txt! "S") },
    { cls := txt! "PSChar", names := [txt! "System.Char", txt! "System.ValueType"], tag := some (txt! "C") },
    { cls := txt! "PSDateTime", names := [txt! "System.DateTime", txt! "System.ValueType"], tag := some (txt! "DT") },
    { cls := txt! "PSDuration", names := [txt! "System.TimeSpan", txt! "System.ValueType"], tag := some (txt! "TS") },
    { cls := txt! "PSByte", names := [txt! "System.Byte", txt! "System.ValueType"], tag := some (txt! "By") },
    { cls := txt! "PSSByte", names := [txt! "System.SByte", txt! "System.ValueType"], tag := some (txt! "SB") },
    { cls := txt! "PSUInt16", names := [txt! "System.UInt16", txt! "System.ValueType"], tag := some (txt! "U16") },
    { cls := txt! "PSInt16", names := [txt! "System.Int16", txt! "System.ValueType"], tag := some (txt! "I16") },
    { cls := txt! "PSUInt", names := [txt! "System.UInt32", txt! "System.ValueType"], tag := some (txt! "U32") },
    { cls := txt! "PSInt", names := [txt! "System.Int32", txt! "System.ValueType"], tag := some (txt! "I32") },
    { cls := txt! "PSUInt64", names := [txt! "System.UInt64", txt! "System.ValueType"], tag := some (txt! "U64") },
    { cls := txt! "PSInt64", names := [txt! "System.Int64", txt! "System.ValueType"], tag := some (txt! "I64") },
    { cls := txt! "PSSingle", names := [txt! "System.Single", txt! "System.ValueType"], tag := some (txt! "Sg") },
    { cls := txt! "PSDouble", names := [txt! "System.Double", txt! "System.ValueType"], tag := some (txt! "Db") },
    { cls := txt! "PSDecimal", names := [txt! "System.Decimal", txt! "System.ValueType"], tag := some (txt! "D") },
    { cls := txt! "PSByteArray", names := [txt! "System.Byte[]", txt! "System.Array"], tag := some (txt! "BA") },
    { cls := txt! "PSGuid", names := [txt! "System.Guid", txt! "System.ValueType"], tag := some (txt! "G") },
    { cls := txt! "PSUri", names := [txt! "System.Uri"], tag := some (txt! "URI") },
    { cls := txt! "PSVersion", names := [txt! "System.Version"], tag := some (txt! "Version") },
    { cls := txt! "PSXml", names := [txt! "System.Xml.XmlDocument", txt! "System.Xml.XmlNode"], tag := some (txt! "XD") },
    { cls := txt! "PSScriptBlock", names := [txt! "System.Management.Automation.ScriptBlock"], tag := some (txt! "SBK") },
    { cls := txt! "PSSecureString", names := [txt! "System.Security.SecureString"], tag := some (txt! "SS") },
    -- /repo/src/psrpcore/types/_collection.py
    { cls := txt! "PSStack", names := [txt! "System.Collections.Stack"], tag := some (txt! "STK") },
    { cls := txt! "PSQueue", names := [txt! "System.Collections.Queue"], tag := some (txt! "QUE") },
    { cls := txt! "PSList", names := [txt! "System.Collections.ArrayList"], tag := some (txt! "LST") },
    { cls := txt! "PSDict", names := [txt! "System.Collections.Hashtable"], tag := some (txt! "DCT") },
    { cls := txt! "PSIEnumerable", names := [txt! "System.Collections.IEnumerable"], tag := some (txt! "IE") },
    -- /repo/src/psrpcore/types/_enum.py
    { cls := txt! "PSEnumBase", names := [txt! "System.Enum", txt! "System.ValueType"], rehydrate := false },
    { cls := txt! "PSFlagBase", names := [txt! "System.Enum", txt! "System.ValueType"], rehydrate := false },
    -- /repo/src/psrpcore/types/_complex.py
    { cls := txt! "PSCustomObject", names := [txt! "System.Management.Automation.PSCustomObject"] },
    { cls := txt! "ConsoleColor", base := some (txt! "PSEnumBase"), names := [txt! "System.ConsoleColor"] },
    { cls := txt! "ProgressRecordType", base := some (txt! "PSEnumBase"),
      names := [txt! "System.Management.Automation.ProgressRecordType"] },
    { cls := txt! "PSCredentialTypes", base := some (txt! "PSFlagBase"),
      names := [txt! "System.Management.Automation.PSCredentialTypes"] },
    { cls := txt! "PSCredentialUIOptions", base := some (txt! "PSFlagBase"),
      names := [txt! "System.Management.Automation.PSCredentialUIOptions"] },
    { cls := txt! "SessionStateEntryVisibility", base := some (txt! "PSEnumBase"),
      names := [txt! "System.Management.Automation.SessionStateEntryVisibility"] },
    { cls := txt! "RunspacePoolState", base := some (txt! "PSEnumBase"),
      names := [txt! "System.Management.Automation.Runspaces.RunspacePoolState"] },
    { cls := txt! "PSInvocationState", base := some (txt! "PSEnumBase"),
      names := [txt! "System.Management.Automation.PSInvocationState"] },
    { cls := txt! "PSThreadOptions", base := some (txt! "PSEnumBase"),
      names := [txt! "System.Management.Automation.Runspaces.PSThreadOptions"] },
    { cls := txt! "ApartmentState", base := some (txt! "PSEnumBase"), names := [txt! "System.Threading.ApartmentState"] },
    { cls := txt! "RemoteStreamOptions", base := some (txt! "PSFlagBase"),
      names := [txt! "System.Management.Automation.RemoteStreamOptions"] },
    { cls := txt! "ErrorCategory", base := some (txt! "PSEnumBase"),
      names := [txt! "System.Management.Automation.ErrorCategory"] },
    { cls := txt! "CommandTypes", base := some (txt! "PSFlagBase"), names := [txt! "System.Management.Automation.CommandTypes"] },
    { cls := txt! "CommandOrigin", base := some (txt! "PSEnumBase"),
      names := [txt! "System.Management.Automation.CommandOrigin"] },
    { cls := txt! "PipelineResultTypes", base := some (txt! "PSFlagBase"),
      names := [txt! "System.Management.Automation.Runspaces.PipelineResultTypes"] },
    { cls := txt! "ScriptPosition", names := [txt! "System.Management.Automation.Language.ScriptPosition"] },
    { cls := txt! "ScriptExtent", names := [txt! "System.Management.Automation.Language.ScriptExtent"] },
    { cls := txt! "InvocationInfo", names := [txt! "System.Management.Automation.InvocationInfo"] },
    { cls := txt! "ErrorCategoryInfo", names := [txt! "System.Management.Automation.ErrorCategoryInfo"] },
    { cls := txt! "ErrorDetails", names := [txt! "System.Management.Automation.ErrorDetails"] },
    { cls := txt! "ErrorRecord", names := [txt! "System.Management.Automation.ErrorRecord"] },
    { cls := txt! "InformationalRecord", names := [txt! "System.Management.Automation.InformationalRecord"] },
    { cls := txt! "DebugRecord", base := some (txt! "InformationalRecord"),
      names := [txt! "System.Management.Automation.DebugRecord"] },
    { cls := txt! "VerboseRecord", base := some (txt! "InformationalRecord"),
      names := [txt! "System.Management.Automation.VerboseRecord"] },
    { cls := txt! "WarningRecord", base := some (txt! "InformationalRecord"),
      names := [txt! "System.Management.Automation.WarningRecord"] },
    { cls := txt! "ProgressRecord", names := [txt! "System.Management.Automation.ProgressRecord"], tag := some (txt! "PR") },
    { cls := txt! "InformationRecord", names := [txt! "System.Management.Automation.InformationRecord"] },
    { cls := txt! "PSPrimitiveDictionary", base := some (txt! "PSDict"),
      names := [txt! "System.Management.Automation.PSPrimitiveDictionary"] },
    { cls := txt! "CommandMetadataCount", base := some (txt! "PSCustomObject"),
      names := [txt! "Selected.Microsoft.PowerShell.Commands.GenericMeasureInfo"] },
    { cls := txt! "PSCredential", names := [txt! "System.Management.Automation.PSCredential"] },
    { cls := txt! "NETException", names := [txt! "System.Exception"] },
    -- /repo/src/psrpcore/types/_host.py
    { cls := txt! "HostMethodIdentifier", base := some (txt! "PSEnumBase"),
      names := [txt! "System.Management.Automation.Remoting.RemoteHostMethodId"] },
    { cls := txt! "ControlKeyStates", base := some (txt! "PSFlagBase"),
      names := [txt! "System.Management.Automation.Host.ControlKeyStates"] },
    { cls := txt! "BufferCellType", base := some (txt! "PSFlagBase"),
      names := [txt! "System.Management.Automation.Host.ControlKeyStates"] },
    { cls := txt! "ReadKeyOptions", base := some (txt! "PSFlagBase"),
      names := [txt! "System.Management.Automation.Host.ReadKeyOptions"] },
    { cls := txt! "BufferCell", names := [txt! "System.Management.Automation.Host.BufferCell", txt! "System.ValueType"] },
    { cls := txt! "ChoiceDescription", names := [txt! "System.Management.Automation.Host.ChoiceDescription"] },
    { cls := txt! "Coordinates", names := [txt! "System.Management.Automation.Host.Coordinates", txt! "System.ValueType"] },
    { cls := txt! "FieldDescription", names := [txt! "System.Management.Automation.Host.FieldDescription"] },
    { cls := txt! "KeyInfo", names := [txt! "System.Management.Automation.Host.KeyInfo"] },
    { cls := txt! "Rectangle", names := [txt! "System.Management.Automation.Host.Rectangle", txt! "System.ValueType"] },
    { cls := txt! "Size", names := [txt! "System.Management.Automation.Host.Size", txt! "System.ValueType"] },
    { cls := txt! "HostDefaultData", names := [], skip := true },
    { cls := txt! "HostInfo", names := [], skip := true },
    -- /repo/src/psrpcore/_command.py
    { cls := txt! "Command", names := [], skip := true, rehydrate := false },
    -- /repo/src/psrpcore/_host.py
    { cls := txt! "_ArrayCount", names := [txt! "System.Int32[]", txt! "System.Array"] } ]

end Verif
