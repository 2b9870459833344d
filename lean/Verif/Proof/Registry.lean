import Verif.Spec.Registry
import Verif.Proof.Transport

/-! # Lemmas about the registry of types -/

namespace Verif

theorem types_addElement (r : Registry) (d : TypeDecl) : (r.addElement d).types = r.types := by
  unfold Registry.addElement
  split
  · rfl
  · split <;> rfl

theorem contains_iff (d : Dict PyStr PyStr) (n : PyStr) : d.contains n = true ↔ ∃ c, d.get? n = some c := by
  unfold Dict.contains
  cases d.get? n <;> simp

theorem decorate_types (r : Registry) (d : TypeDecl) (n : PyStr) (c : PyStr) :
    (r.decorate d).types.get? n = some c ↔
      r.types.get? n = some c ∨
        (r.types.get? n = none ∧ d.rehydrate = true ∧ (r.namesOf d).head? = some n ∧ d.cls = c) := by
  unfold Registry.decorate
  dsimp only
  rw [types_addElement]
  cases hn : r.namesOf d with
  | nil => simp [Registry.addType]
  | cons m ms =>
    simp only [Registry.addType, List.head?_cons, Option.some.injEq]
    by_cases hc : (d.rehydrate && !Dict.contains r.types m) = true
    · rw [if_pos hc]
      simp only [Bool.and_eq_true, Bool.not_eq_true'] at hc
      obtain ⟨h1, h2⟩ := hc
      have hm : r.types.get? m = none := by
        cases hg : r.types.get? m with
        | none => rfl
        | some x => rw [(contains_iff _ _).mpr ⟨x, hg⟩] at h2; cases h2
      dsimp only
      by_cases he : m = n
      · subst he
        rw [Dict.get?_set_self, hm]
        simp [h1]
      · rw [Dict.get?_set_ne _ _ he]
        simp [he]
    · rw [if_neg hc]
      dsimp only
      constructor
      · exact Or.inl
      · rintro (h | ⟨h1, h2, rfl, h4⟩)
        · exact h
        · exfalso
          apply hc
          rw [h2]
          cases hk : Dict.contains r.types m with
          | false => rfl
          | true => obtain ⟨c, hx⟩ := (contains_iff _ _).mp hk; rw [h1] at hx; cases hx

theorem load_append (r : Registry) (as bs : List TypeDecl) : r.load (as ++ bs) = (r.load as).load bs := by
  unfold Registry.load
  rw [List.foldl_append]

theorem load_snoc (r : Registry) (as : List TypeDecl) (d : TypeDecl) : r.load (as ++ [d]) = (r.load as).decorate d := by
  rw [load_append]; rfl

/-- A name found once is found for ever. -/
theorem load_stable (r : Registry) (ds : List TypeDecl) {n : PyStr} {c : PyStr} (h : r.types.get? n = some c) :
    (r.load ds).types.get? n = some c := by
  induction ds generalizing r with
  | nil => exact h
  | cons d ds ih => exact ih _ ((decorate_types r d n c).mpr (.inl h))

/-- Reverse induction over lists. -/
theorem snoc_induction {α : Type} {P : List α → Prop} (h0 : P []) (h1 : ∀ xs x, P xs → P (xs ++ [x])) (xs : List α) : P xs := by
  rw [← List.reverse_reverse xs]
  induction xs.reverse with
  | nil => exact h0
  | cons a as ih => rw [List.reverse_cons]; exact h1 _ _ ih

theorem unclaimed_iff (ds : List TypeDecl) (n : PyStr) :
    (Registry.load {} ds).types.get? n = none ↔ ∀ pre d post, ds = pre ++ d :: post → ¬ Claims pre d n := by
  induction ds using snoc_induction with
  | h0 => simp [Registry.load, Dict.get?]
  | h1 ds d ih =>
    rw [load_snoc]
    have key : ((Registry.load {} ds).decorate d).types.get? n = none ↔
        (Registry.load {} ds).types.get? n = none ∧ ¬ Claims ds d n := by
      constructor
      · intro h
        have h1 : (Registry.load {} ds).types.get? n = none := by
          cases hx : (Registry.load {} ds).types.get? n with
          | none => rfl
          | some c => rw [(decorate_types _ d n c).mpr (.inl hx)] at h; cases h
        refine ⟨h1, ?_⟩
        rintro ⟨a, b⟩
        rw [(decorate_types _ d n d.cls).mpr (.inr ⟨h1, a, b, rfl⟩)] at h
        cases h
      · rintro ⟨h1, h2⟩
        cases hx : ((Registry.load {} ds).decorate d).types.get? n with
        | none => rfl
        | some c =>
          rcases (decorate_types _ d n c).mp hx with h | ⟨_, a, b, _⟩
          · rw [h1] at h; cases h
          · exact absurd ⟨a, b⟩ h2
    rw [key, ih]
    constructor
    · rintro ⟨h1, h2⟩ pre e post he
      rcases List.eq_nil_or_concat post with rfl | ⟨post', x, rfl⟩
      · have := List.append_inj' he rfl
        obtain ⟨rfl, h⟩ := this
        cases h
        exact h2
      · have : ds ++ [d] = (pre ++ e :: post') ++ [x] := by rw [he]; simp
        obtain ⟨h, _⟩ := List.append_inj' this rfl
        exact h1 _ _ _ h
    · intro h
      refine ⟨fun pre e post he => h pre e (post ++ [d]) (by rw [he]; simp), h ds d [] rfl⟩

/-- The registry after the library was imported. -/
def loadedLibrary : Registry where
  classes := [
      (txt! "PSString",
        [txt! "System.String", txt! "System.Object"]),
      (txt! "PSChar",
        [txt! "System.Char", txt! "System.ValueType", txt! "System.Object"]),
      (txt! "PSDateTime",
        [txt! "System.DateTime", txt! "System.ValueType", txt! "System.Object"]),
      (txt! "PSDuration",
        [txt! "System.TimeSpan", txt! "System.ValueType", txt! "System.Object"]),
      (txt! "PSByte",
        [txt! "System.Byte", txt! "System.ValueType", txt! "System.Object"]),
      (txt! "PSSByte",
        [txt! "System.SByte", txt! "System.ValueType", txt! "System.Object"]),
      (txt! "PSUInt16",
        [txt! "System.UInt16", txt! "System.ValueType", txt! "System.Object"]),
      (txt! "PSInt16",
        [txt! "System.Int16", txt! "System.ValueType", txt! "System.Object"]),
      (txt! "PSUInt",
        [txt! "System.UInt32", txt! "System.ValueType", txt! "System.Object"]),
      (txt! "PSInt",
        [txt! "System.Int32", txt! "System.ValueType", txt! "System.Object"]),
      (txt! "PSUInt64",
        [txt! "System.UInt64", txt! "System.ValueType", txt! "System.Object"]),
      (txt! "PSInt64",
        [txt! "System.Int64", txt! "System.ValueType", txt! "System.Object"]),
      (txt! "PSSingle",
        [txt! "System.Single", txt! "System.ValueType", txt! "System.Object"]),
      (txt! "PSDouble",
        [txt! "System.Double", txt! "System.ValueType", txt! "System.Object"]),
      (txt! "PSDecimal",
        [txt! "System.Decimal", txt! "System.ValueType", txt! "System.Object"]),
      (txt! "PSByteArray",
        [txt! "System.Byte[]", txt! "System.Array", txt! "System.Object"]),
      (txt! "PSGuid",
        [txt! "System.Guid", txt! "System.ValueType", txt! "System.Object"]),
      (txt! "PSUri",
        [txt! "System.Uri", txt! "System.Object"]),
      (txt! "PSVersion",
        [txt! "System.Version", txt! "System.Object"]),
      (txt! "PSXml",
        [txt! "System.Xml.XmlDocument", txt! "System.Xml.XmlNode", txt! "System.Object"]),
      (txt! "PSScriptBlock",
        [txt! "System.Management.Automation.ScriptBlock", txt! "System.Object"]),
      (txt! "PSSecureString",
        [txt! "System.Security.SecureString", txt! "System.Object"]),
      (txt! "PSStack",
        [txt! "System.Collections.Stack", txt! "System.Object"]),
      (txt! "PSQueue",
        [txt! "System.Collections.Queue", txt! "System.Object"]),
      (txt! "PSList",
        [txt! "System.Collections.ArrayList", txt! "System.Object"]),
      (txt! "PSDict",
        [txt! "System.Collections.Hashtable", txt! "System.Object"]),
      (txt! "PSIEnumerable",
        [txt! "System.Collections.IEnumerable", txt! "System.Object"]),
      (txt! "PSEnumBase",
        [txt! "System.Enum", txt! "System.ValueType", txt! "System.Object"]),
      (txt! "PSFlagBase",
        [txt! "System.Enum", txt! "System.ValueType", txt! "System.Object"]),
      (txt! "PSCustomObject",
        [txt! "System.Management.Automation.PSCustomObject", txt! "System.Object"]),
      (txt! "ConsoleColor",
        [txt! "System.ConsoleColor", txt! "System.Enum", txt! "System.ValueType", txt! "System.Object"]),
      (txt! "ProgressRecordType",
        [txt! "System.Management.Automation.ProgressRecordType", txt! "System.Enum", txt! "System.ValueType", txt! "System.Object"]),
      (txt! "PSCredentialTypes",
        [txt! "System.Management.Automation.PSCredentialTypes", txt! "System.Enum", txt! "System.ValueType", txt! "System.Object"]),
      (txt! "PSCredentialUIOptions",
        [txt! "System.Management.Automation.PSCredentialUIOptions", txt! "System.Enum", txt! "System.ValueType", txt! "System.Object"]),
      (txt! "SessionStateEntryVisibility",
        [txt! "System.Management.Automation.SessionStateEntryVisibility", txt! "System.Enum", txt! "System.ValueType", txt! "System.Object"]),
      (txt! "RunspacePoolState",
        [txt! "System.Management.Automation.Runspaces.RunspacePoolState", txt! "System.Enum", txt! "System.ValueType", txt! "System.Object"]),
      (txt! "PSInvocationState",
        [txt! "System.Management.Automation.PSInvocationState", txt! "System.Enum", txt! "System.ValueType", txt! "System.Object"]),
      (txt! "PSThreadOptions",
        [txt! "System.Management.Automation.Runspaces.PSThreadOptions", txt! "System.Enum", txt! "System.ValueType", txt! "System.Object"]),
      (txt! "ApartmentState",
        [txt! "System.Threading.ApartmentState", txt! "System.Enum", txt! "System.ValueType", txt! "System.Object"]),
      (txt! "RemoteStreamOptions",
        [txt! "System.Management.Automation.RemoteStreamOptions", txt! "System.Enum", txt! "System.ValueType", txt! "System.Object"]),
      (txt! "ErrorCategory",
        [txt! "System.Management.Automation.ErrorCategory", txt! "System.Enum", txt! "System.ValueType", txt! "System.Object"]),
      (txt! "CommandTypes",
        [txt! "System.Management.Automation.CommandTypes", txt! "System.Enum", txt! "System.ValueType", txt! "System.Object"]),
      (txt! "CommandOrigin",
        [txt! "System.Management.Automation.CommandOrigin", txt! "System.Enum", txt! "System.ValueType", txt! "System.Object"]),
      (txt! "PipelineResultTypes",
        [txt! "System.Management.Automation.Runspaces.PipelineResultTypes", txt! "System.Enum", txt! "System.ValueType", txt! "System.Object"]),
      (txt! "ScriptPosition",
        [txt! "System.Management.Automation.Language.ScriptPosition", txt! "System.Object"]),
      (txt! "ScriptExtent",
        [txt! "System.Management.Automation.Language.ScriptExtent", txt! "System.Object"]),
      (txt! "InvocationInfo",
        [txt! "System.Management.Automation.InvocationInfo", txt! "System.Object"]),
      (txt! "ErrorCategoryInfo",
        [txt! "System.Management.Automation.ErrorCategoryInfo", txt! "System.Object"]),
      (txt! "ErrorDetails",
        [txt! "System.Management.Automation.ErrorDetails", txt! "System.Object"]),
      (txt! "ErrorRecord",
        [txt! "System.Management.Automation.ErrorRecord", txt! "System.Object"]),
      (txt! "InformationalRecord",
        [txt! "System.Management.Automation.InformationalRecord", txt! "System.Object"]),
      (txt! "DebugRecord",
        [txt! "System.Management.Automation.DebugRecord", txt! "System.Management.Automation.InformationalRecord", txt! "System.Object"]),
      (txt! "VerboseRecord",
        [txt! "System.Management.Automation.VerboseRecord", txt! "System.Management.Automation.InformationalRecord", txt! "System.Object"]),
      (txt! "WarningRecord",
        [txt! "System.Management.Automation.WarningRecord", txt! "System.Management.Automation.InformationalRecord", txt! "System.Object"]),
      (txt! "ProgressRecord",
        [txt! "System.Management.Automation.ProgressRecord", txt! "System.Object"]),
      (txt! "InformationRecord",
        [txt! "System.Management.Automation.InformationRecord", txt! "System.Object"]),
      (txt! "PSPrimitiveDictionary",
        [txt! "System.Management.Automation.PSPrimitiveDictionary", txt! "System.Collections.Hashtable", txt! "System.Object"]),
      (txt! "CommandMetadataCount",
        [txt! "Selected.Microsoft.PowerShell.Commands.GenericMeasureInfo", txt! "System.Management.Automation.PSCustomObject", txt! "System.Object"]),
      (txt! "PSCredential",
        [txt! "System.Management.Automation.PSCredential", txt! "System.Object"]),
      (txt! "NETException",
        [txt! "System.Exception", txt! "System.Object"]),
      (txt! "HostMethodIdentifier",
        [txt! "System.Management.Automation.Remoting.RemoteHostMethodId", txt! "System.Enum", txt! "System.ValueType", txt! "System.Object"]),
      (txt! "ControlKeyStates",
        [txt! "System.Management.Automation.Host.ControlKeyStates", txt! "System.Enum", txt! "System.ValueType", txt! "System.Object"]),
      (txt! "BufferCellType",
        [txt! "System.Management.Automation.Host.ControlKeyStates", txt! "System.Enum", txt! "System.ValueType", txt! "System.Object"]),
      (txt! "ReadKeyOptions",
        [txt! "System.Management.Automation.Host.ReadKeyOptions", txt! "System.Enum", txt! "System.ValueType", txt! "System.Object"]),
      (txt! "BufferCell",
        [txt! "System.Management.Automation.Host.BufferCell", txt! "System.ValueType", txt! "System.Object"]),
      (txt! "ChoiceDescription",
        [txt! "System.Management.Automation.Host.ChoiceDescription", txt! "System.Object"]),
      (txt! "Coordinates",
        [txt! "System.Management.Automation.Host.Coordinates", txt! "System.ValueType", txt! "System.Object"]),
      (txt! "FieldDescription",
        [txt! "System.Management.Automation.Host.FieldDescription", txt! "System.Object"]),
      (txt! "KeyInfo",
        [txt! "System.Management.Automation.Host.KeyInfo", txt! "System.Object"]),
      (txt! "Rectangle",
        [txt! "System.Management.Automation.Host.Rectangle", txt! "System.ValueType", txt! "System.Object"]),
      (txt! "Size",
        [txt! "System.Management.Automation.Host.Size", txt! "System.ValueType", txt! "System.Object"]),
      (txt! "HostDefaultData",
        []),
      (txt! "HostInfo",
        []),
      (txt! "Command",
        []),
      (txt! "_ArrayCount",
        [txt! "System.Int32[]", txt! "System.Array", txt! "System.Object"])]
  types := [
      (txt! "System.String", txt! "PSString"),
      (txt! "System.Char", txt! "PSChar"),
      (txt! "System.DateTime", txt! "PSDateTime"),
      (txt! "System.TimeSpan", txt! "PSDuration"),
      (txt! "System.Byte", txt! "PSByte"),
      (txt! "System.SByte", txt! "PSSByte"),
      (txt! "System.UInt16", txt! "PSUInt16"),
      (txt! "System.Int16", txt! "PSInt16"),
      (txt! "System.UInt32", txt! "PSUInt"),
      (txt! "System.Int32", txt! "PSInt"),
      (txt! "System.UInt64", txt! "PSUInt64"),
      (txt! "System.Int64", txt! "PSInt64"),
      (txt! "System.Single", txt! "PSSingle"),
      (txt! "System.Double", txt! "PSDouble"),
      (txt! "System.Decimal", txt! "PSDecimal"),
      (txt! "System.Byte[]", txt! "PSByteArray"),
      (txt! "System.Guid", txt! "PSGuid"),
      (txt! "System.Uri", txt! "PSUri"),
      (txt! "System.Version", txt! "PSVersion"),
      (txt! "System.Xml.XmlDocument", txt! "PSXml"),
      (txt! "System.Management.Automation.ScriptBlock", txt! "PSScriptBlock"),
      (txt! "System.Security.SecureString", txt! "PSSecureString"),
      (txt! "System.Collections.Stack", txt! "PSStack"),
      (txt! "System.Collections.Queue", txt! "PSQueue"),
      (txt! "System.Collections.ArrayList", txt! "PSList"),
      (txt! "System.Collections.Hashtable", txt! "PSDict"),
      (txt! "System.Collections.IEnumerable", txt! "PSIEnumerable"),
      (txt! "System.Management.Automation.PSCustomObject", txt! "PSCustomObject"),
      (txt! "System.ConsoleColor", txt! "ConsoleColor"),
      (txt! "System.Management.Automation.ProgressRecordType", txt! "ProgressRecordType"),
      (txt! "System.Management.Automation.PSCredentialTypes", txt! "PSCredentialTypes"),
      (txt! "System.Management.Automation.PSCredentialUIOptions", txt! "PSCredentialUIOptions"),
      (txt! "System.Management.Automation.SessionStateEntryVisibility", txt! "SessionStateEntryVisibility"),
      (txt! "System.Management.Automation.Runspaces.RunspacePoolState", txt! "RunspacePoolState"),
      (txt! "System.Management.Automation.PSInvocationState", txt! "PSInvocationState"),
      (txt! "System.Management.Automation.Runspaces.PSThreadOptions", txt! "PSThreadOptions"),
      (txt! "System.Threading.ApartmentState", txt! "ApartmentState"),
      (txt! "System.Management.Automation.RemoteStreamOptions", txt! "RemoteStreamOptions"),
      (txt! "System.Management.Automation.ErrorCategory", txt! "ErrorCategory"),
      (txt! "System.Management.Automation.CommandTypes", txt! "CommandTypes"),
      (txt! "System.Management.Automation.CommandOrigin", txt! "CommandOrigin"),
      (txt! "System.Management.Automation.Runspaces.PipelineResultTypes", txt! "PipelineResultTypes"),
      (txt! "System.Management.Automation.Language.ScriptPosition", txt! "ScriptPosition"),
      (txt! "System.Management.Automation.Language.ScriptExtent", txt! "ScriptExtent"),
      (txt! "System.Management.Automation.InvocationInfo", txt! "InvocationInfo"),
      (txt! "System.Management.Automation.ErrorCategoryInfo", txt! "ErrorCategoryInfo"),
      (txt! "System.Management.Automation.ErrorDetails", txt! "ErrorDetails"),
      (txt! "System.Management.Automation.ErrorRecord", txt! "ErrorRecord"),
      (txt! "System.Management.Automation.InformationalRecord", txt! "InformationalRecord"),
      (txt! "System.Management.Automation.DebugRecord", txt! "DebugRecord"),
      (txt! "System.Management.Automation.VerboseRecord", txt! "VerboseRecord"),
      (txt! "System.Management.Automation.WarningRecord", txt! "WarningRecord"),
      (txt! "System.Management.Automation.ProgressRecord", txt! "ProgressRecord"),
      (txt! "System.Management.Automation.InformationRecord", txt! "InformationRecord"),
      (txt! "System.Management.Automation.PSPrimitiveDictionary", txt! "PSPrimitiveDictionary"),
      (txt! "Selected.Microsoft.PowerShell.Commands.GenericMeasureInfo", txt! "CommandMetadataCount"),
      (txt! "System.Management.Automation.PSCredential", txt! "PSCredential"),
      (txt! "System.Exception", txt! "NETException"),
      (txt! "System.Management.Automation.Remoting.RemoteHostMethodId", txt! "HostMethodIdentifier"),
      (txt! "System.Management.Automation.Host.ControlKeyStates", txt! "ControlKeyStates"),
      (txt! "System.Management.Automation.Host.ReadKeyOptions", txt! "ReadKeyOptions"),
      (txt! "System.Management.Automation.Host.BufferCell", txt! "BufferCell"),
      (txt! "System.Management.Automation.Host.ChoiceDescription", txt! "ChoiceDescription"),
      (txt! "System.Management.Automation.Host.Coordinates", txt! "Coordinates"),
      (txt! "System.Management.Automation.Host.FieldDescription", txt! "FieldDescription"),
      (txt! "System.Management.Automation.Host.KeyInfo", txt! "KeyInfo"),
      (txt! "System.Management.Automation.Host.Rectangle", txt! "Rectangle"),
      (txt! "System.Management.Automation.Host.Size", txt! "Size"),
      (txt! "System.Int32[]", txt! "_ArrayCount")]
  elements := [
      (txt! "S", txt! "PSString"),
      (txt! "C", txt! "PSChar"),
      (txt! "DT", txt! "PSDateTime"),
      (txt! "TS", txt! "PSDuration"),
      (txt! "By", txt! "PSByte"),
      (txt! "SB", txt! "PSSByte"),
      (txt! "U16", txt! "PSUInt16"),
      (txt! "I16", txt! "PSInt16"),
      (txt! "U32", txt! "PSUInt"),
      (txt! "I32", txt! "PSInt"),
      (txt! "U64", txt! "PSUInt64"),
      (txt! "I64", txt! "PSInt64"),
      (txt! "Sg", txt! "PSSingle"),
      (txt! "Db", txt! "PSDouble"),
      (txt! "D", txt! "PSDecimal"),
      (txt! "BA", txt! "PSByteArray"),
      (txt! "G", txt! "PSGuid"),
      (txt! "URI", txt! "PSUri"),
      (txt! "Version", txt! "PSVersion"),
      (txt! "XD", txt! "PSXml"),
      (txt! "SBK", txt! "PSScriptBlock"),
      (txt! "SS", txt! "PSSecureString"),
      (txt! "STK", txt! "PSStack"),
      (txt! "QUE", txt! "PSQueue"),
      (txt! "LST", txt! "PSList"),
      (txt! "DCT", txt! "PSDict"),
      (txt! "IE", txt! "PSIEnumerable"),
      (txt! "PR", txt! "ProgressRecord")]

theorem load_library : Registry.load {} libraryTypes = loadedLibrary := by decide +kernel

end Verif
