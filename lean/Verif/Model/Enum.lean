import Verif.Model.Text

/-!
# Enums and flags

Models `_serialize_enum_to_string` (/repo/src/psrpcore/types/_serializer.py:571-585), the
construction of an enum from its number (/repo/src/psrpcore/types/_serializer.py:1138-1139,
/repo/src/psrpcore/types/_enum.py:41-60, 139-148) and the operators of flags
(/repo/src/psrpcore/types/_enum.py:150-169). The values of flags are non-negative here.
-/

namespace Verif

/-- The `__members__` of an enum class, aliases included, in the order of definition
(/repo/src/psrpcore/types/_enum.py:74, 109). -/
abbrev Members (α : Type) := List (PyStr × α)

/-- `member.name`: the first name with the value; later ones are aliases
(/repo/src/psrpcore/types/_serializer.py:584). -/
def memberName {α : Type} [DecidableEq α] (ms : Members α) (v : α) : PyStr :=
  ((ms.find? (·.2 = v)).map Prod.fst).getD []

/-- `"None" if f.name == "none" and normalize_none else f.name`,
/repo/src/psrpcore/types/_serializer.py:581-584; `ps` tells whether the class derives from
`PSEnumBase` or `PSFlagBase`. -/
def shownName (ps : Bool) (name : PyStr) : PyStr :=
  if name = lit "none" ∧ ps = true then lit "None" else name

/-- `", ".join(names)`, /repo/src/psrpcore/types/_serializer.py:583. -/
def joinComma : List PyStr → PyStr
  | [] => []
  | [n] => n
  | n :: ns => n ++ [44, 32] ++ joinComma ns

/-- The set members of a flag: the values of all names with `getattr(value, f) in value`
(/repo/src/psrpcore/types/_serializer.py:577). -/
def setFlags (ms : Members Nat) (v : Nat) : List Nat :=
  (ms.filter fun m => m.2 &&& v == m.2).map Prod.snd

/-- `_serialize_enum_to_string` of a flag, /repo/src/psrpcore/types/_serializer.py:576-585. -/
def flagText (ps : Bool) (ms : Members Nat) (v : Nat) : PyStr :=
  joinComma (((setFlags ms v).filter fun f => f != 0 || (setFlags ms v).length == 1).map
    fun f => shownName ps (memberName ms f))

/-- `_serialize_enum_to_string` of an enum member, /repo/src/psrpcore/types/_serializer.py:578-585:
the list has one entry, so zero is shown as well. -/
def enumText (ps : Bool) (ms : Members Int) (v : Int) : PyStr :=
  joinComma [shownName ps (memberName ms v)]

/-- Building an enum from a number, /repo/src/psrpcore/types/_serializer.py:1139: `ValueError` unless
a member has the number. -/
def enumOf (ms : Members Int) (v : Int) : Except Err Int :=
  if ms.any (·.2 = v) then .ok v else .error .valueError

/-- All bits of the members of a flag class (/repo/src/psrpcore/types/_enum.py:139-148). -/
def flagMask (ms : Members Nat) : Nat := ms.foldl (fun acc m => acc ||| m.2) 0

/-- Building a flag from a number, /repo/src/psrpcore/types/_serializer.py:1139. Since Python 3.11
(`strict`) unknown bits raise `ValueError`; before, the class takes the behaviour of `IntFlag`, which
keeps them (/repo/src/psrpcore/types/_enum.py:139-148). -/
def flagOf (strict : Bool) (ms : Members Nat) (v : Nat) : Except Err Nat :=
  if strict = true ∧ v &&& flagMask ms ≠ v then .error .valueError else .ok v

/-- `flag | flag`, /repo/src/psrpcore/types/_enum.py:150-151. -/
def flagOr (strict : Bool) (ms : Members Nat) (a b : Nat) : Except Err Nat := flagOf strict ms (a ||| b)

/-- `flag & flag`, /repo/src/psrpcore/types/_enum.py:153-154. -/
def flagAnd (strict : Bool) (ms : Members Nat) (a b : Nat) : Except Err Nat := flagOf strict ms (a &&& b)

/-- `flag ^ flag`, /repo/src/psrpcore/types/_enum.py:156-157. -/
def flagXor (strict : Bool) (ms : Members Nat) (a b : Nat) : Except Err Nat := flagOf strict ms (a ^^^ b)

/-- `PSCredentialUIOptions`, /repo/src/psrpcore/types/_complex.py:156-172. -/
def credentialUIOptions : Members Nat :=
  [(lit "none", 0), (lit "ValidateUserNameSyntax", 1), (lit "AlwaysPrompt", 2),
   (lit "ReadOnlyUsername", 3), (lit "Default", 1)]

/-- `ControlKeyStates`, /repo/src/psrpcore/types/_host.py:127-148. -/
def controlKeyStates : Members Nat :=
  [(lit "none", 0), (lit "RightAltPressed", 1), (lit "LeftAltPressed", 2), (lit "RightCtrlPressed", 4),
   (lit "LeftCtrlPressed", 8), (lit "ShiftPressed", 16), (lit "NumLockOn", 32), (lit "ScrollLockOn", 64),
   (lit "CapsLockOn", 128), (lit "EnhancedKey", 256)]

/-- `BufferCellType`, /repo/src/psrpcore/types/_host.py:152-168. -/
def bufferCellTypes : Members Nat := [(lit "Complete", 0), (lit "Leading", 1), (lit "Trailing", 2)]

/-- `ReadKeyOptions`, /repo/src/psrpcore/types/_host.py:172-186. -/
def readKeyOptions : Members Nat :=
  [(lit "AllowCtrlC", 1), (lit "NoEcho", 2), (lit "IncludeKeyDown", 4), (lit "IncludeKeyUp", 8)]

/-- `PipelineResultTypes`, /repo/src/psrpcore/types/_complex.py:390-413. -/
def pipelineResultTypes : Members Nat :=
  [(lit "none", 0), (lit "Output", 1), (lit "Error", 2), (lit "Warning", 3), (lit "Verbose", 4),
   (lit "Debug", 5), (lit "Information", 6), (lit "All", 7), (lit "Null", 8)]

end Verif
