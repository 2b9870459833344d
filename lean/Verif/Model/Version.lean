import Verif.Model.Text

/-!
# PSVersion

Models /repo/src/psrpcore/types/_primitive.py:28-44 and 968-1113.
-/

namespace Verif

/-- The attributes of a `PSVersion`, /repo/src/psrpcore/types/_primitive.py:1037-1040. -/
structure PSVersion where
  major : Int
  minor : Int
  build : Option Int := none
  revision : Option Int := none
deriving DecidableEq, Repr

namespace PSVersion

/-- The keyword form of `PSVersion.__init__`, /repo/src/psrpcore/types/_primitive.py:1029-1040. -/
def ofParts (major minor build revision : Option Int) : Except Err PSVersion :=
  match major, minor with
  | some ma, some mi =>
    if revision.isSome ∧ build.isNone then .error .valueError
    else .ok ⟨ma, mi, build, revision⟩
  | _, _ => .error .valueError

/-- `version_tuple`, /repo/src/psrpcore/types/_primitive.py:1106-1108. -/
def tuple (v : PSVersion) : List Int :=
  ([some v.major, some v.minor, v.build, v.revision] : List (Option Int)).filterMap id

/-- Python's comparison of two tuples of ints: the first difference decides, then
the length (/repo/src/psrpcore/types/_primitive.py:1113). -/
def tupleCmp : List Int → List Int → Ordering
  | [], [] => .eq
  | [], _ :: _ => .lt
  | _ :: _, [] => .gt
  | a :: as, b :: bs => if a < b then .lt else if b < a then .gt else tupleCmp as bs

/-- `_cmp` with two `PSVersion`s, /repo/src/psrpcore/types/_primitive.py:1092-1113. -/
def cmp (a b : PSVersion) : Ordering := tupleCmp a.tuple b.tuple

/-- `__eq__`, /repo/src/psrpcore/types/_primitive.py:1059-1066. -/
def eq (a b : PSVersion) : Bool := a.cmp b == .eq
/-- `__lt__`, /repo/src/psrpcore/types/_primitive.py:1086-1090. -/
def lt (a b : PSVersion) : Bool := a.cmp b == .lt
/-- `__le__`, /repo/src/psrpcore/types/_primitive.py:1080-1084. -/
def le (a b : PSVersion) : Bool := a.cmp b != .gt
/-- `__gt__`, /repo/src/psrpcore/types/_primitive.py:1074-1078. -/
def gt (a b : PSVersion) : Bool := a.cmp b == .gt
/-- `__ge__`, /repo/src/psrpcore/types/_primitive.py:1068-1072. -/
def ge (a b : PSVersion) : Bool := a.cmp b != .lt

/-- `".".join(parts)`, /repo/src/psrpcore/types/_primitive.py:1057. -/
def joinDots : List PyStr → PyStr
  | [] => []
  | [p] => p
  | p :: q :: ps => p ++ 46 :: joinDots (q :: ps)

/-- `__str__`, /repo/src/psrpcore/types/_primitive.py:1055-1057. -/
def str (v : PSVersion) : PyStr := joinDots (v.tuple.map intStr)

/-- `\d*` of the version pattern: the digit values of the longest run of decimal
digits, and the rest. `uni` is the Unicode decimal digit property used by `\d`
and `int` (/repo/src/psrpcore/types/_primitive.py:32-38). -/
def scanDigits (uni : Nat → Option Nat) : PyStr → List Nat × PyStr
  | [] => ([], [])
  | c :: cs =>
    match uni c with
    | some d => let (ds, rest) := scanDigits uni cs; (d :: ds, rest)
    | none => ([], c :: cs)

/-- `0|[1-9]\d*`, one number of the version pattern and `int` of it
(/repo/src/psrpcore/types/_primitive.py:32-38, 1024-1027). No backtracking is
needed: what follows a number is never a digit. -/
def scanNum (uni : Nat → Option Nat) : PyStr → Option (Nat × PyStr)
  | [] => none
  | c :: cs =>
    if c = 48 then some (0, cs)
    else if 49 ≤ c ∧ c ≤ 57 then
      let (ds, rest) := scanDigits uni cs
      some (digitsVal ((c - 48) :: ds), rest)
    else none

/-- `$`: at the end, or before a newline that ends the text
(/repo/src/psrpcore/types/_primitive.py:41). -/
def atEnd (s : PyStr) : Bool := s == [] || s == [10]

/-- `\.` followed by a number (/repo/src/psrpcore/types/_primitive.py:33-38). -/
def scanDotNum (uni : Nat → Option Nat) : PyStr → Option (Nat × PyStr)
  | 46 :: cs => scanNum uni cs
  | _ => none

/-- `_VERSION_PATTERN.match` and the attribute values taken from its groups
(/repo/src/psrpcore/types/_primitive.py:29-44, 1016-1027). -/
def scanVersion (uni : Nat → Option Nat) (s : PyStr) : Option PSVersion :=
  match scanNum uni s with
  | none => none
  | some (ma, s) =>
    match scanDotNum uni s with
    | none => none
    | some (mi, s) =>
      match scanDotNum uni s with
      | none => if atEnd s then some ⟨ma, mi, none, none⟩ else none
      | some (bu, s) =>
        match scanDotNum uni s with
        | none => if atEnd s then some ⟨ma, mi, some bu, none⟩ else none
        | some (re, s) => if atEnd s then some ⟨ma, mi, some bu, some re⟩ else none

/-- `PSVersion(version_str)`, /repo/src/psrpcore/types/_primitive.py:1015-1040: the
empty text counts as no text. -/
def parse (uni : Nat → Option Nat) (s : PyStr) : Except Err PSVersion :=
  if s = [] then .error .valueError
  else match scanVersion uni s with
    | some v => .ok v
    | none => .error .valueError

end PSVersion

/-- `ProtocolVersion.Win7RC`, /repo/src/psrpcore/_payload.py:79. -/
def Win7RC : PSVersion := { major := 2, minor := 0 }
/-- `ProtocolVersion.Pwsh2`, /repo/src/psrpcore/_payload.py:80. -/
def Pwsh2 : PSVersion := { major := 2, minor := 1 }
/-- `ProtocolVersion.Pwsh3`, /repo/src/psrpcore/_payload.py:81. -/
def Pwsh3 : PSVersion := { major := 2, minor := 2 }
/-- `ProtocolVersion.Pwsh5`, /repo/src/psrpcore/_payload.py:82. -/
def Pwsh5 : PSVersion := { major := 2, minor := 3 }

end Verif
