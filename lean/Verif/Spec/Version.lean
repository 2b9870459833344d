import Verif.Model.Version

/-! # What a version order and a version text are (specification for C28) -/

namespace Verif

/-- A version as its constructor builds it: no revision without a build. -/
def PSVersion.WellFormed (v : PSVersion) : Prop := v.build = none → v.revision = none

/-- A missing component comes before any present one. -/
def compBefore : Option Int → Option Int → Prop
  | none, some _ => True
  | some a, some b => a < b
  | _, none => False

/-- `a` is an earlier version than `b`: the first differing component decides. -/
def PSVersion.Before (a b : PSVersion) : Prop :=
  a.major < b.major ∨ (a.major = b.major ∧
    (a.minor < b.minor ∨ (a.minor = b.minor ∧
      (compBefore a.build b.build ∨ (a.build = b.build ∧
        compBefore a.revision b.revision)))))

/-- `uni` is a digit property that agrees with ASCII below U+0080 (so does the
Unicode decimal digit property). -/
def ExtendsAscii (uni : Nat → Option Nat) : Prop :=
  (∀ c, c < 128 → uni c = asciiDigit c)

/-- The text `t` is a decimal number without superfluous leading zeros, with value `n`:
`0`, or an ASCII digit `1`..`9` followed by any digits. -/
def Numeral (uni : Nat → Option Nat) (t : PyStr) (n : Nat) : Prop :=
  (t = lit "0" ∧ n = 0) ∨
  ∃ c cs ds, t = c :: cs ∧ 49 ≤ c ∧ c ≤ 57 ∧ cs.map uni = ds.map some ∧
    n = digitsVal ((c - 48) :: ds)

/-- `t` is the dotted text of version `v`: 2 to 4 numbers separated by dots. -/
def DottedText (uni : Nat → Option Nat) (t : PyStr) (v : PSVersion) : Prop :=
  ∃ t1 n1 t2 n2, Numeral uni t1 n1 ∧ Numeral uni t2 n2 ∧
    ((t = t1 ++ lit "." ++ t2 ∧ v = ⟨n1, n2, none, none⟩) ∨
     (∃ t3 n3, Numeral uni t3 n3 ∧
        ((t = t1 ++ lit "." ++ t2 ++ lit "." ++ t3 ∧ v = ⟨n1, n2, some n3, none⟩) ∨
         (∃ t4 n4, Numeral uni t4 n4 ∧
            t = t1 ++ lit "." ++ t2 ++ lit "." ++ t3 ++ lit "." ++ t4 ∧
            v = ⟨n1, n2, some n3, some n4⟩))))

end Verif
