import Verif.Spec.Numbers

/-! # The texts that are floats and decimals (specification for C82 and C83) -/

namespace Verif

/-- A sign, or none. -/
def SignOf (neg : Bool) (s : PyStr) : Prop := (neg = false ∧ (s = [] ∨ s = [43])) ∨ (neg = true ∧ s = [45])

/-- A float in small letters: a number, or the name of infinity or of what is no number. -/
inductive FloatWord : PyFloat → PyStr → Prop
  | number {neg : Bool} {n u : Nat} {e : Int} {s t : PyStr} (hs : SignOf neg s) (h : NumberText n e t)
      (hu : NearestDouble (numerator n e) (denominator e) u) (hl : ¬ TooLarge (numerator n e) (denominator e)) :
      FloatWord (.finite neg u) (s ++ t)
  | large {neg : Bool} {n : Nat} {e : Int} {s t : PyStr} (hs : SignOf neg s) (h : NumberText n e t)
      (hl : TooLarge (numerator n e) (denominator e)) : FloatWord (.infinity neg) (s ++ t)
  | infinity {neg : Bool} {s t : PyStr} (hs : SignOf neg s) (h : t = txt! "inf" ∨ t = txt! "infinity") : FloatWord (.infinity neg) (s ++ t)
  | nan {neg : Bool} {s : PyStr} (hs : SignOf neg s) : FloatWord .nan (s ++ txt! "nan")

/-- A decimal in small letters. -/
inductive DecimalWord : PyDecimal → PyStr → Prop
  | number {neg : Bool} {n : Nat} {e : Int} {s t : PyStr} (hs : SignOf neg s) (h : NumberText n e t) :
      DecimalWord (.finite neg n e) (s ++ t)
  | infinity {neg : Bool} {s t : PyStr} (hs : SignOf neg s) (h : t = txt! "inf" ∨ t = txt! "infinity") :
      DecimalWord (.infinity neg) (s ++ t)
  | nan {neg : Bool} {n : Nat} {s t : PyStr} (hs : SignOf neg s) (h : Digits n t) : DecimalWord (.nan neg false n) (s ++ txt! "nan" ++ t)
  | snan {neg : Bool} {n : Nat} {s t : PyStr} (hs : SignOf neg s) (h : Digits n t) : DecimalWord (.nan neg true n) (s ++ txt! "snan" ++ t)

/-- Each underscore is between two digits. -/
def BetweenDigits (t : PyStr) : Prop := ∀ i, t[i]? = some 95 → ∃ j a b, i = j + 1 ∧ t[j]? = some a ∧ t[i + 1]? = some b ∧
  48 ≤ a ∧ a ≤ 57 ∧ 48 ≤ b ∧ b ≤ 57

end Verif
