import Verif.Proof.NumbersOnly

/-! # C82, C83: what is no number is refused -/

namespace Verif

/-- C83, nothing else is read: a text that is read as a float is one, in digits of some script, in letters of either case, with underscores
between digits at most, and with white space around it at most. Python's notation is wider than that of the protocol. -/
theorem C83_only (t : PyStr) (x : PyFloat) (h : floatOfText t = .ok x) :
    ∃ l m u r, (∀ c ∈ l, White c) ∧ (∀ c ∈ r, White c) ∧ t = l ++ u ++ r ∧ OtherScripts m u ∧ BetweenDigits m ∧
      FloatWord x (lowerAscii (m.filter (· ≠ 95))) := float_only h

example : floatOfText (txt! " 1_0.5E1 ") = .ok (.finite false (105 * 2 ^ 1074)) := by decide +kernel
example : floatOfText (txt! "1__0") = .error .valueError ∧ floatOfText (txt! "1_.0") = .error .valueError ∧
    floatOfText (txt! "1 0") = .error .valueError ∧ floatOfText [49, 0x3042] = .error .valueError ∧
    floatOfText (txt! "1d5") = .error .valueError := by decide +kernel

/-- C82, nothing else is read: a text that is read as a decimal is one, in digits of some script, in letters of either case, with underscores
anywhere, and with white space or separators of records around it. -/
theorem C82_only (t : PyStr) (x : PyDecimal) (h : decimalOfText t = .ok x) :
    ∃ l m u r, (∀ c ∈ l, White c ∨ 28 ≤ c ∧ c ≤ 31) ∧ (∀ c ∈ r, White c ∨ 28 ≤ c ∧ c ≤ 31) ∧ t = l ++ u ++ r ∧ OtherScripts m u ∧
      DecimalWord x (lowerAscii (m.filter (· ≠ 95))) := decimal_only h

example : decimalOfText ([28] ++ txt! "_1_.5E1_") = .ok (.finite false 15 0) := by decide +kernel
example : decimalOfText (txt! "1d5") = .error .decimalError ∧ decimalOfText (txt! "nan1.5") = .error .decimalError := by decide +kernel

end Verif
