import Verif.Model.Text

/-! # Numbers in texts (specification for C68, C69 and C81 to C83) -/

namespace Verif

/-- A row of decimal digits, zeros in front allowed, and its number. -/
inductive Digits : Nat → PyStr → Prop
  | nil : Digits 0 []
  | snoc {n : Nat} {t : PyStr} (h : Digits n t) (d : Nat) (hd : d < 10) : Digits (10 * n + d) (t ++ [48 + d])

/-- The decimal notation of a number: no zeros in front. -/
def Decimal (n : Nat) (t : PyStr) : Prop := Digits n t ∧ t ≠ [] ∧ (t.head? = some 48 → t = [48])

/-- A number in a given number of digits. -/
def Fixed (k n : Nat) (t : PyStr) : Prop := Digits n t ∧ t.length = k

/-- The decimal notation of an integer. -/
def Signed (v : Int) (t : PyStr) : Prop :=
  (0 ≤ v ∧ Decimal v.toNat t) ∨ (v < 0 ∧ ∃ u, t = 45 :: u ∧ Decimal (-v).toNat u)

/-- A hexadecimal digit in capitals. -/
def HexOf (d c : Nat) : Prop := (d < 10 ∧ c = 48 + d) ∨ (10 ≤ d ∧ d < 16 ∧ c = 65 + (d - 10))

/-- White space around numbers: the one of XML, and further characters Python skips. -/
def White (c : Nat) : Prop :=
  c ∈ [9, 10, 11, 12, 13, 32, 0x85, 0xA0, 0x1680, 0x2000, 0x2001, 0x2002, 0x2003, 0x2004, 0x2005, 0x2006, 0x2007, 0x2008,
    0x2009, 0x200A, 0x2028, 0x2029, 0x202F, 0x205F, 0x3000]

/-- The digit `d` in one of the scripts. -/
def DigitOf (d c : Nat) : Prop := d < 10 ∧ ∃ z ∈ digitZeros, c = z + d

/-- A row of digits, zeros in front allowed, and its number. Python also allows an underscore between two digits. -/
inductive Grouped (digit : Nat → Nat → Prop) (base : Nat) : Nat → PyStr → Prop
  | one {d c : Nat} (h : digit d c) : Grouped digit base d [c]
  | more {n d c : Nat} {t : PyStr} (h : Grouped digit base n t) (hd : digit d c) : Grouped digit base (base * n + d) (t ++ [c])
  | group {n d c : Nat} {t : PyStr} (h : Grouped digit base n t) (hd : digit d c) :
      Grouped digit base (base * n + d) (t ++ [95, c])

/-- An integer: digits behind a sign or not, and white space around them. -/
def IntegerText (v : Int) (t : PyStr) : Prop :=
  ∃ l r n u, (∀ c ∈ l, White c) ∧ (∀ c ∈ r, White c) ∧ Grouped DigitOf 10 n u ∧
    ((v = n ∧ (t = l ++ u ++ r ∨ t = l ++ 43 :: u ++ r)) ∨ (v = -(n : Int) ∧ t = l ++ 45 :: u ++ r))

/-- A text, and the same text with some of its digits in other scripts. -/
inductive OtherScripts : PyStr → PyStr → Prop
  | nil : OtherScripts [] []
  | same (c : Nat) {t u : PyStr} (h : OtherScripts t u) : OtherScripts (c :: t) (c :: u)
  | digit {d c : Nat} (hd : DigitOf d c) {t u : PyStr} (h : OtherScripts t u) : OtherScripts ((48 + d) :: t) (c :: u)

/-- A hexadecimal digit in either case. -/
def HexAny (d c : Nat) : Prop := HexOf d c ∨ (10 ≤ d ∧ d < 16 ∧ c = 97 + (d - 10))

end Verif
