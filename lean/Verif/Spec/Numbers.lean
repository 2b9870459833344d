import Verif.Spec.Digits
import Verif.Model.Numbers

/-! # Texts of GUIDs, decimals and floats (specification for C81, C82 and C83)

The forms are those of [MS-PSRP] 2.2.5.1.14 to 2.2.5.1.18 and of XML schemas. -/

namespace Verif

/-! ## GUIDs -/

/-- A hexadecimal digit in lower case. -/
def HexLow (d c : Nat) : Prop := (d < 10 ∧ c = 48 + d) ∨ (10 ≤ d ∧ d < 16 ∧ c = 97 + (d - 10))

/-- A row of digits in base 16, zeros in front allowed, and its number. -/
inductive HexDigits (digit : Nat → Nat → Prop) : Nat → PyStr → Prop
  | nil : HexDigits digit 0 []
  | snoc {n d c : Nat} {t : PyStr} (h : HexDigits digit n t) (hd : digit d c) : HexDigits digit (16 * n + d) (t ++ [c])

/-- The five groups of a GUID with a number: 8, 4, 4, 4 and 12 digits. -/
def GuidGroups (digit : Nat → Nat → Prop) (n : Nat) (t : PyStr) : Prop :=
  ∃ a b c d e, a.length = 8 ∧ b.length = 4 ∧ c.length = 4 ∧ d.length = 4 ∧ e.length = 12 ∧
    HexDigits digit n (a ++ b ++ c ++ d ++ e) ∧ t = a ++ 45 :: b ++ 45 :: c ++ 45 :: d ++ 45 :: e

/-- A GUID as other peers write it: digits in either case, in groups or not, in braces or not, or as a name. -/
inductive GuidText : Nat → PyStr → Prop
  | groups {n : Nat} {t : PyStr} (h : GuidGroups HexAny n t) : GuidText n t
  | row {n : Nat} {t : PyStr} (h : HexDigits HexAny n t) (hl : t.length = 32) : GuidText n t
  | braces {n : Nat} {t : PyStr} (h : GuidGroups HexAny n t ∨ (HexDigits HexAny n t ∧ t.length = 32)) :
      GuidText n (123 :: t ++ [125])
  | name {n : Nat} {t : PyStr} (h : GuidGroups HexAny n t) : GuidText n (txt! "urn:uuid:" ++ t)

/-! ## Decimals -/

/-- A decimal number in plain notation, as the protocol has it: a sign or none, digits, and maybe a point and more digits. The
number is that of all digits, divided by ten for each digit behind the point. -/
inductive PlainDecimal : Bool → Nat → Nat → PyStr → Prop
  | whole {n : Nat} {w : PyStr} (h : Digits n w) (hw : w ≠ []) : PlainDecimal false n 0 w
  | point {n : Nat} {w f : PyStr} (h : Digits n (w ++ f)) (hw : w ≠ []) (hf : f ≠ []) :
      PlainDecimal false n f.length (w ++ 46 :: f)
  | minus {n k : Nat} {t : PyStr} (h : PlainDecimal false n k t) : PlainDecimal true n k (45 :: t)

/-- The number a decimal is: its coefficient times a power of ten. -/
def decimalValue (neg : Bool) (coeff : Nat) (exp : Int) : Rat := (if neg then -(coeff : Rat) else coeff) * (10 : Rat) ^ exp

/-! ## Numbers in texts -/

/-- An exponent of ten, or none. -/
inductive ExponentText : Int → PyStr → Prop
  | none : ExponentText 0 []
  | plain {n c : Nat} {x : PyStr} (hc : c = 101 ∨ c = 69) (h : Digits n x) (hx : x ≠ []) : ExponentText n (c :: x)
  | plus {n c : Nat} {x : PyStr} (hc : c = 101 ∨ c = 69) (h : Digits n x) (hx : x ≠ []) : ExponentText n (c :: 43 :: x)
  | minus {n c : Nat} {x : PyStr} (hc : c = 101 ∨ c = 69) (h : Digits n x) (hx : x ≠ []) : ExponentText (-(n : Int)) (c :: 45 :: x)

/-- The number `n * 10^e` in digits, maybe with a point, maybe with an exponent. -/
inductive NumberText : Nat → Int → PyStr → Prop
  | whole {n : Nat} {w x : PyStr} {e : Int} (h : Digits n w) (hw : w ≠ []) (hx : ExponentText e x) : NumberText n e (w ++ x)
  | point {n : Nat} {w f x : PyStr} {e : Int} (h : Digits n (w ++ f)) (hne : w ++ f ≠ []) (hx : ExponentText e x) :
      NumberText n (e - (f.length : Int)) (w ++ 46 :: (f ++ x))

/-! ## Floats -/

/-- The doubles, in units of the smallest one, 2^-1074: numbers of 53 bits, shifted. -/
def IsDouble (u : Nat) : Prop := ∃ m e, m < 2 ^ 53 ∧ e ≤ 2045 ∧ u = m * 2 ^ e

/-- The numbers of single precision, in units of 2^-1074: numbers of 24 bits, shifted; the smallest one is 2^-149. -/
def IsSingle (u : Nat) : Prop := ∃ m e, m < 2 ^ 24 ∧ e ≤ 253 ∧ u = m * 2 ^ (925 + e)

/-- How far two numbers are apart. -/
def apart (a b : Nat) : Nat := (a - b) + (b - a)

/-- The double next to `num / den`. Of two the one whose last bit is zero. -/
def NearestDouble (num den u : Nat) : Prop :=
  IsDouble u ∧ ∀ v, IsDouble v → v ≠ u →
    apart (num * 2 ^ 1074) (u * den) < apart (num * 2 ^ 1074) (v * den) ∨
    (apart (num * 2 ^ 1074) (u * den) = apart (num * 2 ^ 1074) (v * den) ∧ 2 * apart u v ∣ u)

/-- `num / den` is not less than the largest double and half of the distance to the one before it. -/
def TooLarge (num den : Nat) : Prop := den * ((2 ^ 54 - 1) * 2 ^ 970) ≤ num

/-- The fraction `n * 10^e`. -/
def numerator (n : Nat) (e : Int) : Nat := n * 10 ^ e.toNat

/-- The fraction `n * 10^e`. -/
def denominator (e : Int) : Nat := 10 ^ (-e).toNat

/-- The number a float is: a multiple of 2^-1074. -/
def floatValue (neg : Bool) (units : Nat) : Rat := (if neg then -(units : Rat) else units) / (2 : Rat) ^ 1074

/-- A float Python has. -/
def PyFloat.Ok : PyFloat → Prop
  | .finite _ u => IsDouble u
  | _ => True

/-- A number in the notation of XML schemas: digits, a point and digits, and maybe an exponent. -/
inductive FloatNumber : PyStr → Prop
  | plain {n : Nat} {w f : PyStr} (h : Digits n (w ++ f)) (hw : w ≠ []) (hf : f ≠ []) : FloatNumber (w ++ 46 :: f)
  | whole {n m : Nat} {w x : PyStr} {sg : Nat} (h : Digits n w) (hw : w ≠ []) (hs : sg = 43 ∨ sg = 45) (he : Digits m x)
      (hx : x ≠ []) : FloatNumber (w ++ 69 :: sg :: x)
  | point {n m : Nat} {w f x : PyStr} {sg : Nat} (h : Digits n (w ++ f)) (hw : w ≠ []) (hf : f ≠ []) (hs : sg = 43 ∨ sg = 45)
      (he : Digits m x) (hx : x ≠ []) : FloatNumber (w ++ 46 :: f ++ 69 :: sg :: x)

/-- An exponent as Python writes it, in two digits at least. -/
def ExponentDigits (n : Nat) (x : PyStr) : Prop := Decimal n x ∧ 10 ≤ n ∨ Fixed 2 n x ∧ n < 10

/-- The digits of a number with the point behind the `p`th of them, as Python writes them: without an exponent if the number is not
less than 0.0001 and less than 10^16. -/
inductive FloatLayout (ds : PyStr) (p : Int) : PyStr → Prop
  | small (h1 : -4 < p) (h2 : p ≤ 0) : FloatLayout ds p (txt! "0." ++ List.replicate (-p).toNat 48 ++ ds)
  | whole (h1 : (ds.length : Int) ≤ p) (h2 : p ≤ 16) :
      FloatLayout ds p (ds ++ List.replicate (p - ds.length).toNat 48 ++ txt! ".0")
  | point {w f : PyStr} (hd : ds = w ++ f) (hw : (w.length : Int) = p) (h1 : 0 < p) (hf : f ≠ []) (h2 : p ≤ 16) :
      FloatLayout ds p (w ++ 46 :: f)
  | large {d : Nat} {f x : PyStr} (hd : ds = d :: f) (h : 16 < p) (hx : ExponentDigits (p - 1).toNat x) :
      FloatLayout ds p (d :: (if f = [] then [] else 46 :: f) ++ txt! "E+" ++ x)
  | tiny {d : Nat} {f x : PyStr} (hd : ds = d :: f) (h : p ≤ -4) (hx : ExponentDigits (1 - p).toNat x) :
      FloatLayout ds p (d :: (if f = [] then [] else 46 :: f) ++ txt! "E-" ++ x)

/-- The form of a float in the protocol. -/
inductive FloatForm : PyFloat → PyStr → Prop
  | positive {u : Nat} {t : PyStr} (h : FloatNumber t) : FloatForm (.finite false u) t
  | negative {u : Nat} {t : PyStr} (h : FloatNumber t) : FloatForm (.finite true u) (45 :: t)
  | infinity : FloatForm (.infinity false) (txt! "INF")
  | minusInfinity : FloatForm (.infinity true) (txt! "-INF")
  | nan : FloatForm .nan (txt! "NaN")

end Verif
