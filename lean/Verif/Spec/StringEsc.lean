import Verif.Model.StringEsc

/-! # What the string theorems speak about (C23, C24) -/

namespace Verif

/-- A Python `str`. -/
def IsText (s : PyStr) : Prop := ∀ c ∈ s, c < 0x110000

/-- A high surrogate, the first half of a UTF-16 pair. -/
def IsHigh (c : Nat) : Prop := 0xD800 ≤ c ∧ c ≤ 0xDBFF

/-- A low surrogate, the second half of a UTF-16 pair. -/
def IsLow (c : Nat) : Prop := 0xDC00 ≤ c ∧ c ≤ 0xDFFF

/-- The text has a high surrogate of the range the serializer forgot. -/
def HasBareHigh (s : PyStr) : Prop := ∃ c ∈ s, 0xD900 ≤ c ∧ c ≤ 0xDBFF

/-- The text has a character outside the basic plane written as two surrogates. -/
def HasSplitPair (s : PyStr) : Prop :=
  ∃ pre u v post, s = pre ++ u :: v :: post ∧ IsHigh u ∧ IsLow v

/-- `c` is the code of a hexadecimal digit. -/
def IsHexDigit (c : Nat) : Prop := (48 ≤ c ∧ c ≤ 57) ∨ (65 ≤ c ∧ c ≤ 70) ∨ (97 ≤ c ∧ c ≤ 102)

/-- The text has eight characters whose UTF-16 bytes look like an escape when read from the second
byte of the first one. -/
def HasMisread (s : PyStr) : Prop :=
  ∃ pre a h₁ h₂ h₃ h₄ z post,
    s = pre ++ a :: 0x5F00 :: 0x7800 :: 256 * h₁ :: 256 * h₂ :: 256 * h₃ :: 256 * h₄ :: z :: post ∧
    0 < a ∧ a < 0x10000 ∧ a % 256 = 0 ∧ ¬ IsHigh a ∧ ¬ IsLow a ∧
    IsHexDigit h₁ ∧ IsHexDigit h₂ ∧ IsHexDigit h₃ ∧ IsHexDigit h₄ ∧ z / 256 = 0x5F

/-- A control character: C0, DEL or C1. -/
def IsControl (c : Nat) : Prop := c < 0x20 ∨ (0x7F ≤ c ∧ c < 0xA0)

/-- The characters XML 1.0 allows in a document (https://www.w3.org/TR/xml/#charsets). -/
def IsXmlChar (c : Nat) : Prop :=
  c = 0x9 ∨ c = 0xA ∨ c = 0xD ∨ (0x20 ≤ c ∧ c ≤ 0xD7FF) ∨ (0xE000 ≤ c ∧ c ≤ 0xFFFD) ∨
  (0x10000 ≤ c ∧ c ≤ 0x10FFFF)

end Verif
