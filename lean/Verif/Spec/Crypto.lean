import Verif.Model.Crypto
import Verif.Spec.StringEsc

/-! # What the theorems on keys and secure strings speak about (C36, C37, C47, C57, C58) -/

namespace Verif

/-- What AES is trusted to be: a permutation of the blocks of 16 bytes, with its inverse. -/
def BlockCipher.Invertible (A : BlockCipher) : Prop :=
  ∀ b : Bytes, b.length = 16 → (A.enc b).length = 16 ∧ A.dec (A.enc b) = b

/-- The text is made of letters, digits, `+`, `/` and `=`. -/
def IsBase64Text (s : PyStr) : Prop :=
  ∀ c ∈ s, (65 ≤ c ∧ c ≤ 90) ∨ (97 ≤ c ∧ c ≤ 122) ∨ (48 ≤ c ∧ c ≤ 57) ∨ c = 43 ∨ c = 47 ∨ c = 61

end Verif
