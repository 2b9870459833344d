import Verif.Proof.Ints

/-! # C29, C30, C53: integers and chars -/

namespace Verif

open IntKind

/-! ## C29: sized integers -/

/-- C29 (construction): a number is accepted exactly when it is in the range of the type, is then that
number, and is refused with ValueError otherwise. -/
theorem C29_construct (k : IntKind) (v w : Int) (e : Err) :
    (k.new (.number v) = .ok w ↔ w = v ∧ k.InRange v) ∧
    (k.new (.number v) = .error e ↔ e = .valueError ∧ ¬ k.InRange v) :=
  ⟨new_number k v w, new_number_error k v e⟩

/-- C29: every value that constructors and operators of an integer type give, in any combination, is in
the range of the type, as long as no constructor gets an enum member. Partial: enum members are taken
without a check, see `C29_violated`. -/
theorem C29_partial (k : IntKind) (x : IntExpr) (hx : x.NoEnum) (v : Int) (h : x.eval k = .ok v) :
    k.InRange v := by
  have key : ∀ v w, k.new (.number v) = .ok w → k.InRange w := by
    intro v w h
    obtain ⟨rfl, h⟩ := (new_number k v w).mp h
    exact h
  have kb : ∀ op a b w, k.binOp op a b = .ok w → k.InRange w := by
    intro op a b w h
    unfold binOp at h
    split at h
    · exact key _ _ h
    · cases h
  cases x with
  | make a =>
    cases a with
    | none => cases h; exact zero_inRange k
    | enum v => exact hx.elim
    | number n => exact key _ _ h
  | un op x =>
    unfold IntExpr.eval at h
    split at h
    · exact key _ _ h
    · cases h
  | bin op x y =>
    unfold IntExpr.eval at h
    split at h
    · split at h
      · exact kb _ _ _ _ h
      · cases h
    · cases h
  | binInt op x y =>
    unfold IntExpr.eval at h
    split at h
    · exact kb _ _ _ _ h
    · cases h
  | quot x y =>
    unfold IntExpr.eval at h
    split at h
    · rename_i w hw
      unfold divMod at h
      split at h
      · cases h
      · split at h
        · rename_i q hq
          cases h
          exact key _ _ hq
        · cases h
    · cases h

/-- C29 fails for enum members: a byte of value 300, and a negative unsigned number. -/
theorem C29_violated :
    psByte.new (.enum 300) = .ok 300 ∧ ¬ psByte.InRange 300 ∧
    psUInt64.new (.enum (-1)) = .ok (-1) ∧ ¬ psUInt64.InRange (-1) := by
  simp only [inRange_iff]; decide

/-- C29 (arithmetic): an operator gives the exact result of the number when that is in range. -/
theorem C29_arith (k : IntKind) (a b v : Int) :
    (k.binOp .add a b = .ok v ↔ v = a + b ∧ k.InRange v) ∧
    (k.binOp .sub a b = .ok v ↔ v = a - b ∧ k.InRange v) ∧
    (k.binOp .mul a b = .ok v ↔ v = a * b ∧ k.InRange v) ∧
    (k.binOp .floordiv a b = .ok v ↔ b ≠ 0 ∧ v = a.fdiv b ∧ k.InRange v) ∧
    (k.binOp .mod a b = .ok v ↔ b ≠ 0 ∧ v = a.fmod b ∧ k.InRange v) ∧
    (0 ≤ b → (k.binOp .pow a b = .ok v ↔ v = a ^ b.toNat ∧ k.InRange v)) ∧
    (k.binOp .lshift a b = .ok v ↔ 0 ≤ b ∧ v = a * 2 ^ b.toNat ∧ k.InRange v) ∧
    (k.binOp .rshift a b = .ok v ↔ 0 ≤ b ∧ v = a.fdiv (2 ^ b.toNat) ∧ k.InRange v) ∧
    (k.unOp .neg a = .ok v ↔ v = -a ∧ k.InRange v) ∧
    (k.unOp .abs a = .ok v ↔ v = a.natAbs ∧ k.InRange v) := by
  have key : ∀ x, k.new (.number x) = .ok v ↔ v = x ∧ k.InRange v := by
    intro x
    rw [new_number]
    constructor
    · rintro ⟨rfl, h⟩; exact ⟨rfl, h⟩
    · rintro ⟨rfl, h⟩; exact ⟨rfl, h⟩
  refine ⟨key _, key _, key _, ?_, ?_, ?_, ?_, ?_, key _, key _⟩
  · by_cases h : b = 0
    · simp [binOp, intOp, h]
    · simp [binOp, intOp, h, key]
  · by_cases h : b = 0
    · simp [binOp, intOp, h]
    · simp [binOp, intOp, h, key]
  · intro h
    simp [binOp, intOp, h, key]
  · by_cases h : b < 0
    · simp [binOp, intOp, h]; omega
    · simp only [binOp, intOp, h, ↓reduceIte, key]
      constructor
      · rintro ⟨h1, h2⟩; exact ⟨by omega, h1, h2⟩
      · rintro ⟨_, h1, h2⟩; exact ⟨h1, h2⟩
  · by_cases h : b < 0
    · simp [binOp, intOp, h]; omega
    · simp only [binOp, intOp, h, ↓reduceIte, key]
      constructor
      · rintro ⟨h1, h2⟩; exact ⟨by omega, h1, h2⟩
      · rintro ⟨_, h1, h2⟩; exact ⟨h1, h2⟩

/-- C29 (bits): `&`, `|` and `^` of two values of a type never leave it, and combine them bit by bit. -/
theorem C29_bits (k : IntKind) (a b : Int) (ha : k.InRange a) (hb : k.InRange b) :
    (∃ v, k.binOp .and a b = .ok v ∧ k.InRange v ∧ ∀ i, bitAt v i = (bitAt a i && bitAt b i)) ∧
    (∃ v, k.binOp .or a b = .ok v ∧ k.InRange v ∧ ∀ i, bitAt v i = (bitAt a i || bitAt b i)) ∧
    (∃ v, k.binOp .xor a b = .ok v ∧ k.InRange v ∧ ∀ i, bitAt v i = (bitAt a i ^^ bitAt b i)) :=
  ⟨⟨_, (new_number k _ _).mpr ⟨rfl, inRange_and k a b ha hb⟩, inRange_and k a b ha hb, bitAt_and a b⟩,
   ⟨_, (new_number k _ _).mpr ⟨rfl, inRange_or k a b ha hb⟩, inRange_or k a b ha hb, bitAt_or a b⟩,
   ⟨_, (new_number k _ _).mpr ⟨rfl, inRange_xor k a b ha hb⟩, inRange_xor k a b ha hb, bitAt_xor a b⟩⟩

/-- C29 (bits): `~` flips every bit of a signed value, and is refused for every unsigned one. -/
theorem C29_invert (k : IntKind) (a : Int) (ha : k.InRange a) :
    (k.signed = true → ∃ v, k.unOp .invert a = .ok v ∧ k.InRange v ∧ ∀ i, bitAt v i = !bitAt a i) ∧
    (k.signed = false → k.unOp .invert a = .error .valueError) := by
  constructor
  · intro hs
    have : k.InRange (bitNot a) := by
      rw [inRange_iff] at *
      unfold bitNot
      cases k <;> simp [signed, minValue, maxValue] at * <;> omega
    exact ⟨_, (new_number k _ _).mpr ⟨rfl, this⟩, this, bitAt_not a⟩
  · intro hs
    refine (new_number_error k _ _).mpr ⟨rfl, ?_⟩
    rw [inRange_iff] at *
    unfold intUn bitNot
    cases k <;> simp [signed, minValue, maxValue] at * <;> omega

/-- C29 (divmod): quotient and remainder belong together. -/
theorem C29_divmod (k : IntKind) (a b q r : Int) (h : k.divMod a b = .ok (q, r)) :
    k.InRange q ∧ a = b * q + r ∧ (0 < b → 0 ≤ r ∧ r < b) ∧ (b < 0 → b < r ∧ r ≤ 0) := by
  unfold divMod at h
  split at h
  · cases h
  · rename_i hb
    split at h
    · rename_i q' hq
      cases h
      obtain ⟨rfl, hr⟩ := (new_number k _ _).mp hq
      refine ⟨hr, (Int.mul_fdiv_add_fmod a b).symm, ?_, ?_⟩
      · intro h0
        exact ⟨Int.fmod_nonneg_of_pos a h0, Int.fmod_lt_of_pos a h0⟩
      · intro h0
        have h1 := Int.fmod_lt_of_pos (-a) (b := -b) (by omega)
        have h2 := Int.fmod_nonneg_of_pos (-a) (b := -b) (by omega)
        rw [Int.neg_fmod_neg] at h1 h2
        omega
    · cases h

example : (IntExpr.bin .sub (.make (.number 3)) (.make (.number 5))).eval psByte = .error .valueError := by
  decide +kernel
example : (IntExpr.bin .mul (.make (.number 3)) (.make (.number (-5)))).eval psSByte = .ok (-15) := by
  decide +kernel
example : (IntExpr.bin .mul (.make (.number 3)) (.make .none)).NoEnum := ⟨trivial, trivial⟩
example : psInt16.InRange (-300) ∧ ¬ psInt16.InRange 40000 := by simp only [inRange_iff]; decide
example : psInt.divMod (-7) 2 = .ok (-4, 1) := by decide +kernel

/-! ## C30: plain ints -/

/-- C30: a plain int from -2³¹ up to 2⁶³-1 comes back as the same number. Partial: smaller 64-bit
numbers do not, see `C30_exact`. -/
theorem C30_partial (v : Int) (h1 : -(2 ^ 31) ≤ v) (h2 : v < 2 ^ 63) :
    ∃ k, deserializeInt (serializeInt none v).1 (serializeInt none v).2 = .ok (k, v) ∧ k.InRange v := by
  have tags : ∀ k : IntKind, kindOfTag k.tag = some k := by intro k; cases k <;> decide +kernel
  simp only [serializeInt]
  generalize hk : (if v > psInt.maxValue then psInt64 else psInt) = k
  have hr : k.InRange v := by
    rw [inRange_iff]
    subst hk
    split
    · simp only [minValue, maxValue] at *; omega
    · simp only [minValue, maxValue] at *; omega
  refine ⟨k, ?_, hr⟩
  unfold deserializeInt
  simp only [tags, intStr_ne_nil, ↓reduceIte, intOfText_intStr, (new_number k v v).mpr ⟨rfl, hr⟩]
  rfl

/-- C30: and these are exactly the plain ints that come back at all; the others are refused by the
reader. -/
theorem C30_exact (v : Int) :
    (∃ k, deserializeInt (serializeInt none v).1 (serializeInt none v).2 = .ok (k, v)) ↔
      -(2 ^ 31) ≤ v ∧ v < 2 ^ 63 := by
  constructor
  · rintro ⟨k, h⟩
    have tags : ∀ k : IntKind, kindOfTag k.tag = some k := by intro k; cases k <;> decide +kernel
    simp only [serializeInt] at h
    generalize hk : (if v > psInt.maxValue then psInt64 else psInt) = k' at h
    unfold deserializeInt at h
    simp only [tags, intStr_ne_nil, ↓reduceIte, intOfText_intStr] at h
    cases hn : k'.new (.number v) with
    | error e => rw [hn] at h; cases h
    | ok w =>
      have hr := ((new_number k' v w).mp hn).2
      rw [inRange_iff] at hr
      subst hk
      split at hr
      · simp only [minValue, maxValue] at *; omega
      · simp only [minValue, maxValue] at *; omega
  · rintro ⟨h1, h2⟩
    obtain ⟨k, h, _⟩ := C30_partial v h1 h2
    exact ⟨k, h⟩

/-- C30 fails: -2³¹-1 is a 64-bit number but is tagged as a 32-bit one, which the reader refuses. -/
theorem C30_violated :
    psInt64.InRange (-2147483649) ∧ serializeInt none (-2147483649) = (lit "I32", lit "-2147483649") ∧
    deserializeInt (lit "I32") (lit "-2147483649") = .error .valueError := by
  simp only [inRange_iff]; decide +kernel

/-- C30 (sized integers): a value of a sized type comes back as the same value of the same type. -/
theorem C30_sized (k : IntKind) (v : Int) (h : k.InRange v) :
    deserializeInt (serializeInt (some k) v).1 (serializeInt (some k) v).2 = .ok (k, v) := by
  have tags : ∀ k : IntKind, kindOfTag k.tag = some k := by intro k; cases k <;> decide +kernel
  unfold deserializeInt
  simp only [serializeInt, tags, intStr_ne_nil, ↓reduceIte, intOfText_intStr,
    (new_number k v v).mpr ⟨rfl, h⟩]
  rfl

example : serializeInt none 2147483648 = (lit "I64", lit "2147483648") := by decide +kernel
example : deserializeInt (lit "I64") (lit "2147483648") = .ok (psInt64, 2147483648) := by decide +kernel
example : deserializeInt (lit "SB") [] = .ok (psSByte, 0) := by decide +kernel

/-! ## C53: chars -/

/-- C53: the text of a char makes the same char again unless the char is a surrogate. Partial:
surrogates are refused, see `C53_exact`. -/
theorem C53_partial (c : Int) (h0 : 0 ≤ c ∧ c ≤ 65535) (hs : ¬ IsSurrogateUnit c) :
    charOfStr (charStr c) = .ok c := by
  obtain ⟨n, rfl⟩ : ∃ n : Nat, c = n := ⟨c.toNat, by omega⟩
  unfold IsSurrogateUnit at hs
  have h1 : isSurrogate n = false := by simp only [isSurrogate, decide_eq_false_iff_not]; omega
  have h2 : n < 0x10000 := by omega
  have h3 : n / 256 * 256 + n % 256 = n := by omega
  simp only [charOfStr, charStr, encodeUtf16, Int.toNat_natCast, List.any_cons, h1, List.any_nil,
    Bool.or_self, Bool.false_eq_true, ↓reduceIte, List.flatMap_cons, List.flatMap_nil, utf16, h2,
    List.append_nil, unitBytes, List.length_cons, List.length_nil, h3, charOfInt]
  rw [if_neg (by omega), if_neg (by omega)]

/-- C53: exactly the surrogates do not. -/
theorem C53_exact (c : Int) (h0 : 0 ≤ c ∧ c ≤ 65535) :
    charOfStr (charStr c) = .ok c ↔ ¬ IsSurrogateUnit c := by
  refine ⟨fun h hs => ?_, C53_partial c h0⟩
  obtain ⟨n, rfl⟩ : ∃ n : Nat, c = n := ⟨c.toNat, by omega⟩
  unfold IsSurrogateUnit at hs
  have h1 : isSurrogate n = true := by simp only [isSurrogate, decide_eq_true_eq]; omega
  simp [charOfStr, charStr, encodeUtf16, h1] at h

/-- C53 fails for a surrogate. -/
theorem C53_violated : charOfInt 0xD83D = .ok 0xD83D ∧
    charOfStr (charStr 0xD83D) = .error .unicodeError := by decide +kernel

/-- C53 (range): every char, from an int or from text, is between 0 and 65535, and a char made from text
is that one character. -/
theorem C53_range (s : PyStr) (n c : Int) :
    (charOfInt n = .ok c ↔ c = n ∧ 0 ≤ n ∧ n ≤ 65535) ∧
    (charOfStr s = .ok c → 0 ≤ c ∧ c ≤ 65535) := by
  have key : ∀ n c, charOfInt n = .ok c ↔ c = n ∧ 0 ≤ n ∧ n ≤ 65535 := by
    intro n c
    unfold charOfInt
    split
    · simp only [reduceCtorEq, false_iff]; omega
    · simp only [Except.ok.injEq]; omega
  refine ⟨key n c, fun h => ?_⟩
  unfold charOfStr at h
  split at h
  · cases h
  · split at h
    · cases h
    · split at h
      · have := (key _ _).mp h
        omega
      · cases h

/-- C53 (text): a char made from text was made from exactly that one character. -/
theorem C53_text (s : PyStr) (c : Int) (h : charOfStr s = .ok c) : s = [c.toNat] := by
  unfold charOfStr encodeUtf16 at h
  by_cases hs : s.any isSurrogate = true
  · simp [hs] at h
  · simp only [hs, Bool.false_eq_true, ↓reduceIte] at h
    match s, h with
    | [], h => simp at h
    | [x], h =>
      by_cases hx : x < 0x10000
      · have h3 : x / 256 * 256 + x % 256 = x := by omega
        simp only [List.flatMap_cons, List.flatMap_nil, utf16, hx, ↓reduceIte, List.append_nil,
          unitBytes, List.length_cons, List.length_nil, h3, charOfInt] at h
        rw [if_neg (by omega), if_neg (by omega)] at h
        cases h
        simp
      · simp [utf16, hx, unitBytes] at h
    | x :: y :: r, h =>
      have : 2 < ((x :: y :: r).flatMap utf16 |>.flatMap unitBytes).length := by
        have hu : ∀ c, 1 ≤ (utf16 c).length := by intro c; unfold utf16; split <;> simp
        have hb : ∀ us : List Nat, (us.flatMap unitBytes).length = 2 * us.length := by
          intro us
          induction us with
          | nil => rfl
          | cons u us ih => simp [List.flatMap_cons, unitBytes] at ih ⊢; omega
        rw [hb]
        have := hu x
        have := hu y
        simp only [List.flatMap_cons, List.length_append]
        omega
      rw [if_pos this] at h
      cases h

example : ¬ IsSurrogateUnit 0x20AC ∧ IsSurrogateUnit 0xDC00 := by unfold IsSurrogateUnit; omega
example : charOfStr (lit "😀") = .error .valueError ∧ charOfStr [] = .error .structError ∧
    charOfStr (lit "7") = .ok 55 := by decide +kernel

end Verif
