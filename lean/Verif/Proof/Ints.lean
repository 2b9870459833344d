import Verif.Spec.Ints
import Verif.Proof.Duration
import Verif.Proof.NumText

/-! # Sized integers: helper lemmas -/

namespace Verif

namespace IntKind

theorem inRange_iff (k : IntKind) (v : Int) : k.InRange v ↔ k.minValue ≤ v ∧ v ≤ k.maxValue := by
  cases k <;> simp [InRange, signed, bits, minValue, maxValue] <;> omega

theorem new_number (k : IntKind) (v w : Int) : k.new (.number v) = .ok w ↔ w = v ∧ k.InRange v := by
  rw [inRange_iff]
  simp only [new]
  split
  · simp only [reduceCtorEq, false_iff]; omega
  · simp only [Except.ok.injEq]; omega

theorem new_number_error (k : IntKind) (v : Int) (e : Err) :
    k.new (.number v) = .error e ↔ e = .valueError ∧ ¬ k.InRange v := by
  rw [inRange_iff]
  simp only [new]
  split
  · simp only [Except.error.injEq]
    constructor
    · rintro rfl; exact ⟨rfl, by omega⟩
    · rintro ⟨rfl, _⟩; rfl
  · simp only [reduceCtorEq, false_iff]; omega

theorem zero_inRange (k : IntKind) : k.InRange 0 := by
  rw [inRange_iff]
  cases k <;> decide

/-- In range, in terms of natural numbers. -/
theorem inRange_nat (k : IntKind) (v : Int) : k.InRange v ↔
    (match v with
     | .ofNat m => m < 2 ^ (if k.signed then k.bits - 1 else k.bits)
     | .negSucc m => k.signed = true ∧ m < 2 ^ (k.bits - 1)) := by
  rw [inRange_iff]
  cases v with
  | ofNat m => cases k <;> simp [signed, bits, minValue, maxValue] <;> omega
  | negSucc m => cases k <;> simp [signed, bits, minValue, maxValue] <;> omega

end IntKind

theorem bitNot_cases (a : Int) : (∀ m, a = .ofNat m → bitNot a = .negSucc m) ∧
    (∀ m, a = .negSucc m → bitNot a = .ofNat m) := by
  constructor <;> rintro m rfl <;> simp [bitNot] <;> omega

theorem bitNot_ofNat (m : Nat) : bitNot (.ofNat m) = .negSucc m := (bitNot_cases _).1 m rfl
theorem bitNot_negSucc (m : Nat) : bitNot (.negSucc m) = .ofNat m := (bitNot_cases _).2 m rfl

theorem bitAt_not (a : Int) (i : Nat) : bitAt (bitNot a) i = !bitAt a i := by
  cases a with
  | ofNat m => rw [bitNot_ofNat]; rfl
  | negSucc m => rw [bitNot_negSucc]; simp [bitAt]

theorem bitAt_and (a b : Int) (i : Nat) : bitAt (bitAnd a b) i = (bitAt a i && bitAt b i) := by
  cases a with
  | ofNat m =>
    cases b with
    | ofNat n => exact Nat.testBit_and m n i
    | negSucc n =>
      show Nat.testBit (m ^^^ (m &&& n)) i = (m.testBit i && !n.testBit i)
      simp
      cases m.testBit i <;> cases n.testBit i <;> rfl
  | negSucc m =>
    cases b with
    | ofNat n =>
      show Nat.testBit (n ^^^ (n &&& m)) i = (!m.testBit i && n.testBit i)
      simp
      cases m.testBit i <;> cases n.testBit i <;> rfl
    | negSucc n =>
      show (!Nat.testBit (m ||| n) i) = (!m.testBit i && !n.testBit i)
      simp

theorem bitAt_or (a b : Int) (i : Nat) : bitAt (bitOr a b) i = (bitAt a i || bitAt b i) := by
  unfold bitOr
  rw [bitAt_not, bitAt_and, bitAt_not, bitAt_not]
  simp

theorem bitAt_xor (a b : Int) (i : Nat) : bitAt (bitXor a b) i = (bitAt a i ^^ bitAt b i) := by
  cases a <;> cases b <;> simp [bitAt, bitXor]

theorem natAnd_lt {m n k : Nat} (h : m < 2 ^ k) : m &&& n < 2 ^ k :=
  Nat.lt_of_le_of_lt Nat.and_le_left h

theorem inRange_and (k : IntKind) (a b : Int) (ha : k.InRange a) (hb : k.InRange b) :
    k.InRange (bitAnd a b) := by
  rw [k.inRange_nat] at *
  cases a with
  | ofNat m =>
    cases b with
    | ofNat n => exact natAnd_lt ha
    | negSucc n =>
      simp only [bitAnd]
      exact Nat.xor_lt_two_pow ha (natAnd_lt ha)
  | negSucc m =>
    cases b with
    | ofNat n =>
      simp only [bitAnd]
      exact Nat.xor_lt_two_pow hb (natAnd_lt hb)
    | negSucc n => exact ⟨ha.1, Nat.or_lt_two_pow ha.2 hb.2⟩

theorem inRange_xor (k : IntKind) (a b : Int) (ha : k.InRange a) (hb : k.InRange b) :
    k.InRange (bitXor a b) := by
  rw [k.inRange_nat] at *
  cases a with
  | ofNat m =>
    cases b with
    | ofNat n => exact Nat.xor_lt_two_pow ha hb
    | negSucc n =>
      simp only [hb.1, ↓reduceIte] at ha
      exact ⟨hb.1, Nat.xor_lt_two_pow ha hb.2⟩
  | negSucc m =>
    cases b with
    | ofNat n =>
      simp only [ha.1, ↓reduceIte] at hb
      exact ⟨ha.1, Nat.xor_lt_two_pow ha.2 hb⟩
    | negSucc n =>
      simp only [bitXor]
      have := Nat.xor_lt_two_pow ha.2 hb.2
      simpa [ha.1] using this

theorem inRange_or (k : IntKind) (a b : Int) (ha : k.InRange a) (hb : k.InRange b) :
    k.InRange (bitOr a b) := by
  unfold bitOr
  rw [k.inRange_nat] at *
  cases a with
  | ofNat m =>
    cases b with
    | ofNat n =>
      rw [bitNot_ofNat, bitNot_ofNat, bitAnd, bitNot_negSucc]
      exact Nat.or_lt_two_pow ha hb
    | negSucc n =>
      rw [bitNot_ofNat, bitNot_negSucc, bitAnd]
      show match bitNot (Int.ofNat _) with | .ofNat m => _ | .negSucc m => _
      rw [bitNot_ofNat]
      exact ⟨hb.1, Nat.xor_lt_two_pow hb.2 (natAnd_lt hb.2)⟩
  | negSucc m =>
    cases b with
    | ofNat n =>
      rw [bitNot_ofNat, bitNot_negSucc, bitAnd]
      show match bitNot (Int.ofNat _) with | .ofNat m => _ | .negSucc m => _
      rw [bitNot_ofNat]
      exact ⟨ha.1, Nat.xor_lt_two_pow ha.2 (natAnd_lt ha.2)⟩
    | negSucc n =>
      rw [bitNot_negSucc, bitNot_negSucc, bitAnd]
      show match bitNot (Int.ofNat _) with | .ofNat m => _ | .negSucc m => _
      rw [bitNot_ofNat]
      exact ⟨ha.1, natAnd_lt ha.2⟩

theorem intStr_ne_nil (v : Int) : intStr v ≠ [] := by
  cases v with
  | ofNat n => exact natStr_ne_nil n
  | negSucc n => simp [intStr]

theorem natStr_head (n : Nat) : (natStr n).head? ≠ some 45 ∧ (natStr n).head? ≠ some 43 := by
  constructor <;> intro h <;> have := natStr_ascii n _ (List.mem_of_head? h) <;> omega

theorem natStr_all (n : Nat) : (natStr n).all (fun c => (asciiDigit c).isSome) = true := by
  rw [List.all_eq_true]
  intro c hc
  have := natStr_ascii n c hc
  simp [asciiDigit, this]

theorem natStr_digits (n : Nat) : Digits n (natStr n) := by
  have := digits_of_ascii (natStr n) (natStr_ascii n)
  rwa [natStr_val] at this

/-- A number is read from its text. -/
theorem intOfText_intStr (v : Int) : intOfText (intStr v) = .ok v := by
  rw [intOfText_iff]
  cases v with
  | ofNat n =>
    exact ⟨[], [], n, natStr n, by simp, by simp, (natStr_digits n).grouped (natStr_ne_nil n), .inl ⟨rfl, .inl (by simp [intStr])⟩⟩
  | negSucc n =>
    exact ⟨[], [], n + 1, natStr (n + 1), by simp, by simp, (natStr_digits _).grouped (natStr_ne_nil _),
      .inr ⟨rfl, by simp [intStr]⟩⟩

theorem digits_natAux : ∀ f n, n < f → Digits n (natDigitsAux f n) := by
  intro f
  induction f with
  | zero => intro n h; omega
  | succ f ih =>
    intro n h
    unfold natDigitsAux
    split
    · rename_i h
      have := Digits.snoc .nil n h
      rwa [Nat.mul_zero, Nat.zero_add] at this
    · have := Digits.snoc (ih (n / 10) (by omega)) (n % 10) (by omega)
      rwa [show 10 * (n / 10) + n % 10 = n by omega] at this

theorem decimal_natStr (n : Nat) : Decimal n (natStr n) := by
  refine ⟨digits_natAux _ _ (by omega), natStr_ne_nil n, fun h => ?_⟩
  by_cases h0 : n = 0
  · subst h0; exact natStr_zero
  · obtain ⟨c, cs, e, h1, _⟩ := natStr_pos n h0
    rw [e] at h
    cases h
    omega

theorem signed_intStr (v : Int) : Signed v (intStr v) := by
  cases v with
  | ofNat n => exact .inl ⟨Int.natCast_nonneg n, decimal_natStr n⟩
  | negSucc n => exact .inr ⟨Int.negSucc_lt_zero n, natStr (n + 1), rfl, by
      rw [show (-(Int.negSucc n)).toNat = n + 1 from rfl]; exact decimal_natStr _⟩

end Verif
