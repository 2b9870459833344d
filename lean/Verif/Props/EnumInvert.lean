import Verif.Model.EnumInvert
import Verif.Props.Enum

/-! # C44: the complement of a flag -/

namespace Verif

private theorem single_pow {n : Nat} : singleBit n = true ↔ ∃ k, n = 2 ^ k := by
  unfold singleBit
  rw [Bool.and_eq_true, bne_iff_ne, beq_iff_eq]
  constructor
  · rintro ⟨h0, h1⟩
    refine ⟨n.log2, ?_⟩
    have hle : 2 ^ n.log2 ≤ n := Nat.log2_self_le h0
    have hlt : n < 2 ^ (n.log2 + 1) := Nat.lt_log2_self
    rcases Nat.lt_or_ge (2 ^ n.log2) n with hl | hg
    · have hb : n.testBit n.log2 = true := by
        rw [Nat.testBit_eq_decide_div_mod_eq]
        have : n / 2 ^ n.log2 = 1 := by
          rw [Nat.div_eq_iff (Nat.two_pow_pos _)]
          rw [Nat.pow_succ] at hlt
          omega
        rw [this]
        rfl
      have hb' : (n - 1).testBit n.log2 = true := by
        rw [Nat.testBit_eq_decide_div_mod_eq]
        have : (n - 1) / 2 ^ n.log2 = 1 := by
          rw [Nat.div_eq_iff (Nat.two_pow_pos _)]
          rw [Nat.pow_succ] at hlt
          omega
        rw [this]
        rfl
      have : (n &&& (n - 1)).testBit n.log2 = true := by rw [Nat.testBit_and, hb, hb']; rfl
      rw [h1, Nat.zero_testBit] at this
      cases this
    · omega
  · rintro ⟨k, rfl⟩
    refine ⟨Nat.ne_of_gt (Nat.two_pow_pos k), ?_⟩
    rw [Nat.and_two_pow_sub_one_eq_mod]
    exact Nat.mod_self _

private theorem mask_bit (ms : Members Nat) (a i : Nat) :
    (ms.foldl (fun acc m => if singleBit m.2 then acc ||| m.2 else acc) a).testBit i = true ↔
      a.testBit i = true ∨ ∃ m ∈ ms, m.2 = 2 ^ i := by
  induction ms generalizing a with
  | nil => simp
  | cons m ms ih =>
    rw [List.foldl_cons, ih]
    by_cases h : singleBit m.2 = true
    · obtain ⟨k, hk⟩ := single_pow.mp h
      rw [if_pos h, Nat.testBit_or, Bool.or_eq_true, hk, Nat.testBit_two_pow, decide_eq_true_iff]
      constructor
      · rintro ((h1 | h1) | ⟨x, hx, h1⟩)
        · exact .inl h1
        · exact .inr ⟨m, List.mem_cons_self, by rw [hk, h1]⟩
        · exact .inr ⟨x, List.mem_cons_of_mem _ hx, h1⟩
      · rintro (h1 | ⟨x, hx, h1⟩)
        · exact .inl (.inl h1)
        · rcases List.mem_cons.mp hx with rfl | hx
          · exact .inl (.inr ((Nat.pow_right_inj (by decide)).mp (hk.symm.trans h1)))
          · exact .inr ⟨x, hx, h1⟩
    · rw [if_neg h]
      constructor
      · rintro (h1 | ⟨x, hx, h1⟩)
        · exact .inl h1
        · exact .inr ⟨x, List.mem_cons_of_mem _ hx, h1⟩
      · rintro (h1 | ⟨x, hx, h1⟩)
        · exact .inl h1
        · rcases List.mem_cons.mp hx with rfl | hx
          · exact absurd (single_pow.mpr ⟨i, h1⟩) h
          · exact .inr ⟨x, hx, h1⟩

private theorem singles_bit (ms : Members Nat) (i : Nat) : (singlesMask ms).testBit i = true ↔ ∃ m ∈ ms, m.2 = 2 ^ i := by
  unfold singlesMask
  rw [mask_bit, Nat.zero_testBit]
  simp

private theorem invert_bit (ms : Members Nat) (v i : Nat) : (singlesMask ms ^^^ (singlesMask ms &&& v)).testBit i = true ↔
    (∃ m ∈ ms, m.2 = 2 ^ i) ∧ v.testBit i = false := by
  rw [Nat.testBit_xor, Nat.testBit_and, ← singles_bit]
  cases (singlesMask ms).testBit i <;> cases v.testBit i <;> simp

/-- C44, complement: `~flag` never raises, and has exactly the bits of the members of one bit that are not set. -/
theorem C44_complement (ms : Members Nat) (v : Nat) : ∃ w, flagInvert ms v = .ok w ∧
    ∀ i, w.testBit i = true ↔ (∃ m ∈ ms, m.2 = 2 ^ i) ∧ v.testBit i = false := by
  refine ⟨_, ?_, invert_bit ms v⟩
  unfold flagInvert flagOf
  rw [if_neg]
  rintro ⟨_, h⟩
  refine h (Nat.eq_of_testBit_eq fun i => ?_)
  rw [Nat.testBit_and]
  cases hb : (singlesMask ms ^^^ (singlesMask ms &&& v)).testBit i with
  | false => rfl
  | true =>
    obtain ⟨⟨m, hm, h2⟩, _⟩ := (invert_bit ms v i).mp hb
    have : (flagMask ms).testBit i = true := by
      rw [flagMask_eq, testBit_union, List.any_eq_true]
      exact ⟨m.2, List.mem_map.mpr ⟨m, hm, rfl⟩, by rw [h2, Nat.testBit_two_pow]; simp⟩
    rw [this]
    rfl

/-- C44, complement: the complement of the complement of a value whose bits are members is the value. -/
theorem C44_complement_twice (ms : Members Nat) (v w : Nat) (hv : ∀ i, v.testBit i = true → ∃ m ∈ ms, m.2 = 2 ^ i)
    (h : flagInvert ms v = .ok w) : flagInvert ms w = .ok v := by
  obtain ⟨w', h1, h2⟩ := C44_complement ms v
  rw [h] at h1
  cases h1
  obtain ⟨u, h3, h4⟩ := C44_complement ms w
  rw [h3]
  congr 1
  refine Nat.eq_of_testBit_eq fun i => Bool.eq_iff_iff.mpr ?_
  rw [h4]
  constructor
  · rintro ⟨hm, hw⟩
    cases hb : v.testBit i with
    | true => rfl
    | false => rw [(h2 i).mpr ⟨hm, hb⟩] at hw; cases hw
  · intro hb
    refine ⟨hv i hb, ?_⟩
    cases hw : w.testBit i with
    | false => rfl
    | true => have := ((h2 i).mp hw).2; rw [hb] at this; cases this

/-- The complement of two keys, and back. -/
example : flagInvert controlKeyStates 5 = .ok 506 ∧ flagInvert controlKeyStates 506 = .ok 5 := by decide +kernel

example : ∀ i, (5 : Nat).testBit i = true → ∃ m ∈ controlKeyStates, m.2 = 2 ^ i := by
  intro i hi
  have : i < 3 := by
    rcases Nat.lt_or_ge i 3 with h | h
    · exact h
    · rw [Nat.testBit_lt_two_pow (Nat.lt_of_lt_of_le (by decide : 5 < 2 ^ 3) (Nat.pow_le_pow_right (by decide) h))] at hi
      cases hi
  have : i = 0 ∨ i = 1 ∨ i = 2 := by omega
  rcases this with rfl | rfl | rfl
  · exact ⟨(lit "RightAltPressed", 1), by decide +kernel, rfl⟩
  · cases hi
  · exact ⟨(lit "RightCtrlPressed", 4), by decide +kernel, rfl⟩

end Verif
