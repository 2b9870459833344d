import Verif.Spec.Indexing
import Verif.Proof.Transport

/-! # Indexing: lemmas for C88 -/

namespace Verif

variable {V : Type}

theorem placeOf_iff (n : Nat) (i : Int) (k : Nat) : placeOf n i = some k ↔ AtIndex n i k := by
  unfold placeOf AtIndex
  dsimp only
  split
  · split
    · simp only [Option.some.injEq]; omega
    · simp only [reduceCtorEq, false_iff]; omega
  · split
    · simp only [Option.some.injEq]; omega
    · simp only [reduceCtorEq, false_iff]; omega

theorem placeOf_none (n : Nat) (i : Int) : placeOf n i = none ↔ ∀ k, ¬ AtIndex n i k := by
  constructor
  · intro h k hk
    rw [(placeOf_iff n i k).mpr hk] at h
    exact nomatch h
  · intro h
    cases hp : placeOf n i with
    | none => rfl
    | some k => exact absurd ((placeOf_iff n i k).mp hp) (h k)

theorem placeOf_get {α : Type} (xs : List α) (i : Int) (x : α) :
    (placeOf xs.length i).bind (xs[·]?) = some x ↔ ∃ k, AtIndex xs.length i k ∧ xs[k]? = some x := by
  rw [Option.bind_eq_some_iff]
  constructor
  · rintro ⟨k, h1, h2⟩; exact ⟨k, (placeOf_iff _ _ _).mp h1, h2⟩
  · rintro ⟨k, h1, h2⟩; exact ⟨k, (placeOf_iff _ _ _).mpr h1, h2⟩

theorem placeOf_get_none {α : Type} (xs : List α) (i : Int) :
    (placeOf xs.length i).bind (xs[·]?) = none ↔ ∀ k, ¬ AtIndex xs.length i k := by
  rw [← placeOf_none]
  cases hp : placeOf xs.length i with
  | none => simp
  | some k =>
    have := ((placeOf_iff _ _ _).mp hp).1
    simp [this]

theorem between_take {α : Type} (lo hi : Int) : ∀ (xs : List α) (m : Nat),
    ((xs.zipIdx m).filter fun p => decide (lo ≤ p.2 ∧ (p.2 : Int) < hi)).map (·.1) = (xs.take (hi - m).toNat).drop (lo - m).toNat
  | [], m => by simp
  | x :: xs, m => by
    have ih := between_take lo hi xs (m + 1)
    rw [List.zipIdx_cons, List.filter_cons]
    by_cases h : lo ≤ (m : Int) ∧ (m : Int) < hi
    · rw [if_pos (by simpa using h), List.map_cons, ih]
      have e1 : (hi - m).toNat = (hi - (m + 1 : Nat)).toNat + 1 := by omega
      have e2 : (lo - m).toNat = 0 := by omega
      have e3 : (lo - (m + 1 : Nat)).toNat = 0 := by omega
      rw [e1, e2, e3]
      simp
    · rw [if_neg (by simpa using h), ih]
      by_cases hm : (m : Int) < hi
      · have e1 : (hi - m).toNat = (hi - (m + 1 : Nat)).toNat + 1 := by omega
        have e2 : (lo - m).toNat = (lo - (m + 1 : Nat)).toNat + 1 := by omega
        rw [e1, e2]
        simp
      · have e1 : (hi - m).toNat = 0 := by omega
        have e2 : (hi - (m + 1 : Nat)).toNat = 0 := by omega
        rw [e1, e2]
        simp

theorem sliceOf_eq {α : Type} (xs : List α) (a b : Option Int) : sliceOf xs a b = Between xs a b := by
  unfold Between
  rw [between_take]
  unfold sliceOf
  dsimp only
  have hend : ∀ i : Int, sliceEnd xs.length i = min (slicePlace xs.length i).toNat xs.length ∨
      (i < 0 ∧ sliceEnd xs.length i = (slicePlace xs.length i).toNat) := by
    intro i
    unfold sliceEnd slicePlace
    split
    · right; exact ⟨by omega, by congr 1; omega⟩
    · left; rfl
  have htake : ∀ k : Nat, xs.take (min k xs.length) = xs.take k := by
    intro k
    by_cases h : k ≤ xs.length
    · rw [Nat.min_eq_left h]
    · rw [Nat.min_eq_right (by omega), List.take_of_length_le (Nat.le_refl _), List.take_of_length_le (by omega)]
  have hdrop : ∀ (ys : List α) (k : Nat), ys.length ≤ xs.length → ys.drop (min k xs.length) = ys.drop k := by
    intro ys k hy
    by_cases h : k ≤ xs.length
    · rw [Nat.min_eq_left h]
    · rw [Nat.min_eq_right (by omega), List.drop_of_length_le (by omega), List.drop_of_length_le (by omega)]
  have hlo : ∀ ys : List α, ys.length ≤ xs.length →
      ys.drop (match a with | none => 0 | some i => sliceEnd xs.length i) = ys.drop (slicePlace xs.length (a.getD 0) - (0 : Nat)).toNat := by
    intro ys hy
    cases a with
    | none => simp [slicePlace]
    | some i =>
      simp only [Option.getD_some, Int.natCast_zero, Int.sub_zero]
      rcases hend i with h | ⟨_, h⟩
      · rw [h, hdrop _ _ hy]
      · rw [h]
  have hhi : xs.take (match b with | none => xs.length | some i => sliceEnd xs.length i) =
      xs.take (slicePlace xs.length (b.getD xs.length) - (0 : Nat)).toNat := by
    cases b with
    | none =>
      have : ¬ ((xs.length : Int) < 0) := by omega
      simp [slicePlace, this]
    | some i =>
      simp only [Option.getD_some, Int.natCast_zero, Int.sub_zero]
      rcases hend i with h | ⟨_, h⟩
      · rw [h, htake]
      · rw [h]
  exact (congrArg (List.drop _) hhi).trans (hlo _ (by simp; omega))

end Verif
