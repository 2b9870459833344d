import Verif.Spec.Enum

/-! # Lemmas on enums and flags (C44) -/

namespace Verif

theorem and_eq_iff (a b : Nat) : a &&& b = a ↔ BitsIn a b := by
  constructor
  · intro h i hi
    rw [← h, Nat.testBit_and] at hi
    simp only [Bool.and_eq_true] at hi
    exact hi.2
  · intro h
    apply Nat.eq_of_testBit_eq
    intro i
    rw [Nat.testBit_and]
    cases ha : a.testBit i with
    | false => simp
    | true => simp [h i ha]

theorem memberName_eq {α : Type} [DecidableEq α] {ms : Members α} (h : (ms.map Prod.snd).Nodup) {m : PyStr × α}
    (hm : m ∈ ms) : memberName ms m.2 = m.1 := by
  unfold memberName
  induction ms with
  | nil => cases hm
  | cons x xs ih =>
    simp only [List.map_cons, List.nodup_cons] at h
    simp only [List.find?_cons]
    by_cases hx : x.2 = m.2
    · rcases List.mem_cons.mp hm with rfl | hm
      · simp
      · exact absurd (List.mem_map.mpr ⟨m, hm, hx.symm⟩) h.1
    · rcases List.mem_cons.mp hm with rfl | hm
      · exact absurd rfl hx
      · simp only [hx, decide_false]
        exact ih h.2 hm

theorem shownName_ne {ps : Bool} {n : PyStr} (h : n ≠ []) : shownName ps n ≠ [] := by
  unfold shownName
  split
  · decide
  · exact h

theorem shownName_comma {ps : Bool} {n : PyStr} (h : 44 ∉ n) : 44 ∉ shownName ps n := by
  unfold shownName
  split
  · decide
  · exact h

/-- The members whose bits are all set. -/
def setMembers (ms : Members Nat) (v : Nat) : Members Nat := ms.filter fun m => m.2 &&& v == m.2

/-- The members the text lists. -/
def listed (ms : Members Nat) (v : Nat) : Members Nat :=
  (setMembers ms v).filter fun m => m.2 != 0 || (setMembers ms v).length == 1

theorem flagText_eq {ps : Bool} {ms : Members Nat} (h : (ms.map Prod.snd).Nodup) (v : Nat) :
    flagText ps ms v = joinComma ((listed ms v).map fun m => shownName ps m.1) := by
  unfold flagText listed
  have hs : setFlags ms v = (setMembers ms v).map Prod.snd := rfl
  rw [hs, List.filter_map, List.map_map, List.length_map]
  congr 1
  refine List.map_congr_left fun m hm => ?_
  simp only [Function.comp]
  rw [memberName_eq h]
  exact (List.mem_filter.mp (List.mem_filter.mp hm).1).1

theorem listed_sublist (ms : Members Nat) (v : Nat) : (listed ms v).Sublist ms :=
  (List.filter_sublist).trans List.filter_sublist

theorem mem_setMembers {ms : Members Nat} {v : Nat} {m : PyStr × Nat} :
    m ∈ setMembers ms v ↔ m ∈ ms ∧ BitsIn m.2 v := by
  simp only [setMembers, List.mem_filter, beq_iff_eq, and_eq_iff]

theorem mem_listed {ms : Members Nat} {v : Nat} {m : PyStr × Nat}
    (hex : ∃ x ∈ ms, x.2 ≠ 0 ∧ BitsIn x.2 v) :
    m ∈ listed ms v ↔ m ∈ ms ∧ m.2 ≠ 0 ∧ BitsIn m.2 v := by
  obtain ⟨x, hx, hx0, hxv⟩ := hex
  have hxs : x ∈ setMembers ms v := mem_setMembers.mpr ⟨hx, hxv⟩
  simp only [listed, List.mem_filter, mem_setMembers, Bool.or_eq_true, bne_iff_ne, ne_eq, beq_iff_eq]
  constructor
  · rintro ⟨⟨h1, h2⟩, h3 | h3⟩
    · exact ⟨h1, h3, h2⟩
    · obtain ⟨y, hy⟩ := List.length_eq_one_iff.mp h3
      have hm : m ∈ setMembers ms v := mem_setMembers.mpr ⟨h1, h2⟩
      rw [hy, List.mem_singleton] at hm hxs
      exact ⟨h1, by rw [hm, ← hxs]; exact hx0, h2⟩
  · rintro ⟨h1, h2, h3⟩
    exact ⟨⟨h1, h3⟩, Or.inl h2⟩

theorem bitsIn_zero (v : Nat) : BitsIn 0 v := by intro i hi; simp at hi

theorem bitsIn_of_zero {a : Nat} (h : BitsIn a 0) : a = 0 := by
  apply Nat.eq_of_testBit_eq
  intro i
  cases ha : a.testBit i with
  | false => simp
  | true => have := h i ha; simp at this

theorem setMembers_zero {ms : Members Nat} (h : (ms.map Prod.snd).Nodup) :
    setMembers ms 0 = ((ms.find? (·.2 = 0)).toList) := by
  induction ms with
  | nil => rfl
  | cons x xs ih =>
    simp only [List.map_cons, List.nodup_cons] at h
    simp only [setMembers, List.filter_cons, List.find?_cons, Nat.and_zero] at *
    by_cases hx : x.2 = 0
    · have h0 : (xs.filter fun m => (0 : Nat) == m.2) = [] := by
        rw [List.filter_eq_nil_iff]
        intro y hy hyz
        simp only [beq_iff_eq] at hyz
        exact h.1 (List.mem_map.mpr ⟨y, hy, by rw [← hyz, hx]⟩)
      simp [hx, h0]
    · have : ((0 : Nat) == x.2) = false := by
        simp only [beq_eq_false_iff_ne, ne_eq]; exact fun e => hx e.symm
      simp [hx, this, ih h.2]

theorem listed_zero {ms : Members Nat} (h : (ms.map Prod.snd).Nodup) :
    listed ms 0 = ((ms.find? (·.2 = 0)).toList) := by
  unfold listed
  rw [setMembers_zero h]
  cases ms.find? (·.2 = 0) with
  | none => rfl
  | some m => simp

/-! ## Splitting -/

theorem split_single {n : PyStr} (h : 44 ∉ n) : splitComma n = [n] := by
  induction n with
  | nil => rfl
  | cons c s ih =>
    have h1 : c ≠ 44 := fun e => h (by simp [e])
    have h2 := ih fun hh => h (by simp [hh])
    unfold splitComma
    split
    · contradiction
    · rename_i e; cases e; exact absurd rfl h1
    · rename_i e; cases e; rw [h2]

theorem split_append {n : PyStr} (h : 44 ∉ n) (s : PyStr) :
    splitComma (n ++ [44, 32] ++ s) = n :: splitComma s := by
  induction n with
  | nil => simp [splitComma]
  | cons c r ih =>
    have h1 : c ≠ 44 := fun e => h (by simp [e])
    have h2 := ih fun hh => h (by simp [hh])
    simp only [List.cons_append] at h2 ⊢
    conv => lhs; unfold splitComma
    split
    · rename_i e; cases e
    · rename_i e; simp only [List.cons.injEq] at e; exact absurd e.1 h1
    · rename_i e
      simp only [List.cons.injEq] at e
      obtain ⟨rfl, rfl⟩ := e
      rw [h2]

theorem split_join {ns : List PyStr} (hne : ns ≠ []) (h : ∀ n ∈ ns, 44 ∉ n) : splitComma (joinComma ns) = ns := by
  induction ns with
  | nil => exact absurd rfl hne
  | cons n ns ih =>
    cases ns with
    | nil => exact split_single (h n (by simp))
    | cons m ns =>
      simp only [joinComma]
      rw [split_append (h n (by simp)), ih (by simp) fun x hx => h x (by simp [hx])]

theorem join_ne {ns : List PyStr} (hne : ns ≠ []) (h : ∀ n ∈ ns, n ≠ []) : joinComma ns ≠ [] := by
  cases ns with
  | nil => exact absurd rfl hne
  | cons n ns =>
    have := h n (by simp)
    cases ns with
    | nil => exact this
    | cons m ns => simp [joinComma]

theorem find_shown {ps : Bool} {ms : Members Nat} (h : (ms.map fun m => shownName ps m.1).Nodup) {m : PyStr × Nat}
    (hm : m ∈ ms) : (ms.find? fun x => shownName ps x.1 = shownName ps m.1) = some m := by
  induction ms with
  | nil => cases hm
  | cons x xs ih =>
    simp only [List.map_cons, List.nodup_cons] at h
    rw [List.find?_cons]
    by_cases hx : shownName ps x.1 = shownName ps m.1
    · simp only [hx, decide_true]
      rcases List.mem_cons.mp hm with rfl | hm
      · rfl
      · exact absurd (List.mem_map.mpr ⟨m, hm, hx.symm⟩) h.1
    · simp only [hx, decide_false]
      rcases List.mem_cons.mp hm with rfl | hm
      · exact absurd rfl hx
      · exact ih h.2 hm

theorem mapM_shown {ps : Bool} {ms xs : Members Nat} (h : (ms.map fun m => shownName ps m.1).Nodup)
    (hx : ∀ m ∈ xs, m ∈ ms) :
    (xs.map fun m => shownName ps m.1).mapM
      (fun n => (ms.find? fun m => shownName ps m.1 = n).map Prod.snd) = some (xs.map Prod.snd) := by
  induction xs with
  | nil => rfl
  | cons x xs ih =>
    rw [List.map_cons, List.mapM_cons, find_shown h (hx x (by simp)), ih fun m hm => hx m (by simp [hm])]
    rfl

theorem testBit_union (as : List Nat) (i : Nat) : (unionOf as).testBit i = as.any (·.testBit i) := by
  induction as with
  | nil => simp [unionOf]
  | cons a as ih => simp [unionOf, Nat.testBit_or, ih]

theorem union_listed {ms : Members Nat} {v : Nat} (hv : IsUnion ms v) :
    unionOf ((listed ms v).map Prod.snd) = v := by
  obtain ⟨as, ha, rfl⟩ := hv
  apply Nat.eq_of_testBit_eq
  intro i
  rw [testBit_union, testBit_union]
  rw [Bool.eq_iff_iff, List.any_eq_true, List.any_eq_true]
  have hin : ∀ a ∈ as, BitsIn a (unionOf as) := by
    intro a haa j hj
    rw [testBit_union, List.any_eq_true]
    exact ⟨a, haa, hj⟩
  constructor
  · rintro ⟨x, hx, hi⟩
    obtain ⟨m, hm, rfl⟩ := List.mem_map.mp hx
    have hb : BitsIn m.2 (unionOf as) := (mem_setMembers.mp (List.mem_filter.mp hm).1).2
    have := hb i hi
    rw [testBit_union, List.any_eq_true] at this
    exact this
  · rintro ⟨a, haa, hi⟩
    obtain ⟨m, hm, rfl⟩ := List.mem_map.mp (ha a haa)
    have h0 : m.2 ≠ 0 := by intro h; rw [h] at hi; simp at hi
    exact ⟨m.2, List.mem_map.mpr ⟨m, (mem_listed ⟨m, hm, h0, hin _ haa⟩).mpr ⟨hm, h0, hin _ haa⟩, rfl⟩, hi⟩

theorem readFlags_text {ps : Bool} {ms : Members Nat} (hc : CleanClass ps ms) {v : Nat} (hv : IsUnion ms v) :
    readFlags ps ms (flagText ps ms v) = some v := by
  rw [flagText_eq hc.values]
  have hu := union_listed hv
  have hsub := listed_sublist ms v
  cases hl : listed ms v with
  | nil =>
    rw [hl] at hu
    simp only [readFlags, List.map_nil, joinComma, if_true]
    rw [← hu]; rfl
  | cons x xs =>
    rw [← hl]
    have hne : ((listed ms v).map fun m => shownName ps m.1) ≠ [] := by rw [hl]; simp
    unfold readFlags
    rw [if_neg (join_ne hne ?_), split_join hne ?_, mapM_shown hc.names fun m hm => hsub.subset hm]
    · simp [hu]
    · intro n hn
      obtain ⟨m, hm, rfl⟩ := List.mem_map.mp hn
      exact shownName_comma (hc.comma m (hsub.subset hm))
    · intro n hn
      obtain ⟨m, hm, rfl⟩ := List.mem_map.mp hn
      exact shownName_ne (hc.nonempty m (hsub.subset hm))

theorem unionOf_append (as bs : List Nat) : unionOf (as ++ bs) = unionOf as ||| unionOf bs := by
  apply Nat.eq_of_testBit_eq
  intro i
  simp [testBit_union, Nat.testBit_or]

theorem flagMask_eq (ms : Members Nat) : flagMask ms = unionOf (ms.map Prod.snd) := by
  unfold flagMask
  have : ∀ (ms : Members Nat) (acc : Nat), ms.foldl (fun acc m => acc ||| m.2) acc = acc ||| unionOf (ms.map Prod.snd) := by
    intro ms
    induction ms with
    | nil => intro acc; simp [unionOf]
    | cons m ms ih => intro acc; simp [List.foldl_cons, ih, unionOf, Nat.or_assoc]
  rw [this]; simp

/-- In a class whose members are single bits, the values without unknown bits are the unions. -/
theorem isUnion_of_mask {ms : Members Nat} (h1 : ∀ m ∈ ms, m.2 = 0 ∨ ∃ k, m.2 = 2 ^ k) {v : Nat}
    (hv : BitsIn v (flagMask ms)) : IsUnion ms v := by
  refine ⟨(setMembers ms v).map Prod.snd, ?_, ?_⟩
  · intro a ha
    obtain ⟨m, hm, rfl⟩ := List.mem_map.mp ha
    exact List.mem_map.mpr ⟨m, (mem_setMembers.mp hm).1, rfl⟩
  · apply Nat.eq_of_testBit_eq
    intro i
    rw [testBit_union, Bool.eq_iff_iff, List.any_eq_true]
    constructor
    · intro hi
      have := hv i hi
      rw [flagMask_eq, testBit_union, List.any_eq_true] at this
      obtain ⟨a, ha, hai⟩ := this
      obtain ⟨m, hm, rfl⟩ := List.mem_map.mp ha
      refine ⟨m.2, List.mem_map.mpr ⟨m, mem_setMembers.mpr ⟨hm, ?_⟩, rfl⟩, hai⟩
      rcases h1 m hm with h0 | ⟨k, hk⟩
      · rw [h0] at hai; simp at hai
      · intro j hj
        rw [hk, Nat.testBit_two_pow] at hj hai
        simp only [decide_eq_true_eq] at hj hai
        subst hj; subst hai
        exact hi
    · rintro ⟨a, ha, hai⟩
      obtain ⟨m, hm, rfl⟩ := List.mem_map.mp ha
      exact (mem_setMembers.mp hm).2 i hai

end Verif
