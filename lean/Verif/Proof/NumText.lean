import Verif.Spec.Digits
import Verif.Model.Ints

/-! # Numbers in texts: lemmas for C69 and C81 to C83 -/

namespace Verif

/-! ## White space at the ends -/

theorem dropWhile_split (p : Nat → Bool) (s : PyStr) :
    ∃ l, s = l ++ s.dropWhile p ∧ (∀ c ∈ l, p c = true) ∧ ∀ c, (s.dropWhile p).head? = some c → p c = false := by
  induction s with
  | nil => exact ⟨[], rfl, by simp, by simp⟩
  | cons c s ih =>
    rw [List.dropWhile_cons]
    cases h : p c with
    | false => exact ⟨[], rfl, by simp, by simp [h]⟩
    | true =>
      obtain ⟨l, h1, h2, h3⟩ := ih
      exact ⟨c :: l, by simpa using h1, by simpa [h] using h2, h3⟩

theorem dropWhile_all (p : Nat → Bool) (l u : PyStr) (hl : ∀ c ∈ l, p c = true) : (l ++ u).dropWhile p = u.dropWhile p := by
  induction l with
  | nil => rfl
  | cons c l ih =>
    rw [List.cons_append, List.dropWhile_cons, if_pos (hl c (by simp))]
    exact ih fun c hc => hl c (by simp [hc])

theorem dropWhile_self (p : Nat → Bool) (u : PyStr) (h : ∀ c, u.head? = some c → p c = false) : u.dropWhile p = u := by
  cases u with
  | nil => rfl
  | cons c u => rw [List.dropWhile_cons, if_neg (by simp [h c rfl])]

theorem stripBy_split (p : Nat → Bool) (s : PyStr) : ∃ l r, s = l ++ stripBy p s ++ r ∧ (∀ c ∈ l, p c = true) ∧
    (∀ c ∈ r, p c = true) := by
  obtain ⟨l, h1, h2, _⟩ := dropWhile_split p s
  obtain ⟨r, h3, h4, _⟩ := dropWhile_split p (s.dropWhile p).reverse
  refine ⟨l, r.reverse, ?_, h2, by simpa using h4⟩
  have h5 := congrArg List.reverse h3
  rw [List.reverse_reverse, List.reverse_append] at h5
  rw [List.append_assoc]
  unfold stripBy
  rw [← h5]
  exact h1

theorem stripBy_eq (p : Nat → Bool) (l u r : PyStr) (hl : ∀ c ∈ l, p c = true) (hr : ∀ c ∈ r, p c = true)
    (h1 : ∀ c, u.head? = some c → p c = false) (h2 : ∀ c, u.getLast? = some c → p c = false) :
    stripBy p (l ++ u ++ r) = u := by
  unfold stripBy
  rw [List.append_assoc, dropWhile_all p l _ hl]
  by_cases hu : u = []
  · subst hu
    rw [List.nil_append, show r = r ++ [] by simp, dropWhile_all p r _ hr]
    rfl
  · rw [dropWhile_self p (u ++ r) (by
      obtain ⟨c, u', rfl⟩ := List.exists_cons_of_ne_nil hu
      simpa using h1), List.reverse_append,
      dropWhile_all p _ _ (by simpa using hr), dropWhile_self p _ (by simpa using h2), List.reverse_reverse]

theorem stripBy_id (p : Nat → Bool) (u : PyStr) (h1 : ∀ c, u.head? = some c → p c = false)
    (h2 : ∀ c, u.getLast? = some c → p c = false) : stripBy p u = u := by
  have := stripBy_eq p [] u [] (by simp) (by simp) h1 h2
  simpa using this

theorem numSpace_iff (c : Nat) : numSpace c = true ↔ White c := by
  unfold numSpace White
  simp only [Bool.or_eq_true, Bool.and_eq_true, decide_eq_true_eq, beq_iff_eq, List.mem_cons, List.not_mem_nil, or_false]
  omega

/-! ## Digits -/

theorem zeros_sorted : digitZeros.Pairwise fun a b => a + 10 ≤ b := by decide +kernel

theorem find_zero : ∀ (zs : List Nat), zs.Pairwise (fun a b => a + 10 ≤ b) → ∀ z ∈ zs, ∀ c, z ≤ c → c < z + 10 →
    zs.find? (fun z => z ≤ c && c < z + 10) = some z := by
  intro zs
  induction zs with
  | nil => intro _ z hz; cases hz
  | cons a zs ih =>
    intro hs z hz c h1 h2
    rw [List.pairwise_cons] at hs
    rw [List.find?_cons]
    rcases List.mem_cons.mp hz with rfl | hz
    · rw [show (decide (z ≤ c) && decide (c < z + 10)) = true by simp [h1, h2]]
    · have := hs.1 z hz
      rw [show (decide (a ≤ c) && decide (c < a + 10)) = false by
        rw [Bool.and_eq_false_iff]; right; simp; omega]
      exact ih hs.2 z hz c h1 h2

theorem unicodeDigit_iff (d c : Nat) : DigitOf d c ↔ unicodeDigit c = some d := by
  unfold DigitOf unicodeDigit
  constructor
  · rintro ⟨hd, z, hz, rfl⟩
    rw [find_zero _ zeros_sorted z hz (z + d) (by omega) (by omega)]
    simp
  · intro h
    obtain ⟨z, hz, rfl⟩ := Option.map_eq_some_iff.mp h
    have h1 := List.find?_some hz
    have h2 := List.mem_of_find?_eq_some hz
    simp only [Bool.and_eq_true, decide_eq_true_eq] at h1
    exact ⟨by omega, z, h2, by omega⟩

theorem unicodeDigit_ascii (c : Nat) (h : 48 ≤ c ∧ c ≤ 57) : unicodeDigit c = some (c - 48) :=
  (unicodeDigit_iff _ _).mp ⟨by omega, 48, by decide, by omega⟩

theorem digitsVal_snoc (ds : List Nat) (d : Nat) : digitsVal (ds ++ [d]) = 10 * digitsVal ds + d := by
  simp [digitsVal, Nat.mul_comm]

theorem digits_of_ascii (t : PyStr) (h : ∀ c ∈ t, 48 ≤ c ∧ c ≤ 57) : Digits (digitsVal (t.map (· - 48))) t := by
  generalize hn : t.length = n
  induction n generalizing t with
  | zero => rw [List.length_eq_zero_iff.mp hn]; exact .nil
  | succ n ih =>
    rcases List.eq_nil_or_concat t with rfl | ⟨u, c, rfl⟩
    · exact .nil
    · rw [List.concat_eq_append] at hn h ⊢
      have hc := h c (by simp)
      have := Digits.snoc (ih u (fun c hc => h c (by simp [hc])) (by simpa using hn)) (c - 48) (by omega)
      rw [List.map_append, List.map_cons, List.map_nil, digitsVal_snoc]
      rwa [show 48 + (c - 48) = c by omega] at this

/-! ## Rows of digits -/

section
variable {digit : Nat → Option Nat} {rel : Nat → Nat → Prop} {base : Nat}

theorem scan_digit {b : Bool} {n d c : Nat} (h95 : digit 95 = none) (h : digit c = some d) (cs : PyStr) :
    scanGroups digit base b n (c :: cs) = scanGroups digit base true (base * n + d) cs := by
  rw [scanGroups, if_neg (by rintro rfl; rw [h95] at h; cases h), h]

theorem Grouped.scan (hr : ∀ d c, rel d c → digit c = some d) (h95 : digit 95 = none) {n : Nat} {t : PyStr}
    (h : Grouped rel base n t) : ∀ rest, scanGroups digit base false 0 (t ++ rest) = scanGroups digit base true n rest := by
  induction h with
  | one h => intro rest; rw [List.singleton_append, scan_digit h95 (hr _ _ h)]; simp
  | more h hd ih =>
    intro rest
    rw [List.append_assoc, ih, List.singleton_append, scan_digit h95 (hr _ _ hd)]
  | group h hd ih =>
    intro rest
    rw [List.append_assoc, ih]
    show scanGroups digit base true _ (95 :: _ :: rest) = _
    rw [scanGroups, if_pos rfl, if_pos rfl, scan_digit h95 (hr _ _ hd)]

theorem scan_grouped (hr : ∀ d c, digit c = some d → rel d c) (cs : PyStr) : ∀ (n m : Nat) (t : PyStr), Grouped rel base n t →
    (scanGroups digit base true n cs = some m → Grouped rel base m (t ++ cs)) ∧
    (scanGroups digit base false n cs = some m → Grouped rel base m (t ++ 95 :: cs)) := by
  induction cs with
  | nil =>
    intro n m t h
    constructor
    · intro hm
      simp only [scanGroups, ↓reduceIte, Option.some.injEq] at hm
      rw [← hm, List.append_nil]; exact h
    · intro hm; simp [scanGroups] at hm
  | cons c cs ih =>
    intro n m t h
    constructor
    · intro hm
      rw [scanGroups] at hm
      split at hm
      · rename_i hc
        subst hc
        exact (ih n m t h).2 hm
      · cases hd : digit c with
        | none => rw [hd] at hm; cases hm
        | some d =>
          rw [hd] at hm
          have := (ih _ m _ (h.more (hr _ _ hd))).1 hm
          simpa using this
    · intro hm
      rw [scanGroups] at hm
      split at hm
      · cases hm
      · cases hd : digit c with
        | none => rw [hd] at hm; cases hm
        | some d =>
          rw [hd] at hm
          have := (ih _ m _ (h.group (hr _ _ hd))).1 hm
          simpa using this

theorem scanGroups_iff (hr : ∀ d c, rel d c ↔ digit c = some d) (h95 : digit 95 = none) (t : PyStr) (n : Nat) :
    scanGroups digit base false 0 t = some n ↔ Grouped rel base n t := by
  constructor
  · intro h
    cases t with
    | nil => simp [scanGroups] at h
    | cons c cs =>
      rw [scanGroups] at h
      split at h
      · cases h
      · cases hd : digit c with
        | none => rw [hd] at h; cases h
        | some d =>
          rw [hd] at h
          have := (scan_grouped (fun d c => (hr d c).mpr) cs _ n [c] (.one ((hr d c).mpr hd))).1 (by simpa using h)
          simpa using this
  · intro h
    have := h.scan (fun d c => (hr d c).mp) h95 []
    rw [List.append_nil] at this
    rw [this]; rfl

theorem Grouped.ne_nil {n : Nat} {t : PyStr} (h : Grouped rel base n t) : t ≠ [] := by
  cases h <;> simp

theorem Grouped.head {n : Nat} {t : PyStr} (h : Grouped rel base n t) : ∃ d c, t.head? = some c ∧ rel d c := by
  induction h with
  | one h => exact ⟨_, _, rfl, h⟩
  | more h hd ih => obtain ⟨d, c, h1, h2⟩ := ih; exact ⟨d, c, by rw [List.head?_append, h1]; rfl, h2⟩
  | group h hd ih => obtain ⟨d, c, h1, h2⟩ := ih; exact ⟨d, c, by rw [List.head?_append, h1]; rfl, h2⟩

theorem Grouped.last {n : Nat} {t : PyStr} (h : Grouped rel base n t) : ∃ d c, t.getLast? = some c ∧ rel d c := by
  cases h with
  | one h => exact ⟨_, _, rfl, h⟩
  | more h hd => exact ⟨_, _, by simp, hd⟩
  | group h hd => exact ⟨_, _, by simp, hd⟩

end

theorem Digits.grouped {n : Nat} {t : PyStr} (h : Digits n t) (hne : t ≠ []) : Grouped DigitOf 10 n t := by
  induction h with
  | nil => exact absurd rfl hne
  | @snoc n t h d hd ih =>
    have hd : DigitOf d (48 + d) := ⟨hd, 48, by decide, rfl⟩
    by_cases ht : t = []
    · subst ht
      have hn : n = 0 := by
        generalize hu : ([] : PyStr) = u at h
        cases h with
        | nil => rfl
        | snoc => simp at hu
      subst hn
      exact .one (by simpa using hd)
    · exact (ih ht).more hd

/-! ## Integers -/

theorem digit_not_space {d c : Nat} (h : DigitOf d c) : numSpace c = false := by
  cases hs : numSpace c with
  | false => rfl
  | true =>
    have h1 := (numSpace_iff c).mp hs
    have h2 := (unicodeDigit_iff d c).mp h
    have : ∀ c ∈ [9, 10, 11, 12, 13, 32, 0x85, 0xA0, 0x1680, 0x2000, 0x2001, 0x2002, 0x2003, 0x2004, 0x2005, 0x2006, 0x2007,
        0x2008, 0x2009, 0x200A, 0x2028, 0x2029, 0x202F, 0x205F, 0x3000], unicodeDigit c = none := by decide +kernel
    rw [this c h1] at h2
    cases h2

theorem signedOf_iff (scan : PyStr → Option Nat) (h43 : ∀ u, scan (43 :: u) = none) (h45 : ∀ u, scan (45 :: u) = none)
    (t : PyStr) (v : Int) : signedOf scan t = some v ↔
      ∃ u n, scan u = some n ∧ ((v = n ∧ (t = u ∨ t = 43 :: u)) ∨ (v = -(n : Int) ∧ t = 45 :: u)) := by
  constructor
  · intro h
    unfold signedOf at h
    split at h
    · obtain ⟨n, h1, h2⟩ := Option.map_eq_some_iff.mp h
      exact ⟨_, n, h1, .inr ⟨h2.symm, rfl⟩⟩
    · obtain ⟨n, h1, h2⟩ := Option.map_eq_some_iff.mp h
      exact ⟨_, n, h1, .inl ⟨h2.symm, .inr rfl⟩⟩
    · obtain ⟨n, h1, h2⟩ := Option.map_eq_some_iff.mp h
      exact ⟨_, n, h1, .inl ⟨h2.symm, .inl rfl⟩⟩
  · rintro ⟨u, n, h, ⟨rfl, rfl | rfl⟩ | ⟨rfl, rfl⟩⟩
    · unfold signedOf
      split
      · rw [h45] at h; cases h
      · rw [h43] at h; cases h
      · rw [h]; rfl
    · show (scan u).map _ = _; rw [h]; rfl
    · show (scan u).map _ = _; rw [h]; rfl

theorem intOfText_iff (t : PyStr) (v : Int) : intOfText t = .ok v ↔ IntegerText v t := by
  have hg : ∀ u n, scanGroups unicodeDigit 10 false 0 u = some n ↔ Grouped DigitOf 10 n u :=
    fun u n => scanGroups_iff unicodeDigit_iff (by decide +kernel) u n
  have hs := signedOf_iff (scanGroups unicodeDigit 10 false 0)
    (fun u => by rw [scanGroups]; simp [show unicodeDigit 43 = none by decide +kernel])
    (fun u => by rw [scanGroups]; simp [show unicodeDigit 45 = none by decide +kernel])
  have hi : intOfText t = .ok v ↔ signedOf (scanGroups unicodeDigit 10 false 0) (stripBy numSpace t) = some v := by
    unfold intOfText
    cases signedOf (scanGroups unicodeDigit 10 false 0) (stripBy numSpace t) <;> simp
  rw [hi, hs]
  constructor
  · rintro ⟨u, n, h1, h2⟩
    obtain ⟨l, r, h3, hl, hr⟩ := stripBy_split numSpace t
    refine ⟨l, r, n, u, fun c hc => (numSpace_iff c).mp (hl c hc), fun c hc => (numSpace_iff c).mp (hr c hc), (hg u n).mp h1, ?_⟩
    rcases h2 with ⟨hv, h2 | h2⟩ | ⟨hv, h2⟩
    · exact .inl ⟨hv, .inl (by rw [h2] at h3; exact h3)⟩
    · exact .inl ⟨hv, .inr (by rw [h2] at h3; exact h3)⟩
    · exact .inr ⟨hv, by rw [h2] at h3; exact h3⟩
  · rintro ⟨l, r, n, u, hl, hr, hu, h⟩
    refine ⟨u, n, (hg u n).mpr hu, ?_⟩
    obtain ⟨d, c, hc, hd⟩ := hu.head
    obtain ⟨d', c', hc', hd'⟩ := hu.last
    have hl : ∀ c ∈ l, numSpace c = true := fun c hc => (numSpace_iff c).mpr (hl c hc)
    have hr : ∀ c ∈ r, numSpace c = true := fun c hc => (numSpace_iff c).mpr (hr c hc)
    have hlast : ∀ sg c, (sg :: u).getLast? = some c → numSpace c = false := by
      intro sg x hx
      rw [List.getLast?_cons, hc'] at hx
      cases hx; exact digit_not_space hd'
    rcases h with ⟨hv, rfl | rfl⟩ | ⟨hv, rfl⟩
    · refine .inl ⟨hv, .inl ?_⟩
      exact stripBy_eq _ _ _ _ hl hr (fun x hx => by rw [hc] at hx; cases hx; exact digit_not_space hd)
        (fun x hx => by rw [hc'] at hx; cases hx; exact digit_not_space hd')
    · refine .inl ⟨hv, .inr ?_⟩
      exact stripBy_eq _ _ (43 :: u) _ hl hr (fun x hx => by cases hx; decide) (hlast 43)
    · refine .inr ⟨hv, ?_⟩
      exact stripBy_eq _ _ (45 :: u) _ hl hr (fun x hx => by cases hx; decide) (hlast 45)

theorem intOfText_error {t : PyStr} {e : Err} (h : intOfText t = .error e) : e = .valueError := by
  unfold intOfText at h
  split at h <;> cases h
  rfl

theorem IntegerText.ne_nil {v : Int} {t : PyStr} (h : IntegerText v t) : t ≠ [] := by
  obtain ⟨l, r, n, u, _, _, hu, ⟨_, rfl | rfl⟩ | ⟨_, rfl⟩⟩ := h
  · have := hu.ne_nil; simp [this]
  · simp
  · simp

end Verif
