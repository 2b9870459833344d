import Verif.Proof.Floats

/-! # Reading floats: the nearest double (lemmas for C83) -/

namespace Verif

theorem roundedQuot_cases (n d : Nat) (hd : 0 < d) : ∃ q r, n = q * d + r ∧ r < d ∧
    ((roundedQuot n d = q ∧ (2 * r < d ∨ (2 * r = d ∧ q % 2 = 0))) ∨
     (roundedQuot n d = q + 1 ∧ (2 * r > d ∨ (2 * r = d ∧ q % 2 = 1)))) := by
  refine ⟨n / d, n % d, (Nat.div_add_mod' n d).symm, Nat.mod_lt _ hd, ?_⟩
  unfold roundedQuot
  by_cases h1 : 2 * (n % d) > d
  · rw [if_pos h1]; exact .inr ⟨rfl, .inl h1⟩
  · rw [if_neg h1]
    by_cases h2 : 2 * (n % d) = d
    · rw [if_pos h2]
      rcases Nat.mod_two_eq_zero_or_one (n / d) with h | h
      · rw [h]; exact .inl ⟨rfl, .inr ⟨h2, rfl⟩⟩
      · rw [h]; exact .inr ⟨rfl, .inr ⟨h2, rfl⟩⟩
    · rw [if_neg h2]; exact .inl ⟨rfl, .inl (by omega)⟩

theorem roundedQuot_nearest {n d : Nat} (hd : 0 < d) (m : Nat) (hm : m ≠ roundedQuot n d) :
    apart n (roundedQuot n d * d) < apart n (m * d) ∨
    (apart n (roundedQuot n d * d) = apart n (m * d) ∧ apart (roundedQuot n d) m = 1 ∧ roundedQuot n d % 2 = 0) := by
  obtain ⟨q, r, hn, hr, h⟩ := roundedQuot_cases n d hd
  have hmul : m < q ∧ m * d + d ≤ q * d ∨ m = q ∨ m = q + 1 ∨ q + 1 < m ∧ q * d + d + d ≤ m * d := by
    rcases Nat.lt_or_ge m q with hlt | hge
    · left
      have := Nat.mul_le_mul_right d (show m + 1 ≤ q from hlt)
      rw [Nat.succ_mul] at this
      exact ⟨hlt, this⟩
    · rcases Nat.lt_or_ge (q + 1) m with hlt | hle
      · right; right; right
        have := Nat.mul_le_mul_right d (show q + 1 + 1 ≤ m from hlt)
        rw [Nat.succ_mul, Nat.succ_mul] at this
        exact ⟨hlt, this⟩
      · omega
  unfold apart
  rcases h with ⟨hq, h⟩ | ⟨hq, h⟩
  · rw [hq] at hm ⊢
    rcases hmul with ⟨hlt, hle⟩ | rfl | rfl | ⟨hlt, hle⟩
    · omega
    · exact absurd rfl hm
    · rw [Nat.succ_mul]
      generalize q * d = p at *
      omega
    · omega
  · rw [hq] at hm ⊢
    rw [Nat.succ_mul]
    rcases hmul with ⟨hlt, hle⟩ | rfl | rfl | ⟨hlt, hle⟩
    · omega
    · generalize m * d = p at *
      omega
    · exact absurd rfl hm
    · omega

theorem roundedQuot_le {n d b : Nat} (h : n < d * b) : roundedQuot n d ≤ b := by
  have hd : 0 < d := Nat.pos_of_ne_zero (by rintro rfl; omega)
  obtain ⟨q, r, hn, hr, h'⟩ := roundedQuot_cases n d hd
  have : q < b := by
    apply Nat.lt_of_mul_lt_mul_right (a := d)
    rw [Nat.mul_comm b]
    omega
  omega

theorem two_pow_le {a b : Nat} (h : a ≤ b) : 2 ^ a ≤ 2 ^ b := Nat.pow_le_pow_right (by omega) h

/-- The largest shift is that of the largest double. -/
theorem limit_eq : unitsLimit = 2 ^ 53 * 2 ^ 2045 := by
  unfold unitsLimit; exact Nat.pow_add 2 53 2045

theorem roundedAt_double {n d i u : Nat} (hs : shiftFor n d = some i) (h : roundedAt n d i = some u) :
    IsDouble u ∧ u = roundedQuot n (d * 2 ^ i) * 2 ^ i := by
  obtain ⟨h1, h2, _⟩ := shiftFor_some hs
  unfold roundedAt at h
  split at h
  · rename_i hlim
    cases h
    refine ⟨?_, rfl⟩
    have hle : roundedQuot n (d * 2 ^ i) ≤ 2 ^ 53 := roundedQuot_le (by
      rwa [Nat.mul_assoc, ← Nat.pow_add, Nat.add_comm i])
    rcases Nat.lt_or_eq_of_le hle with hlt | heq
    · exact ⟨_, i, hlt, by omega, rfl⟩
    · rw [heq] at hlim ⊢
      refine ⟨2 ^ 52, i + 1, by decide, ?_, ?_⟩
      · rw [limit_eq] at hlim
        have := Nat.lt_of_mul_lt_mul_left hlim
        have := (Nat.pow_lt_pow_iff_right (by omega : 1 < 2)).mp this
        omega
      · rw [Nat.pow_succ 2 i, Nat.mul_comm (2 ^ i) 2, ← Nat.mul_assoc]
  · cases h

theorem apart_mul (a b k : Nat) : apart (a * k) (b * k) = apart a b * k := by
  unfold apart
  rw [Nat.add_mul, Nat.sub_mul, Nat.sub_mul]

theorem roundedAt_nearest {n d i u : Nat} (hd : 0 < d) (hs : shiftFor n d = some i) (h : roundedAt n d i = some u) {v : Nat}
    (hv : IsDouble v) (hne : v ≠ u) :
    apart n (u * d) < apart n (v * d) ∨ (apart n (u * d) = apart n (v * d) ∧ 2 * apart u v ∣ u) := by
  obtain ⟨_, rfl⟩ := roundedAt_double hs h
  obtain ⟨_, _, hmin⟩ := shiftFor_some hs
  have hD : 0 < d * 2 ^ i := Nat.mul_pos hd (two_pow_pos i)
  have key := fun m => roundedQuot_nearest (n := n) hD m
  generalize roundedQuot n (d * 2 ^ i) = q at key hne h
  have swap : ∀ m, m * 2 ^ i * d = m * (d * 2 ^ i) := fun m => by rw [Nat.mul_assoc, Nat.mul_comm d]
  obtain ⟨m, e, hm, he, rfl⟩ := hv
  rcases Nat.lt_or_ge e i with hlt | hge
  · -- the double is below all of the rounded ones
    left
    have h52 := hmin (i - 1) (by omega)
    rw [show 53 + (i - 1) = 52 + i by omega] at h52
    have hv : m * 2 ^ e < 2 ^ (52 + i) := by
      have h1 : m * 2 ^ e < 2 ^ 53 * 2 ^ e := Nat.mul_lt_mul_of_pos_right hm (two_pow_pos e)
      rw [← Nat.pow_add] at h1
      exact Nat.lt_of_lt_of_le h1 (two_pow_le (by omega))
    have hvd : m * 2 ^ e * d < 2 ^ (52 + i) * d := Nat.mul_lt_mul_of_pos_right hv hd
    have hw : apart n (q * 2 ^ i * d) ≤ apart n (2 ^ (52 + i) * d) := by
      have hp : 2 ^ (52 + i) * d = 2 ^ 52 * (d * 2 ^ i) := by rw [Nat.pow_add, swap]
      rw [swap, hp]
      by_cases hq : 2 ^ 52 = q
      · rw [hq]; exact Nat.le_refl _
      · rcases key (2 ^ 52) hq with h | h
        · exact Nat.le_of_lt h
        · exact Nat.le_of_eq h.1
    refine Nat.lt_of_le_of_lt hw ?_
    rw [Nat.mul_comm d] at h52
    unfold apart
    omega
  · have hm2 : m * 2 ^ e = m * 2 ^ (e - i) * 2 ^ i := by rw [Nat.mul_assoc, ← Nat.pow_add, Nat.sub_add_cancel hge]
    rw [hm2] at hne ⊢
    generalize m * 2 ^ (e - i) = m' at hne
    rw [swap, swap]
    rcases key m' (by rintro rfl; exact hne rfl) with h | ⟨h1, h2, h3⟩
    · exact .inl h
    · refine .inr ⟨h1, ?_⟩
      rw [apart_mul, h2, Nat.one_mul]
      exact Nat.mul_dvd_mul_right (Nat.dvd_of_mod_eq_zero h3) _

theorem nearestUnits_nearest {num den u : Nat} (hd : 0 < den) (h : nearestUnits num den = some u) : NearestDouble num den u := by
  unfold nearestUnits at h
  cases hs : shiftFor (num * unitsPerOne) den with
  | none => rw [hs] at h; cases h
  | some i =>
    rw [hs, Option.bind_some] at h
    refine ⟨(roundedAt_double hs h).1, fun v hv hne => ?_⟩
    have := roundedAt_nearest hd hs h hv hne
    unfold unitsPerOne at this
    exact this

theorem last_half {n d : Nat} (hd : 0 < d) (i : Nat) (hi : i = 2045) (hn : n < d * 2 ^ (53 + i)) :
    2 ^ 53 ≤ roundedQuot n (d * 2 ^ i) ↔ d * ((2 ^ 54 - 1) * 2 ^ (i - 1)) ≤ n := by
  have hD : 0 < d * 2 ^ i := Nat.mul_pos hd (two_pow_pos i)
  obtain ⟨q, r, hq, hr, h⟩ := roundedQuot_cases n (d * 2 ^ i) hD
  have e1 : d * 2 ^ i = 2 * (d * 2 ^ (i - 1)) := by
    rw [show 2 ^ i = 2 ^ (i - 1 + 1) by rw [Nat.sub_add_cancel (by omega)], Nat.pow_succ, Nat.mul_comm (2 ^ (i - 1)), Nat.mul_left_comm]
  have e2 : d * ((2 ^ 54 - 1) * 2 ^ (i - 1)) = (2 ^ 54 - 1) * (d * 2 ^ (i - 1)) := Nat.mul_left_comm _ _ _
  have e3 : d * 2 ^ (53 + i) = 2 ^ 54 * (d * 2 ^ (i - 1)) := by
    rw [show 53 + i = 54 + (i - 1) by omega, Nat.pow_add, Nat.mul_left_comm]
  rw [e1] at hq hr h hD ⊢
  rw [e2]
  rw [e3] at hn
  generalize d * 2 ^ (i - 1) = x at *
  have hqx : q * (2 * x) = 2 * (q * x) := Nat.mul_left_comm _ _ _
  rw [hqx] at hq
  have hq53 : q < 2 ^ 53 := by
    apply Nat.lt_of_mul_lt_mul_right (a := x)
    omega
  constructor
  · intro hle
    have : q = 2 ^ 53 - 1 := by omega
    subst this
    omega
  · intro hle
    have : q = 2 ^ 53 - 1 := by
      apply Nat.le_antisymm (by omega)
      apply Nat.le_of_lt_succ
      apply Nat.lt_of_mul_lt_mul_right (a := x)
      have := Nat.succ_mul q x
      omega
    subst this
    omega

theorem units_split : unitsPerOne = 2 ^ 970 * 2 ^ 104 := by
  unfold unitsPerOne; exact Nat.pow_add 2 970 104

theorem large_units {num den : Nat} : TooLarge num den ↔ den * ((2 ^ 54 - 1) * 2 ^ (2045 - 1)) ≤ num * unitsPerOne := by
  have h : 2 ^ (2045 - 1) = 2 ^ 970 * unitsPerOne := by
    unfold unitsPerOne; exact Nat.pow_add 2 970 1074
  unfold TooLarge
  rw [h, ← Nat.mul_assoc (2 ^ 54 - 1), ← Nat.mul_assoc den ((2 ^ 54 - 1) * 2 ^ 970) unitsPerOne, Nat.mul_le_mul_right_iff unitsPerOne_pos]

theorem nearestUnits_none {num den : Nat} (hd : 0 < den) : nearestUnits num den = none ↔ TooLarge num den := by
  rw [large_units]
  unfold nearestUnits
  generalize num * unitsPerOne = n
  cases hs : shiftFor n den with
  | none =>
    simp only [Option.bind_none, true_iff]
    rcases Nat.lt_or_ge n (den * 2 ^ (53 + 2045)) with hlt | hge
    · obtain ⟨i, _, hi⟩ := shiftFor_exists (by omega) hlt
      rw [hs] at hi; cases hi
    · refine Nat.le_trans (Nat.mul_le_mul_left den ?_) hge
      rw [show 53 + 2045 = 54 + (2045 - 1) from rfl, Nat.pow_add 2 54]
      exact Nat.mul_le_mul_right _ (by decide)
  | some i =>
    obtain ⟨h1, h2, h3⟩ := shiftFor_some hs
    rw [Option.bind_some]
    have hle : roundedQuot n (den * 2 ^ i) ≤ 2 ^ 53 := roundedQuot_le (by
      rwa [Nat.mul_assoc, ← Nat.pow_add, Nat.add_comm i])
    have hnone : roundedAt n den i = none ↔ i = 2045 ∧ 2 ^ 53 ≤ roundedQuot n (den * 2 ^ i) := by
      unfold roundedAt
      rw [limit_eq]
      split
      · rename_i hlt
        simp only [reduceCtorEq, false_iff, not_and]
        rintro rfl hge
        exact absurd (Nat.mul_le_mul_right (2 ^ 2045) hge) (by omega)
      · rename_i hge
        simp only [true_iff]
        have hge := Nat.le_of_not_lt hge
        have hi : i = 2045 := by
          apply Nat.le_antisymm (by omega)
          have h4 : 2 ^ 53 * 2 ^ 2045 ≤ 2 ^ 53 * 2 ^ i := Nat.le_trans hge (Nat.mul_le_mul_right _ hle)
          have h5 := Nat.le_of_mul_le_mul_left h4 (two_pow_pos 53)
          exact (Nat.pow_le_pow_iff_right (by omega : 1 < 2)).mp h5
        refine ⟨hi, ?_⟩
        rw [← hi] at hge
        exact Nat.le_of_mul_le_mul_right hge (two_pow_pos i)
    rw [hnone]
    by_cases hi : i = 2045
    · rw [← hi, ← last_half hd i hi h1]
      simp
    · simp only [hi, false_and, false_iff, Nat.not_le]
      refine Nat.lt_of_lt_of_le h1 (Nat.mul_le_mul_left den ?_)
      refine Nat.le_trans (two_pow_le (show 53 + i ≤ 53 + (2045 - 1) by omega)) ?_
      rw [Nat.pow_add 2 53]
      exact Nat.mul_le_mul_right _ (by decide)

theorem nearestDecimal_units (c : Nat) (q : Int) : nearestDecimal c q = nearestUnits (numerator c q) (denominator q) := by
  unfold nearestDecimal numerator denominator
  by_cases h : 0 ≤ q
  · rw [if_pos h, show (-q).toNat = 0 by omega, Nat.pow_zero]
  · rw [if_neg h, show q.toNat = 0 by omega, Nat.pow_zero, Nat.mul_one]

/-! ## Texts of numbers -/

theorem Digits.all {n : Nat} {s : PyStr} (h : Digits n s) : AllDigits s ∧ numOf s = n := by
  induction h with
  | nil => exact ⟨nofun, rfl⟩
  | snoc h hd hd2 ih =>
    constructor
    · intro c hc
      rcases List.mem_append.mp hc with hc | hc
      · exact ih.1 c hc
      · rw [List.mem_singleton.mp hc]; omega
    · rw [numOf_append, ih.2]
      simp [numOf, digitsVal]
      omega

theorem ExponentText.exp {e : Int} {x : PyStr} (h : ExponentText e x) : ExpText e (lowerAscii x) ∧ ∀ c ∈ x, NumChar c := by
  have low : ∀ {c : Nat} {t : PyStr}, c = 101 ∨ c = 69 → lowerAscii (c :: t) = 101 :: lowerAscii t := by
    rintro c t (rfl | rfl) <;> rfl
  cases h with
  | none => exact ⟨.none, nofun⟩
  | plain hc h hx =>
    obtain ⟨ha, rfl⟩ := h.all
    rw [low hc, ha.lower]
    refine ⟨.plain ha hx, fun c hm => ?_⟩
    rcases List.mem_cons.mp hm with rfl | hm
    · unfold NumChar; omega
    · exact ha.num c hm
  | plus hc h hx =>
    obtain ⟨ha, rfl⟩ := h.all
    rw [low hc, show ∀ t : PyStr, lowerAscii (43 :: t) = 43 :: lowerAscii t from fun _ => rfl, ha.lower]
    refine ⟨.plus ha hx, fun c hm => ?_⟩
    rcases List.mem_cons.mp hm with rfl | hm
    · unfold NumChar; omega
    · rcases List.mem_cons.mp hm with rfl | hm
      · unfold NumChar; omega
      · exact ha.num c hm
  | minus hc h hx =>
    obtain ⟨ha, rfl⟩ := h.all
    rw [low hc, show ∀ t : PyStr, lowerAscii (45 :: t) = 45 :: lowerAscii t from fun _ => rfl, ha.lower]
    refine ⟨.minus ha hx, fun c hm => ?_⟩
    rcases List.mem_cons.mp hm with rfl | hm
    · unfold NumChar; omega
    · rcases List.mem_cons.mp hm with rfl | hm
      · unfold NumChar; omega
      · exact ha.num c hm

theorem NumberText.scan {n : Nat} {e : Int} {t : PyStr} (h : NumberText n e t) :
    scanNumber (lowerAscii t) = some (n, e) ∧ (∀ c ∈ t, NumChar c) ∧
    ∃ c, (lowerAscii t).head? = some c ∧ (48 ≤ c ∧ c ≤ 57 ∨ c = 46) := by
  cases h with
  | @whole w x _ h hw hx =>
    obtain ⟨ha, rfl⟩ := h.all
    obtain ⟨he, hn⟩ := hx.exp
    refine ⟨?_, ?_, ?_⟩
    · rw [lower_append, ha.lower, scan_whole ha hw he]
    · intro c hc
      rcases List.mem_append.mp hc with hc | hc
      · exact ha.num c hc
      · exact hn c hc
    · obtain ⟨c, cs, rfl⟩ := List.exists_cons_of_ne_nil hw
      rw [lower_append, ha.lower]
      exact ⟨c, rfl, .inl (ha c (by simp))⟩
  | @point w f x _ h hne hx =>
    obtain ⟨ha, rfl⟩ := h.all
    obtain ⟨he, hn⟩ := hx.exp
    have hw : AllDigits w := fun c hc => ha c (by simp [hc])
    have hf : AllDigits f := fun c hc => ha c (by simp [hc])
    have hl : lowerAscii (w ++ 46 :: (f ++ x)) = w ++ 46 :: (f ++ lowerAscii x) := by
      rw [lower_append, hw.lower, show lowerAscii (46 :: (f ++ x)) = 46 :: lowerAscii (f ++ x) from rfl, lower_append, hf.lower]
    rw [hl]
    refine ⟨scan_point hw hf hne he, ?_, ?_⟩
    · intro c hc
      simp only [List.mem_append, List.mem_cons] at hc
      rcases hc with hc | rfl | hc | hc
      · exact hw.num c hc
      · unfold NumChar; omega
      · exact hf.num c hc
      · exact hn c hc
    · cases w with
      | nil => exact ⟨46, rfl, .inr rfl⟩
      | cons c w => exact ⟨c, rfl, .inl (hw c (by simp))⟩

theorem lower_id_upper {t : PyStr} (hn : ∀ c ∈ t, NumChar c) {neg : Bool} : ∀ c ∈ signText neg t, NumChar c := signText_num hn

theorem head_decimal {neg : Bool} {s : PyStr} (h : ∃ c, s.head? = some c ∧ (48 ≤ c ∧ c ≤ 57 ∨ c = 46)) : decimalOfLower neg s =
    (scanNumber s).map fun x : Nat × Int => .finite neg x.1 x.2 := by
  obtain ⟨c, hc, h1⟩ := h
  cases s with
  | nil => cases hc
  | cons d s =>
    have hd : d = c := by simpa using hc
    subst hd
    unfold decimalOfLower
    rw [if_neg (by simp only [List.cons.injEq, not_or, not_and]; omega), if_neg (by simp [List.isPrefixOf]; omega),
      if_neg (by simp [List.isPrefixOf]; omega)]

theorem head_float {neg : Bool} {s : PyStr} (h : ∃ c, s.head? = some c ∧ (48 ≤ c ∧ c ≤ 57 ∨ c = 46)) : floatOfLower neg s =
    (scanNumber s).map fun x : Nat × Int =>
    match nearestDecimal x.1 x.2 with
    | some u => .finite neg u
    | none => .infinity neg := by
  obtain ⟨c, hc, h1⟩ := h
  cases s with
  | nil => cases hc
  | cons d s =>
    have hd : d = c := by simpa using hc
    subst hd
    unfold floatOfLower
    rw [if_neg (by simp only [List.cons.injEq, not_or, not_and]; omega), if_neg (by simp; omega)]
    rfl

/-- A sign in a text of a number. -/
theorem sign_read {neg : Bool} {t u : PyStr} (hu : u = t ∧ neg = false ∨ u = 43 :: t ∧ neg = false ∨ u = 45 :: t ∧ neg = true)
    (hh : ∃ c, (lowerAscii t).head? = some c ∧ (48 ≤ c ∧ c ≤ 57 ∨ c = 46)) :
    splitSign (lowerAscii u) = (neg, lowerAscii t) := by
  rcases hu with ⟨rfl, rfl⟩ | ⟨rfl, rfl⟩ | ⟨rfl, rfl⟩
  · exact split_sign false (lowerAscii u) fun c hc => by
      obtain ⟨d, hd, hr⟩ := hh
      have : some d = some c := hd.symm.trans hc
      cases this
      omega
  · rfl
  · rfl

theorem sign_num {neg : Bool} {t u : PyStr} (hu : u = t ∧ neg = false ∨ u = 43 :: t ∧ neg = false ∨ u = 45 :: t ∧ neg = true)
    (hn : ∀ c ∈ t, NumChar c) : ∀ c ∈ u, NumChar c := by
  rcases hu with ⟨rfl, rfl⟩ | ⟨rfl, rfl⟩ | ⟨rfl, rfl⟩
  · exact hn
  all_goals
    intro c hc
    rcases List.mem_cons.mp hc with rfl | hc
    · unfold NumChar; omega
    · exact hn c hc

theorem decimal_read {neg : Bool} {n : Nat} {e : Int} {t u : PyStr} (h : NumberText n e t)
    (hu : u = t ∧ neg = false ∨ u = 43 :: t ∧ neg = false ∨ u = 45 :: t ∧ neg = true) : decimalOfText u = .ok (.finite neg n e) := by
  obtain ⟨hs, hn, hh⟩ := h.scan
  have hu' := sign_num hu hn
  have h1 : stripBy strSpace u = u := stripBy_id _ _
    (fun c hc => (numChar_space (hu' c (List.mem_of_head? hc))).2) (fun c hc => (numChar_space (hu' c (List.mem_of_getLast? hc))).2)
  have h2 : u.filter (· ≠ 95) = u := by
    rw [List.filter_eq_self]
    intro c hc
    have := hu' c hc
    unfold NumChar at this
    simpa using this.2.2
  unfold decimalOfText
  rw [h1, map_ascii hu', h2]
  dsimp only
  rw [sign_read hu hh]
  dsimp only
  rw [head_decimal hh, hs]
  rfl

theorem float_read {neg : Bool} {n : Nat} {e : Int} {t u : PyStr} (h : NumberText n e t)
    (hu : u = t ∧ neg = false ∨ u = 43 :: t ∧ neg = false ∨ u = 45 :: t ∧ neg = true) :
    floatOfText u = .ok (match nearestDecimal n e with | some v => .finite neg v | none => .infinity neg) := by
  obtain ⟨hs, hn, hh⟩ := h.scan
  have hu' := sign_num hu hn
  have h1 : stripBy numSpace u = u := stripBy_id _ _
    (fun c hc => (numChar_space (hu' c (List.mem_of_head? hc))).1) (fun c hc => (numChar_space (hu' c (List.mem_of_getLast? hc))).1)
  have hl : ∀ c ∈ lowerAscii u, c ≠ 95 := by
    intro c hc
    obtain ⟨d, hd, rfl⟩ := List.mem_map.mp hc
    have := hu' d hd
    unfold NumChar at this
    split <;> omega
  unfold floatOfText
  rw [map_ascii hu', h1, dropUnderscores_none hl 0 (by omega)]
  dsimp only
  rw [sign_read hu hh]
  dsimp only
  rw [head_float hh, hs]
  rfl

end Verif
