import Verif.Proof.FloatsRead

/-! # The form of decimals: lemmas for C82 -/

namespace Verif

theorem natStr_upper (n : Nat) : upperAscii (natStr n) = natStr n := (natStr_allDigits n).upper

theorem plain_chars {neg : Bool} {n k : Nat} {t : PyStr} (h : PlainDecimal neg n k t) : ∀ c ∈ t, c < 58 := by
  induction h with
  | whole h _ => intro c hc; have := h.all.1 c hc; omega
  | point h _ _ =>
    intro c hc
    have ha := h.all.1
    simp only [List.mem_append, List.mem_cons] at hc
    rcases hc with hc | rfl | hc
    · have := ha c (by simp [hc]); omega
    · omega
    · have := ha c (by simp [hc]); omega
  | minus h ih =>
    intro c hc
    rcases List.mem_cons.mp hc with rfl | hc
    · omega
    · exact ih c hc

theorem plain_digits {coeff : Nat} {exp : Int} (h : exp ≤ 0 ∧ exp + ((natStr coeff).length : Int) > -6) :
    PlainDecimal false coeff (-exp).toNat (upperAscii (decimalDigits coeff exp)) := by
  have hd := natStr_allDigits coeff
  have hne := natStr_ne_nil coeff
  have hl : 0 < (natStr coeff).length := List.length_pos_iff.mpr hne
  have hv := numOf_natStr coeff
  unfold decimalDigits
  generalize natStr coeff = ds at hd hne hl hv h
  dsimp only
  simp only [if_pos h, ↓reduceIte]
  by_cases h0 : exp + (ds.length : Int) ≤ 0
  · rw [if_pos h0]
    have hf : AllDigits (List.replicate (-(exp + (ds.length : Int))).toNat 48 ++ ds) := (allDigits_zeros _).append hd
    have h48 : AllDigits [48] := by intro c hc; simp at hc; omega
    have hw := (h48.append hf).digits
    rw [← List.append_assoc, numOf_append, hv, numOf_append, numOf_zeros, show numOf [48] = 0 from rfl, Nat.zero_mul, Nat.add_zero,
      Nat.zero_mul, Nat.zero_add, List.append_assoc] at hw
    have := PlainDecimal.point hw (by simp) (by simp [hne])
    rw [show ([48, 46] ++ List.replicate (-(exp + (ds.length : Int))).toNat 48 ++ ds : List Nat) =
      [48] ++ 46 :: (List.replicate (-(exp + (ds.length : Int))).toNat 48 ++ ds) by simp, upper_append, h48.upper,
      show ∀ s : PyStr, upperAscii (46 :: s) = 46 :: upperAscii s from fun _ => rfl, hf.upper]
    rw [show (-exp).toNat = (List.replicate (-(exp + (ds.length : Int))).toNat 48 ++ ds).length by
      rw [List.length_append, List.length_replicate]; omega]
    exact this
  · rw [if_neg h0]
    by_cases h1 : exp + (ds.length : Int) ≥ ds.length
    · rw [if_pos h1, show (exp + (ds.length : Int) - ds.length).toNat = 0 by omega, show (-exp).toNat = 0 by omega,
        List.replicate_zero, List.append_nil, hd.upper]
      have := PlainDecimal.whole hd.digits hne
      rwa [hv] at this
    · rw [if_neg h1, upper_append, show ∀ s : PyStr, upperAscii (46 :: s) = 46 :: upperAscii s from fun _ => rfl,
        (hd.take _).upper, (hd.drop _).upper]
      have hw := hd.digits
      rw [hv, ← List.take_append_drop (exp + (ds.length : Int)).toNat ds] at hw
      have := PlainDecimal.point hw (by simp [hne]; omega)
        (fun h => by have := congrArg List.length h; rw [List.length_drop, List.length_nil] at this; omega)
      rw [show (-exp).toNat = (ds.drop (exp + (ds.length : Int)).toNat).length by rw [List.length_drop]; omega]
      exact this

theorem exponent_letter {coeff : Nat} {exp : Int} (h : ¬ (exp ≤ 0 ∧ exp + ((natStr coeff).length : Int) > -6)) :
    69 ∈ upperAscii (decimalDigits coeff exp) := by
  have hl : 0 < (natStr coeff).length := List.length_pos_iff.mpr (natStr_ne_nil coeff)
  unfold decimalDigits
  dsimp only
  simp only [if_neg h]
  rw [if_neg (show ¬ exp + ((natStr coeff).length : Int) = 1 by omega)]
  exact List.mem_map.mpr ⟨69, by simp, rfl⟩

theorem text_sign (neg : Bool) (s : PyStr) : upperAscii (signText neg s) = signText neg (upperAscii s) := by
  cases neg <;> rfl

theorem decimal_plain_iff (d : PyDecimal) : (∃ neg n k, PlainDecimal neg n k d.text) ↔
    ∃ neg coeff exp, d = .finite neg coeff exp ∧ exp ≤ 0 ∧ exp + ((natStr coeff).length : Int) > -6 := by
  constructor
  · rintro ⟨neg, n, k, h⟩
    have hc := plain_chars h
    cases d with
    | finite neg' coeff exp =>
      refine ⟨neg', coeff, exp, rfl, Decidable.byContradiction fun hn => ?_⟩
      have h69 := exponent_letter hn
      have := hc 69 (by
        unfold PyDecimal.text PyDecimal.str
        rw [text_sign]
        cases neg' with
        | true => exact List.mem_cons_of_mem _ h69
        | false => exact h69)
      omega
    | infinity neg' =>
      have := hc 73 (by cases neg' <;> decide)
      omega
    | nan neg' sg p =>
      have := hc 65 (by
        unfold PyDecimal.text PyDecimal.str
        rw [text_sign, upper_append]
        cases neg' <;> cases sg <;> simp [signText, upperAscii])
      omega
  · rintro ⟨neg, coeff, exp, rfl, h⟩
    have := plain_digits h
    refine ⟨neg, coeff, (-exp).toNat, ?_⟩
    unfold PyDecimal.text PyDecimal.str
    rw [text_sign]
    cases neg with
    | false => exact this
    | true => exact .minus this

theorem PlainDecimal.number {neg : Bool} {n k : Nat} {t : PyStr} (h : PlainDecimal neg n k t) : ∃ b, NumberText n (-(k : Int)) b ∧
    (t = b ∧ neg = false ∨ t = 43 :: b ∧ neg = false ∨ t = 45 :: b ∧ neg = true) := by
  have pos : ∀ {t n k}, PlainDecimal false n k t → NumberText n (-(k : Int)) t := by
    intro t n k h
    cases h with
    | whole h hw =>
      have := NumberText.whole h hw .none
      rw [List.append_nil] at this
      exact this
    | @point _ w f h hw hf =>
      have := NumberText.point h (by simp [hw]) .none
      rw [List.append_nil, Int.zero_sub] at this
      exact this
  cases neg with
  | false => exact ⟨t, pos h, .inl ⟨rfl, rfl⟩⟩
  | true =>
    cases h with
    | minus h => exact ⟨_, pos h, .inr (.inr ⟨rfl, rfl⟩)⟩

/-! ## The digits of a number are determined -/

theorem Digits.bound {n : Nat} {t : PyStr} (h : Digits n t) : n < 10 ^ t.length := by
  induction h with
  | nil => decide
  | snoc h d hd ih => rw [List.length_append, List.length_singleton, Nat.pow_succ]; omega

theorem Digits.least {n : Nat} {t : PyStr} (h : Digits n t) (hne : t ≠ []) (h48 : t.head? ≠ some 48) : 10 ^ (t.length - 1) ≤ n := by
  induction h with
  | nil => exact absurd rfl hne
  | @snoc n t h d hd ih =>
    cases t with
    | nil =>
      simp only [List.nil_append, List.head?_cons, ne_eq, Option.some.injEq] at h48
      simp only [List.nil_append, List.length_singleton, Nat.sub_self, Nat.pow_zero]
      omega
    | cons c t =>
      have := ih (by simp) (by simpa using h48)
      simp only [List.length_cons, Nat.add_sub_cancel] at this
      simp only [List.length_append, List.length_cons, List.length_nil, Nat.add_sub_cancel, Nat.zero_add, Nat.pow_succ]
      omega

theorem Digits.unique {n : Nat} {t : PyStr} (h : Digits n t) : ∀ {u : PyStr}, Digits n u → t.length = u.length → t = u := by
  induction h with
  | nil =>
    intro u _ hl
    exact (List.length_eq_zero_iff.mp hl.symm).symm
  | @snoc n t h d hd ih =>
    intro u hu hl
    generalize hm : 10 * n + d = m at hu
    cases hu with
    | nil => simp at hl
    | @snoc n' t' h' d' hd' =>
      have h1 : n = n' := by omega
      have h2 : d = d' := by omega
      subst h1
      subst h2
      rw [ih h' (by simpa using hl)]

theorem decimal_unique {n : Nat} {t u : PyStr} (ht : Decimal n t) (hu : Decimal n u) : t = u := by
  obtain ⟨h1, h2, h3⟩ := ht
  obtain ⟨g1, g2, g3⟩ := hu
  have zero : ∀ {v : PyStr}, Digits n v → v ≠ [] → (v.head? = some 48 → v = [48]) → n = 0 → v = [48] := by
    intro v hv hne hz h0
    by_cases h48 : v.head? = some 48
    · exact hz h48
    · have := hv.least hne h48
      have := Nat.pow_pos (n := v.length - 1) (show 0 < 10 by omega)
      omega
  by_cases h0 : n = 0
  · rw [zero h1 h2 h3 h0, zero g1 g2 g3 h0]
  · have least : ∀ {v : PyStr}, Digits n v → v ≠ [] → (v.head? = some 48 → v = [48]) → 10 ^ (v.length - 1) ≤ n := by
      intro v hv hne hz
      refine hv.least hne fun h48 => ?_
      rw [hz h48] at hv
      exact h0 hv.all.2.symm
    have l1 := least h1 h2 h3
    have l2 := least g1 g2 g3
    have p1 := List.length_pos_iff.mpr h2
    have p2 := List.length_pos_iff.mpr g2
    have e1 := (Nat.pow_lt_pow_iff_right (by omega : 1 < 10)).mp (Nat.lt_of_le_of_lt l1 g1.bound)
    have e2 := (Nat.pow_lt_pow_iff_right (by omega : 1 < 10)).mp (Nat.lt_of_le_of_lt l2 h1.bound)
    exact h1.unique g1 (by omega)

/-- A number of many bits is no shorter one shifted. -/
theorem single_bound (x a b m : Nat) (h4 : x % 4 = 2) (hx : 2 ^ 25 ≤ x) (h : x * 2 ^ a = m * 2 ^ b) : 2 ^ 24 ≤ m := by
  rcases Nat.lt_or_ge a b with hab | hab
  · obtain ⟨k, rfl⟩ := Nat.exists_eq_add_of_lt hab
    rw [show a + k + 1 = k + 1 + a by omega, Nat.pow_add, ← Nat.mul_assoc] at h
    have h1 := Nat.eq_of_mul_eq_mul_right (two_pow_pos a) h
    cases k with
    | zero => omega
    | succ k =>
      rw [Nat.pow_succ, Nat.pow_succ, ← Nat.mul_assoc, ← Nat.mul_assoc] at h1
      omega
  · obtain ⟨k, rfl⟩ := Nat.exists_eq_add_of_le hab
    rw [Nat.add_comm b, Nat.pow_add, ← Nat.mul_assoc] at h
    have h1 := Nat.eq_of_mul_eq_mul_right (two_pow_pos b) h
    have := Nat.le_mul_of_pos_right x (two_pow_pos k)
    omega

/-! ## White space and other scripts -/

theorem stripBy_around (p : Nat → Bool) (l t r : PyStr) (hl : ∀ c ∈ l, p c = true) (hr : ∀ c ∈ r, p c = true) :
    stripBy p (l ++ t ++ r) = stripBy p t := by
  have key : ∀ (x : PyStr) (w : PyStr), (∀ c ∈ w, p c = true) →
      (w.reverse ++ x.reverse).dropWhile p = x.reverse.dropWhile p := fun x w hw => dropWhile_all p _ _ (by simpa using hw)
  unfold stripBy
  rw [List.append_assoc, dropWhile_all p l _ hl]
  obtain ⟨a, h1, h2, h3⟩ := dropWhile_split p t
  by_cases hx : t.dropWhile p = []
  · rw [hx, List.append_nil] at h1
    rw [hx, h1, dropWhile_all p a _ h2]
    have := dropWhile_all p r [] hr
    rw [List.append_nil] at this
    rw [this]
    rfl
  · have h4 : (t ++ r).dropWhile p = t.dropWhile p ++ r := by
      conv => lhs; rw [h1, List.append_assoc, dropWhile_all p a _ h2]
      rw [dropWhile_self]
      intro c hc
      cases hd : t.dropWhile p with
      | nil => exact absurd hd hx
      | cons y ys => rw [hd] at hc h3; exact h3 c (by simpa using hc)
    rw [h4, List.reverse_append, key _ _ hr]

theorem OtherScripts.snoc {t u : PyStr} (h : OtherScripts t u) {a b : Nat} (hab : OtherScripts [a] [b]) :
    OtherScripts (t ++ [a]) (u ++ [b]) := by
  induction h with
  | nil => exact hab
  | same c _ ih => exact .same c ih
  | digit hd _ ih => exact .digit hd ih

theorem OtherScripts.reverse {t u : PyStr} (h : OtherScripts t u) : OtherScripts t.reverse u.reverse := by
  induction h with
  | nil => exact .nil
  | same c _ ih => rw [List.reverse_cons, List.reverse_cons]; exact ih.snoc (.same c .nil)
  | digit hd _ ih => rw [List.reverse_cons, List.reverse_cons]; exact ih.snoc (.digit hd .nil)

theorem OtherScripts.dropWhile {p : Nat → Bool} (hp : ∀ d c, DigitOf d c → p c = false) {t u : PyStr} (h : OtherScripts t u) :
    OtherScripts (t.dropWhile p) (u.dropWhile p) := by
  induction h with
  | nil => exact .nil
  | same c h ih =>
    rw [List.dropWhile_cons, List.dropWhile_cons]
    split
    · exact ih
    · exact .same c h
  | @digit d c hd t u h ih =>
    have h1 : DigitOf d (48 + d) := ⟨hd.1, 48, by decide, rfl⟩
    rw [List.dropWhile_cons, List.dropWhile_cons, if_neg (by simp [hp _ _ h1]), if_neg (by simp [hp _ _ hd])]
    exact .digit hd h

theorem OtherScripts.strip {p : Nat → Bool} (hp : ∀ d c, DigitOf d c → p c = false) {t u : PyStr} (h : OtherScripts t u) :
    OtherScripts (stripBy p t) (stripBy p u) := ((h.dropWhile hp).reverse.dropWhile hp).reverse

theorem asciiOf_digit {d c : Nat} (h : DigitOf d c) : asciiOf c = 48 + d := by
  unfold asciiOf
  have h1 := (unicodeDigit_iff d c).mp h
  have h2 := digit_not_space h
  by_cases hc : c < 127
  · rw [if_pos hc]
    obtain ⟨_, z, hz, rfl⟩ := h
    have : ∀ z ∈ digitZeros, z < 127 → z = 48 := by decide +kernel
    have := this z hz (by omega)
    omega
  · rw [if_neg hc, h2, h1]
    rfl

theorem OtherScripts.ascii {t u : PyStr} (h : OtherScripts t u) : u.map asciiOf = t.map asciiOf := by
  induction h with
  | nil => rfl
  | same c _ ih => rw [List.map_cons, List.map_cons, ih]
  | @digit d c hd t u _ ih =>
    rw [List.map_cons, List.map_cons, ih, asciiOf_digit hd, asciiOf_digit (c := 48 + d) ⟨hd.1, 48, by decide, rfl⟩]

theorem digit_not_strSpace {d c : Nat} (h : DigitOf d c) : strSpace c = false := by
  unfold strSpace
  rw [digit_not_space h, Bool.false_or]
  obtain ⟨_, z, hz, rfl⟩ := h
  have : ∀ z ∈ digitZeros, 48 ≤ z := by decide +kernel
  have := this z hz
  simp
  omega

theorem asciiOf_white {c : Nat} (h : White c) : numSpace (asciiOf c) = true := by
  have := (numSpace_iff c).mpr h
  unfold asciiOf
  by_cases h1 : c < 127
  · rw [if_pos h1]; exact this
  · rw [if_neg h1, if_pos this]; rfl

theorem float_spelling {t u l r : PyStr} (h : OtherScripts t u) (hl : ∀ c ∈ l, White c) (hr : ∀ c ∈ r, White c) :
    floatOfText (l ++ u ++ r) = floatOfText t := by
  have h1 : stripBy numSpace ((l ++ u ++ r).map asciiOf) = stripBy numSpace (t.map asciiOf) := by
    rw [List.map_append, List.map_append, stripBy_around, h.ascii]
    · intro c hc
      obtain ⟨a, ha, rfl⟩ := List.mem_map.mp hc
      exact asciiOf_white (hl a ha)
    · intro c hc
      obtain ⟨a, ha, rfl⟩ := List.mem_map.mp hc
      exact asciiOf_white (hr a ha)
  unfold floatOfText
  rw [h1]

theorem decimal_spelling {t u l r : PyStr} (h : OtherScripts t u) (hl : ∀ c ∈ l, White c) (hr : ∀ c ∈ r, White c) :
    decimalOfText (l ++ u ++ r) = decimalOfText t := by
  have hs : ∀ c, White c → strSpace c = true := fun c hc => by
    unfold strSpace; rw [(numSpace_iff c).mpr hc, Bool.true_or]
  unfold decimalOfText
  rw [stripBy_around _ _ _ _ (fun c hc => hs c (hl c hc)) (fun c hc => hs c (hr c hc)),
    (h.strip fun _ _ => digit_not_strSpace).ascii]

end Verif
