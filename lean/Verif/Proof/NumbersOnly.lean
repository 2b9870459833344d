import Verif.Spec.NumbersOnly
import Verif.Proof.Decimals

/-! # Nothing else is a float or a decimal: lemmas for C82 and C83 -/

namespace Verif

theorem digits_of_all {ds : PyStr} (h : ds.all isDigit = true) : Digits (digitsVal (ds.map (· - 48))) ds :=
  digits_of_ascii ds fun c hc => by
    have := List.all_eq_true.mp h c hc
    simpa [isDigit] using this

theorem scanExponent_sound {s : PyStr} {e : Int} (h : scanExponent s = some e) : ExponentText e s := by
  cases s with
  | nil => cases h; exact .none
  | cons c cs =>
    simp only [scanExponent] at h
    split at h
    · rename_i hc
      rw [signedOf_iff _ (by simp [isDigit]) (by simp [isDigit])] at h
      obtain ⟨u, n, h1, h2⟩ := h
      split at h1
      · rename_i hu
        cases h1
        have hd := digits_of_all hu.2
        rcases h2 with ⟨rfl, rfl | rfl⟩ | ⟨rfl, rfl⟩
        · exact .plain hc hd hu.1
        · exact .plus hc hd hu.1
        · exact .minus hc hd hu.1
      · exact nomatch h1
    · exact nomatch h

theorem takeWhile_all {p : Nat → Bool} (s : PyStr) : (s.takeWhile p).all p = true := by
  induction s with
  | nil => rfl
  | cons c s ih =>
    rw [List.takeWhile_cons]
    split
    · rename_i h; rw [List.all_cons, h, ih]; rfl
    · rfl

theorem scanNumber_sound {s : PyStr} {n : Nat} {e : Int} (h : scanNumber s = some (n, e)) : NumberText n e s := by
  unfold scanNumber at h
  have hw := takeWhile_all (p := isDigit) s
  have hs : s = s.takeWhile isDigit ++ s.dropWhile isDigit := List.takeWhile_append_dropWhile.symm
  generalize s.takeWhile isDigit = w at h hs hw
  generalize hr : s.dropWhile isDigit = r at h hs
  clear hr
  dsimp only at h
  by_cases hp : r.head? = some 46
  · simp only [hp, if_true] at h
    obtain ⟨r', rfl⟩ : ∃ r', r = 46 :: r' := by
      cases r with
      | nil => exact nomatch hp
      | cons c r' => exact ⟨r', by simp at hp; rw [hp]⟩
    simp only [List.drop_succ_cons, List.drop_zero] at h
    have hf := takeWhile_all (p := isDigit) r'
    have hr : r' = r'.takeWhile isDigit ++ r'.dropWhile isDigit := List.takeWhile_append_dropWhile.symm
    generalize r'.takeWhile isDigit = f at h hr hf
    generalize r'.dropWhile isDigit = x at h hr
    split at h
    · exact nomatch h
    · rename_i hne
      obtain ⟨e', h1, h2⟩ := Option.map_eq_some_iff.mp h
      cases h2
      subst hs hr
      exact .point (digits_of_all (by rw [List.all_append, hw, hf]; rfl)) hne (scanExponent_sound h1)
  · simp only [hp, if_false, List.append_nil] at h
    split at h
    · exact nomatch h
    · rename_i hne
      obtain ⟨e', h1, h2⟩ := Option.map_eq_some_iff.mp h
      cases h2
      subst hs
      have := NumberText.whole (digits_of_all hw) hne (scanExponent_sound h1)
      simpa using this

theorem splitSign_sound (t : PyStr) : ∃ s, SignOf (splitSign t).1 s ∧ t = s ++ (splitSign t).2 := by
  unfold splitSign
  split
  · exact ⟨[45], .inr ⟨rfl, rfl⟩, rfl⟩
  · exact ⟨[43], .inl ⟨rfl, .inr rfl⟩, rfl⟩
  · exact ⟨[], .inl ⟨rfl, .inl rfl⟩, rfl⟩

theorem floatOfLower_sound {t : PyStr} {x : PyFloat} (h : floatOfLower (splitSign t).1 (splitSign t).2 = some x) : FloatWord x t := by
  obtain ⟨s, hs, ht⟩ := splitSign_sound t
  generalize (splitSign t).1 = neg at h hs
  generalize (splitSign t).2 = b at h ht
  subst ht
  unfold floatOfLower at h
  split at h
  · rename_i hw
    cases h
    exact .infinity hs hw
  · split at h
    · rename_i hw
      cases h
      subst hw
      exact .nan hs
    · obtain ⟨⟨n, e⟩, h1, h2⟩ := Option.map_eq_some_iff.mp h
      have hn := scanNumber_sound h1
      have hd : 0 < denominator e := Nat.pow_pos (by omega)
      dsimp only at h2
      rw [nearestDecimal_units] at h2
      cases hu : nearestUnits (numerator n e) (denominator e) with
      | some u =>
        rw [hu] at h2
        cases h2
        exact .number hs hn (nearestUnits_nearest hd hu)
          (fun ht => by rw [(nearestUnits_none hd).mpr ht] at hu; exact absurd hu (by simp))
      | none =>
        rw [hu] at h2
        cases h2
        exact .large hs hn ((nearestUnits_none hd).mp hu)

theorem decimalOfLower_sound {t : PyStr} {x : PyDecimal} (h : decimalOfLower (splitSign t).1 (splitSign t).2 = some x) : DecimalWord x t := by
  obtain ⟨s, hs, ht⟩ := splitSign_sound t
  generalize (splitSign t).1 = neg at h hs
  generalize (splitSign t).2 = b at h ht
  subst ht
  unfold decimalOfLower at h
  split at h
  · rename_i hw
    cases h
    exact .infinity hs hw
  · split at h
    · rename_i hw
      obtain ⟨r, rfl⟩ := List.isPrefixOf_iff_prefix.mp hw
      split at h
      · rename_i hd
        cases h
        have : List.drop 3 (txt! "nan" ++ r) = r := rfl
        rw [this] at hd ⊢
        have := DecimalWord.nan hs (digits_of_all hd)
        rwa [List.append_assoc] at this
      · exact nomatch h
    · split at h
      · rename_i hw
        obtain ⟨r, rfl⟩ := List.isPrefixOf_iff_prefix.mp hw
        split at h
        · rename_i hd
          cases h
          have : List.drop 4 (txt! "snan" ++ r) = r := rfl
          rw [this] at hd ⊢
          have := DecimalWord.snan hs (digits_of_all hd)
          rwa [List.append_assoc] at this
        · exact nomatch h
      · obtain ⟨⟨n, e⟩, h1, h2⟩ := Option.map_eq_some_iff.mp h
        cases h2
        exact .number hs (scanNumber_sound h1)

theorem SignOf.chars {neg : Bool} {s : PyStr} (h : SignOf neg s) : ∀ c ∈ s, NumChar c := by
  rcases h with ⟨_, rfl | rfl⟩ | ⟨_, rfl⟩ <;> intro c hc <;> simp at hc <;> subst hc <;> unfold NumChar <;> omega

theorem NumberText.chars {n : Nat} {e : Int} {t : PyStr} (h : NumberText n e t) : ∀ c ∈ t, NumChar c := h.scan.2.1

theorem word_chars {w : PyStr} (h : w = txt! "inf" ∨ w = txt! "infinity" ∨ w = txt! "nan" ∨ w = txt! "snan") : ∀ c ∈ w, NumChar c ∧ c ≠ 63 := by
  unfold NumChar
  rcases h with rfl | rfl | rfl | rfl <;> decide

theorem SignOf.question {neg : Bool} {s : PyStr} (h : SignOf neg s) : 63 ∉ s := by
  rcases h with ⟨_, rfl | rfl⟩ | ⟨_, rfl⟩ <;> simp

theorem ExponentText.question {e : Int} {x : PyStr} (h : ExponentText e x) : 63 ∉ x := by
  have hd : ∀ {n : Nat} {t : PyStr}, Digits n t → 63 ∉ t := fun h hm => by have := h.all.1 63 hm; omega
  cases h with
  | none => simp
  | plain hc h _ => have := hd h; intro hm; rcases List.mem_cons.mp hm with h1 | h1 <;> first | omega | exact this h1
  | plus hc h _ => have := hd h; intro hm; simp at hm; rcases hm with h1 | h1 <;> first | omega | exact this h1
  | minus hc h _ => have := hd h; intro hm; simp at hm; rcases hm with h1 | h1 <;> first | omega | exact this h1

theorem NumberText.question {n : Nat} {e : Int} {t : PyStr} (h : NumberText n e t) : 63 ∉ t := by
  have hd : ∀ {n : Nat} {t : PyStr}, Digits n t → 63 ∉ t := fun h hm => by have := h.all.1 63 hm; omega
  cases h with
  | whole h _ hx =>
    intro hm
    rcases List.mem_append.mp hm with h1 | h1
    · exact hd h h1
    · exact hx.question h1
  | point h _ hx =>
    intro hm
    have h2 := hd h
    simp only [List.mem_append, List.mem_cons] at hm h2
    rcases hm with h1 | h1 | h1 | h1
    · exact h2 (.inl h1)
    · omega
    · exact h2 (.inr h1)
    · exact hx.question h1

theorem FloatWord.chars {x : PyFloat} {t : PyStr} (h : FloatWord x t) : ∀ c ∈ t, NumChar c ∧ c ≠ 63 := by
  have key : ∀ {neg : Bool} {s w : PyStr}, SignOf neg s → (∀ c ∈ w, NumChar c ∧ c ≠ 63) → ∀ c ∈ s ++ w, NumChar c ∧ c ≠ 63 := by
    intro neg s w hs hw c hc
    rcases List.mem_append.mp hc with hc | hc
    · exact ⟨hs.chars c hc, fun h => hs.question (h ▸ hc)⟩
    · exact hw c hc
  cases h with
  | number hs h _ _ => exact key hs fun c hc => ⟨h.chars c hc, fun e => h.question (e ▸ hc)⟩
  | large hs h _ => exact key hs fun c hc => ⟨h.chars c hc, fun e => h.question (e ▸ hc)⟩
  | infinity hs h => exact key hs (word_chars (h.elim .inl fun h => .inr (.inl h)))
  | nan hs => exact key hs (word_chars (.inr (.inr (.inl rfl))))

theorem DecimalWord.chars {x : PyDecimal} {t : PyStr} (h : DecimalWord x t) : ∀ c ∈ t, NumChar c ∧ c ≠ 63 := by
  have key : ∀ {neg : Bool} {s w : PyStr}, SignOf neg s → (∀ c ∈ w, NumChar c ∧ c ≠ 63) → ∀ c ∈ s ++ w, NumChar c ∧ c ≠ 63 := by
    intro neg s w hs hw c hc
    rcases List.mem_append.mp hc with hc | hc
    · exact ⟨hs.chars c hc, fun h => hs.question (h ▸ hc)⟩
    · exact hw c hc
  have hd : ∀ {n : Nat} {t : PyStr}, Digits n t → ∀ c ∈ t, NumChar c ∧ c ≠ 63 := fun h c hc => by
    have := h.all.1 c hc; unfold NumChar; omega
  cases h with
  | number hs h => exact key hs fun c hc => ⟨h.chars c hc, fun e => h.question (e ▸ hc)⟩
  | infinity hs h => exact key hs (word_chars (h.elim .inl fun h => .inr (.inl h)))
  | nan hs h =>
    rw [List.append_assoc]
    refine key hs fun c hc => ?_
    rcases List.mem_append.mp hc with hc | hc
    · exact word_chars (.inr (.inr (.inl rfl))) c hc
    · exact hd h c hc
  | snan hs h =>
    rw [List.append_assoc]
    refine key hs fun c hc => ?_
    rcases List.mem_append.mp hc with hc | hc
    · exact word_chars (.inr (.inr (.inr rfl))) c hc
    · exact hd h c hc

/-! ## Underscores -/

theorem dropUnderscores_sound : ∀ (t : PyStr) (prev : Nat) (s : PyStr), dropUnderscores prev t = some s →
    s = t.filter (· ≠ 95) ∧ (prev = 95 → ∃ b, t[0]? = some b ∧ isDigit b = true) ∧
    ∀ i, t[i]? = some 95 → (∃ a, (prev :: t)[i]? = some a ∧ isDigit a = true) ∧ ∃ b, t[i + 1]? = some b ∧ isDigit b = true
  | [], prev, s, h => by
    rw [dropUnderscores] at h
    split at h
    · exact nomatch h
    · rename_i hp
      cases h
      exact ⟨rfl, fun h => absurd h hp, fun i hi => by simp at hi⟩
  | c :: cs, prev, s, h => by
    rw [dropUnderscores] at h
    by_cases hc : c = 95
    · rw [if_pos hc] at h
      by_cases hp : isDigit prev = true
      · rw [if_pos hp] at h
        obtain ⟨h1, h2, h3⟩ := dropUnderscores_sound cs 95 s h
        subst hc
        refine ⟨by simpa using h1, fun h => by subst h; exact absurd hp (by decide), fun i hi => ?_⟩
        cases i with
        | zero => exact ⟨⟨prev, rfl, hp⟩, h2 rfl⟩
        | succ i =>
          have := h3 i (by simpa using hi)
          exact ⟨by simpa using this.1, by simpa using this.2⟩
      · rw [if_neg hp] at h; exact nomatch h
    · rw [if_neg hc] at h
      by_cases hp : prev = 95 ∧ ¬ isDigit c = true
      · rw [if_pos hp] at h; exact nomatch h
      · rw [if_neg hp] at h
        obtain ⟨s', h1, rfl⟩ := Option.map_eq_some_iff.mp h
        obtain ⟨h2, h3, h4⟩ := dropUnderscores_sound cs c s' h1
        refine ⟨by rw [List.filter_cons, if_pos (by simpa using hc), h2], fun hpr => ⟨c, rfl, ?_⟩, fun i hi => ?_⟩
        · cases hd : isDigit c with
          | true => rfl
          | false => exact absurd ⟨hpr, by simp [hd]⟩ hp
        · cases i with
          | zero => simp at hi; exact absurd hi hc
          | succ i =>
            have := h4 i (by simpa using hi)
            exact ⟨by simpa using this.1, by simpa using this.2⟩

theorem lower_get (m : PyStr) (i : Nat) : (lowerAscii m)[i]? = (m[i]?).map fun c => if 65 ≤ c ∧ c ≤ 90 then c + 32 else c := by
  unfold lowerAscii
  rw [List.getElem?_map]

theorem lower_digit {m : PyStr} {i b : Nat} (h : (lowerAscii m)[i]? = some b) (hd : isDigit b = true) : m[i]? = some b := by
  rw [lower_get] at h
  obtain ⟨c, hc, h1⟩ := Option.map_eq_some_iff.mp h
  rw [isDigit_iff] at hd
  split at h1
  · omega
  · rw [hc, h1]

theorem between_of_lower {m s : PyStr} (h : dropUnderscores 0 (lowerAscii m) = some s) :
    BetweenDigits m ∧ s = lowerAscii (m.filter (· ≠ 95)) := by
  obtain ⟨h1, _, h3⟩ := dropUnderscores_sound _ _ _ h
  constructor
  · intro i hi
    have hl : (lowerAscii m)[i]? = some 95 := by rw [lower_get, hi]; rfl
    obtain ⟨⟨a, ha, hda⟩, b, hb, hdb⟩ := h3 i hl
    cases i with
    | zero =>
      simp at ha
      subst ha
      exact absurd hda (by decide)
    | succ j =>
      have hd1 := (isDigit_iff a).mp hda
      have hd2 := (isDigit_iff b).mp hdb
      exact ⟨j, a, b, rfl, lower_digit (by simpa using ha) hda, lower_digit hb hdb, hd1.1, hd1.2, hd2.1, hd2.2⟩
  · rw [h1]
    unfold lowerAscii
    rw [List.filter_map]
    congr 1
    apply List.filter_congr
    intro c _
    simp only [Function.comp]
    rw [decide_eq_decide]
    split <;> omega

/-! ## Other scripts -/

theorem otherScripts_of_ascii : ∀ (u : PyStr), (∀ c ∈ u.map asciiOf, NumChar c ∧ c ≠ 63 ∨ c = 95) → OtherScripts (u.map asciiOf) u
  | [], _ => .nil
  | c :: u, h => by
    have ih := otherScripts_of_ascii u fun d hd => h d (List.mem_cons_of_mem _ hd)
    have hc := h (asciiOf c) List.mem_cons_self
    rw [List.map_cons]
    unfold asciiOf at hc ⊢
    by_cases h1 : c < 127
    · rw [if_pos h1]; exact .same c ih
    · rw [if_neg h1] at hc ⊢
      by_cases h2 : numSpace c = true
      · rw [if_pos h2] at hc
        unfold NumChar at hc
        omega
      · rw [if_neg h2] at hc ⊢
        cases hd : unicodeDigit c with
        | none =>
          rw [hd] at hc
          dsimp only at hc
          omega
        | some d => exact .digit ((unicodeDigit_iff d c).mpr hd) ih

theorem lower_chars {m : PyStr} (h : ∀ c ∈ lowerAscii (m.filter (· ≠ 95)), NumChar c ∧ c ≠ 63) : ∀ c ∈ m, NumChar c ∧ c ≠ 63 ∨ c = 95 := by
  intro c hc
  by_cases h95 : c = 95
  · exact .inr h95
  · left
    have := h _ (List.mem_map.mpr ⟨c, List.mem_filter.mpr ⟨hc, by simpa using h95⟩, rfl⟩)
    unfold NumChar at this ⊢
    split at this <;> omega

theorem asciiOf_space {c : Nat} (h : numSpace (asciiOf c) = true) : White c := by
  unfold asciiOf at h
  by_cases h1 : c < 127
  · rw [if_pos h1] at h; exact (numSpace_iff c).mp h
  · rw [if_neg h1] at h
    by_cases h2 : numSpace c = true
    · exact (numSpace_iff c).mp h2
    · rw [if_neg h2] at h
      cases hd : unicodeDigit c with
      | none => rw [hd] at h; exact absurd h (by decide)
      | some d =>
        rw [hd] at h
        dsimp only at h
        obtain ⟨h3, _⟩ := (unicodeDigit_iff d c).mpr hd
        have := digit_not_space (d := d) (c := 48 + d) ⟨h3, 48, by decide, rfl⟩
        rw [this] at h
        exact nomatch h

theorem float_only {t : PyStr} {x : PyFloat} (h : floatOfText t = .ok x) :
    ∃ l m u r, (∀ c ∈ l, White c) ∧ (∀ c ∈ r, White c) ∧ t = l ++ u ++ r ∧ OtherScripts m u ∧ BetweenDigits m ∧
      FloatWord x (lowerAscii (m.filter (· ≠ 95))) := by
  unfold floatOfText at h
  cases hd : dropUnderscores 0 (lowerAscii (stripBy numSpace (t.map asciiOf))) with
  | none => rw [hd] at h; exact nomatch h
  | some s =>
    rw [hd] at h
    dsimp only at h
    cases hf : floatOfLower (splitSign s).1 (splitSign s).2 with
    | none => rw [hf] at h; exact nomatch h
    | some y =>
      rw [hf] at h
      cases h
      have hw := floatOfLower_sound hf
      obtain ⟨hb, hs⟩ := between_of_lower hd
      obtain ⟨L, R, hsp, hL, hR⟩ := stripBy_split numSpace (t.map asciiOf)
      generalize stripBy numSpace (t.map asciiOf) = m at hb hs hsp hd
      obtain ⟨lu, r, rfl, hlu, hr⟩ := List.map_eq_append_iff.mp hsp
      obtain ⟨l, u, rfl, hl, hu⟩ := List.map_eq_append_iff.mp hlu
      subst hl hr hu
      subst hs
      refine ⟨l, _, u, r, fun c hc => asciiOf_space (hL _ (List.mem_map.mpr ⟨c, hc, rfl⟩)),
        fun c hc => asciiOf_space (hR _ (List.mem_map.mpr ⟨c, hc, rfl⟩)), rfl, otherScripts_of_ascii u (lower_chars hw.chars), hb, hw⟩

theorem decimal_only {t : PyStr} {x : PyDecimal} (h : decimalOfText t = .ok x) :
    ∃ l m u r, (∀ c ∈ l, White c ∨ 28 ≤ c ∧ c ≤ 31) ∧ (∀ c ∈ r, White c ∨ 28 ≤ c ∧ c ≤ 31) ∧ t = l ++ u ++ r ∧ OtherScripts m u ∧
      DecimalWord x (lowerAscii (m.filter (· ≠ 95))) := by
  have hsp : ∀ c, strSpace c = true → White c ∨ 28 ≤ c ∧ c ≤ 31 := by
    intro c hc
    unfold strSpace at hc
    rcases Bool.or_eq_true_iff.mp hc with h | h
    · exact .inl ((numSpace_iff c).mp h)
    · exact .inr (by simpa using h)
  unfold decimalOfText at h
  dsimp only at h
  cases hf : decimalOfLower (splitSign (lowerAscii (((stripBy strSpace t).map asciiOf).filter (· ≠ 95)))).1
      (splitSign (lowerAscii (((stripBy strSpace t).map asciiOf).filter (· ≠ 95)))).2 with
  | none => rw [hf] at h; exact nomatch h
  | some y =>
    rw [hf] at h
    cases h
    have hw := decimalOfLower_sound hf
    obtain ⟨l, r, hs, hl, hr⟩ := stripBy_split strSpace t
    exact ⟨l, _, _, r, fun c hc => hsp c (hl c hc), fun c hc => hsp c (hr c hc), hs, otherScripts_of_ascii _ (lower_chars hw.chars), hw⟩

end Verif
