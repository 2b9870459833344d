import Verif.Proof.StringEsc

/-! # C23, C24, C49: CLIXML string escaping -/

namespace Verif

/-! ## C23: the round trip -/

/-- C23: a text comes back from CLIXML unchanged, unless it has a lone high surrogate of the range
U+D900 to U+DBFF, a character written as two surrogates, or a stretch that looks like an escape at an
odd byte. Partial: without these exclusions it fails, see `C23_exact`. -/
theorem C23_partial (s : PyStr) (h : IsText s) (hb : ¬ HasBareHigh s) (hp : ¬ HasSplitPair s)
    (hm : ¬ HasMisread s) : deserializeString (serializeString s) = .ok s := by
  unfold deserializeString
  rw [encode_serialized h hb]
  have : subEscapes (unitsBytes (serializeString s)).length (unitsBytes (serializeString s)) =
      unitsBytes (textUnits s) := sub_serialized h hb hm
  simp only [this, bytesUnits_units (textUnits_range h), Except.map, decode_textUnits h hp]

/-- C23: the exclusions are exactly the texts that do not come back unchanged. -/
theorem C23_exact (s : PyStr) (h : IsText s) :
    deserializeString (serializeString s) = .ok s ↔
      ¬ HasBareHigh s ∧ ¬ HasSplitPair s ∧ ¬ HasMisread s := by
  refine ⟨fun hr => ?_, fun ⟨hb, hp, hm⟩ => C23_partial s h hb hp hm⟩
  by_cases hb : HasBareHigh s
  · exfalso
    obtain ⟨c, hc, hx⟩ := hb
    have hmem : c ∈ serializeString s := by
      refine serialize_mem hc ?_ (by omega)
      simp only [needsEscape, Bool.or_eq_false_iff, decide_eq_false_iff_not]; omega
    have : encodeUtf16 (serializeString s) = .error .unicodeError := by
      unfold encodeUtf16
      rw [if_pos]
      exact List.any_eq_true.mpr ⟨c, hmem, by simp only [isSurrogate, decide_eq_true_eq]; omega⟩
    simp [deserializeString, this] at hr
  refine ⟨hb, ?_⟩
  have hr' : (bytesUnits (subAll (unitsBytes (serializeString s)))).map decodeUnits = .ok s := by
    unfold deserializeString at hr
    rw [encode_serialized h hb] at hr
    exact hr
  cases hu : bytesUnits (subAll (unitsBytes (serializeString s))) with
  | error e => rw [hu] at hr'; cases hr'
  | ok us =>
    rw [hu] at hr'
    simp only [Except.map, Except.ok.injEq] at hr'
    refine ⟨by rw [← hr']; exact (noSplit_decode us).1, fun hm => ?_⟩
    have hlt := (sub_length s.length s (Nat.le_refl _) h hb).1.2 hm
    have hl := bytesUnits_length hu
    have hrange : ∀ u ∈ us, u < 0x10000 := by
      refine bytesUnits_range (subAll_range (unitsBytes_range ?_)) hu
      intro c hc
      rcases serialize_chars h c hc with hc | hc
      · omega
      · exact (needsEscape_false hc.2 (fun hx => hb ⟨c, hc.1, hx⟩) (h c hc.1)).1
    have := textUnits_decode hrange
    rw [hr'] at this
    rw [this] at hlt
    omega

/-- C23 fails: a lone high surrogate cannot be read back at all, a character written as two
surrogates comes back as one character, and eight ordinary characters come back as two others. -/
theorem C23_violated :
    deserializeString (serializeString [0xD900]) = .error .unicodeError ∧
    deserializeString (serializeString [0xD83D, 0xDE00]) = .ok [0x1F600] ∧
    deserializeString (serializeString
      [0x4E00, 0x5F00, 0x7800, 0x3000, 0x3000, 0x3000, 0x3000, 0x5F41]) = .ok [0x4E00, 0x41] := by
  decide +kernel

example : HasMisread [0x4E00, 0x5F00, 0x7800, 0x3000, 0x3000, 0x3000, 0x3000, 0x5F41] :=
  ⟨[], 0x4E00, 0x30, 0x30, 0x30, 0x30, 0x5F41, [], rfl, by simp [IsHigh, IsLow, IsHexDigit]⟩

/-- A text with everything that is escaped. -/
def exampleText : PyStr := lit "a_x0041_ \n\x7fé😀_X__x" ++ [0xD801, 0x41, 0xDC01]

example : IsText exampleText ∧ ¬ HasBareHigh exampleText := by
  simp only [IsText, HasBareHigh, not_exists, not_and]; decide +kernel
example : ¬ HasSplitPair exampleText ∧ ¬ HasMisread exampleText :=
  ((C23_exact exampleText (by unfold IsText; decide +kernel)).mp (by decide +kernel)).2

/-! ## C24: no control characters and surrogates -/

/-- C24: the escaped text has no control characters, no characters outside the basic plane, and no
surrogates but those of the range U+D900 to U+DBFF. Partial: for those see `C24_exact`. -/
theorem C24_partial (s : PyStr) (h : IsText s) :
    ∀ c ∈ serializeString s, ¬ IsControl c ∧ ¬ IsLow c ∧ c < 0x10000 ∧
      (IsHigh c → 0xD900 ≤ c ∧ c ∈ s) := by
  intro c hc
  unfold IsControl IsLow IsHigh
  rcases serialize_chars h c hc with hc | ⟨hm, hc⟩
  · omega
  · have := h c hm
    simp only [needsEscape, Bool.or_eq_false_iff, decide_eq_false_iff_not] at hc
    refine ⟨by omega, by omega, by omega, fun _ => ⟨by omega, hm⟩⟩

/-- C24: the escaped text is free of surrogates exactly when the text has none of the range U+D900
to U+DBFF. -/
theorem C24_exact (s : PyStr) (h : IsText s) :
    (∀ c ∈ serializeString s, ¬ IsHigh c ∧ ¬ IsLow c) ↔ ¬ HasBareHigh s := by
  constructor
  · rintro hs ⟨c, hc, hx⟩
    refine (hs c (serialize_mem hc ?_ (by omega))).1 ⟨by omega, by omega⟩
    simp only [needsEscape, Bool.or_eq_false_iff, decide_eq_false_iff_not]; omega
  · intro hb c hc
    obtain ⟨_, h2, _, h4⟩ := C24_partial s h c hc
    refine ⟨fun hh => ?_, h2⟩
    obtain ⟨h5, h6⟩ := h4 hh
    exact hb ⟨c, h6, h5, hh.2⟩

/-- C24 fails: the escaped form of a lone high surrogate is that surrogate, which UTF-8 cannot
encode. -/
theorem C24_violated : serializeString [0xDBFF] = [0xDBFF] ∧ IsHigh 0xDBFF := by
  unfold IsHigh; decide +kernel

/-! ## C49: legal XML characters -/

/-- C49: the escaped text is made of characters an XML document may hold exactly when the text has
no surrogate of the range U+D900 to U+DBFF and none of the non-characters U+FFFE and U+FFFF. -/
theorem C49_exact (s : PyStr) (h : IsText s) :
    (∀ c ∈ serializeString s, IsXmlChar c) ↔ ¬ HasBareHigh s ∧ 0xFFFE ∉ s ∧ 0xFFFF ∉ s := by
  constructor
  · intro hx
    refine ⟨?_, fun hc => ?_, fun hc => ?_⟩
    · rintro ⟨c, hc, hr⟩
      have := hx c (serialize_mem hc (by
        simp only [needsEscape, Bool.or_eq_false_iff, decide_eq_false_iff_not]; omega) (by omega))
      unfold IsXmlChar at this
      omega
    · exact absurd (hx _ (serialize_mem hc (by decide) (by decide))) (by unfold IsXmlChar; omega)
    · exact absurd (hx _ (serialize_mem hc (by decide) (by decide))) (by unfold IsXmlChar; omega)
  · rintro ⟨hb, h1, h2⟩ c hc
    rcases serialize_chars h c hc with hc | ⟨hm, hc⟩
    · unfold IsXmlChar; omega
    · have hr := needsEscape_false hc (fun hx => hb ⟨c, hm, hx⟩) (h c hm)
      have n1 : c ≠ 0xFFFE := fun e => h1 (e ▸ hm)
      have n2 : c ≠ 0xFFFF := fun e => h2 (e ▸ hm)
      simp only [needsEscape, Bool.or_eq_false_iff, decide_eq_false_iff_not] at hc
      unfold IsXmlChar
      omega

/-- C49: so it is for text without those. Partial: see `C49_violated`. -/
theorem C49_partial (s : PyStr) (h : IsText s) (hb : ¬ HasBareHigh s) (h1 : 0xFFFE ∉ s)
    (h2 : 0xFFFF ∉ s) : ∀ c ∈ serializeString s, IsXmlChar c :=
  (C49_exact s h).mpr ⟨hb, h1, h2⟩

/-- C49 fails: U+FFFF is written as it is, and no XML parser accepts it. -/
theorem C49_violated : serializeString [0xFFFF] = [0xFFFF] ∧ ¬ IsXmlChar 0xFFFF ∧
    deserializeString (serializeString [0xFFFF]) = .ok [0xFFFF] := by
  refine ⟨by decide +kernel, by unfold IsXmlChar; omega, by decide +kernel⟩

example : 0xFFFE ∉ exampleText ∧ 0xFFFF ∉ exampleText := by decide +kernel

end Verif
