import Verif.Spec.StringEsc

/-! # Lemmas about CLIXML string escaping (C23, C24) -/

namespace Verif

/-! ## The substitution loop -/

theorem literal_some {p bs r : List Nat} (h : literal p bs = some r) : bs = p ++ r := by
  unfold literal at h
  split at h
  · rename_i hp
    obtain ⟨t, ht⟩ := List.isPrefixOf_iff_prefix.mp hp
    cases h
    rw [← ht]; simp
  · cases h

theorem literal_append (p r : List Nat) : literal p (p ++ r) = some r := by
  unfold literal
  rw [if_pos (List.isPrefixOf_iff_prefix.mpr (List.prefix_append _ _))]
  simp

theorem hexPairs_some {n : Nat} {bs ds r : List Nat} (h : hexPairs n bs = some (ds, r)) :
    ∃ cs : List Nat, cs.length = n ∧ bs = cs.flatMap (fun c => [0, c]) ++ r ∧
      cs.map hexVal = ds.map some := by
  induction n generalizing bs ds with
  | zero =>
    simp only [hexPairs, Option.some.injEq, Prod.mk.injEq] at h
    obtain ⟨rfl, rfl⟩ := h
    exact ⟨[], rfl, rfl, rfl⟩
  | succ n ih =>
    unfold hexPairs at h
    split at h
    · rename_i h'; cases h'
    · rename_i n' c bs' hn
      cases hn
      split at h
      · rename_i d ds' rest hd hr
        simp only [Option.some.injEq, Prod.mk.injEq] at h
        obtain ⟨rfl, rfl⟩ := h
        obtain ⟨cs, h1, h2, h3⟩ := ih hr
        exact ⟨c :: cs, by simp [h1], by simp [h2], by simp [h3, hd]⟩
      · cases h
    · cases h

theorem hexPairs_flatMap (cs ds r : List Nat) (h : cs.map hexVal = ds.map some) :
    hexPairs cs.length (cs.flatMap (fun c => [0, c]) ++ r) = some (ds, r) := by
  induction cs generalizing ds with
  | nil => cases ds with
    | nil => rfl
    | cons => simp at h
  | cons c cs ih =>
    cases ds with
    | nil => simp at h
    | cons d ds =>
      simp only [List.map_cons, List.cons.injEq] at h
      simp [hexPairs, h.1, ih ds h.2]

theorem matchEscape_some {bs r rest : List Nat} (h : matchEscape bs = some (r, rest)) :
    ∃ a b c d, bs = 0 :: 95 :: 0 :: 120 :: 0 :: a :: 0 :: b :: 0 :: c :: 0 :: d :: 0 :: 95 :: rest ∧
      ∃ va vb vc vd, hexVal a = some va ∧ hexVal b = some vb ∧ hexVal c = some vc ∧ hexVal d = some vd ∧
      r = [16 * va + vb, 16 * vc + vd] := by
  unfold matchEscape at h
  split at h
  · cases h
  rename_i b1 h1
  split at h
  · cases h
  rename_i ds b2 h2
  split at h
  · cases h
  rename_i b3 h3
  cases h
  obtain ⟨cs, h4, h5, h6⟩ := hexPairs_some h2
  rw [literal_some h1, h5, literal_some h3]
  rcases cs with _ | ⟨a, _ | ⟨b, _ | ⟨c, _ | ⟨d, _ | _⟩⟩⟩⟩ <;> simp at h4
  rcases ds with _ | ⟨va, _ | ⟨vb, _ | ⟨vc, _ | ⟨vd, _ | _⟩⟩⟩⟩ <;> simp at h6
  exact ⟨a, b, c, d, by simp, va, vb, vc, vd, h6.1, h6.2.1, h6.2.2.1, h6.2.2.2, rfl⟩

theorem matchEscape_eq {a b c d va vb vc vd : Nat} (rest : List Nat) (ha : hexVal a = some va)
    (hb : hexVal b = some vb) (hc : hexVal c = some vc) (hd : hexVal d = some vd) :
    matchEscape (0 :: 95 :: 0 :: 120 :: 0 :: a :: 0 :: b :: 0 :: c :: 0 :: d :: 0 :: 95 :: rest) =
      some ([16 * va + vb, 16 * vc + vd], rest) := by
  have h1 := literal_append [0, 95, 0, 120] (0 :: a :: 0 :: b :: 0 :: c :: 0 :: d :: 0 :: 95 :: rest)
  have h2 := hexPairs_flatMap [a, b, c, d] [va, vb, vc, vd] (0 :: 95 :: rest) (by simp [ha, hb, hc, hd])
  have h3 := literal_append [0, 95] rest
  simp only [List.cons_append, List.nil_append, List.flatMap_cons, List.flatMap_nil, List.length_cons,
    List.length_nil] at h1 h2 h3
  unfold matchEscape
  rw [h1]
  simp only [h2, h3, unhexlify]

theorem matchEscape_length {bs r rest : List Nat} (h : matchEscape bs = some (r, rest)) :
    bs.length = rest.length + 14 ∧ r.length = 2 := by
  obtain ⟨a, b, c, d, rfl, va, vb, vc, vd, _, _, _, _, rfl⟩ := matchEscape_some h
  simp

theorem subEscapes_enough (n m : Nat) (bs : List Nat) (hn : bs.length ≤ n) (hm : bs.length ≤ m) :
    subEscapes n bs = subEscapes m bs := by
  induction n generalizing m bs with
  | zero =>
    have : bs = [] := List.length_eq_zero_iff.mp (Nat.le_zero.mp hn)
    subst this
    cases m <;> rfl
  | succ n ih =>
    cases bs with
    | nil => cases m <;> rfl
    | cons b bs =>
      cases m with
      | zero => simp at hm
      | succ m =>
        simp only [List.length_cons, Nat.add_le_add_iff_right] at hn hm
        simp only [subEscapes]
        split
        · rename_i r rest h
          have := (matchEscape_length h).1
          simp only [List.length_cons] at this
          rw [ih m rest (by omega) (by omega)]
        · rw [ih m bs hn hm]

/-- The substitution with as many steps as needed. -/
def subAll (bs : List Nat) : List Nat := subEscapes bs.length bs

theorem subAll_nil : subAll [] = [] := rfl

theorem subAll_match {b : Nat} {bs r rest : List Nat} (h : matchEscape (b :: bs) = some (r, rest)) :
    subAll (b :: bs) = r ++ subAll rest := by
  have hl := (matchEscape_length h).1
  simp only [List.length_cons] at hl
  simp only [subAll, List.length_cons, subEscapes, h]
  rw [subEscapes_enough _ rest.length rest (by omega) (Nat.le_refl _)]

theorem subAll_skip {b : Nat} {bs : List Nat} (h : matchEscape (b :: bs) = none) :
    subAll (b :: bs) = b :: subAll bs := by
  simp only [subAll, List.length_cons, subEscapes, h]

/-! ## The escaped text -/

theorem serialize_nil : serializeString [] = [] := rfl

theorem escapeChar_plain {c : Nat} (h : needsEscape c = false) : escapeChar c = [c] := by
  simp [escapeChar, h]

theorem serialize_x {d : Nat} (hd : d = 120 ∨ d = 88) (s : PyStr) :
    serializeString (95 :: d :: s) = [95, 120, 48, 48, 53, 70, 95, d] ++ serializeString s := by
  rcases hd with rfl | rfl <;> rfl

theorem serialize_cons {c : Nat} {s : PyStr} (h : ∀ d s', s = d :: s' → ¬ (c = 95 ∧ (d = 120 ∨ d = 88))) :
    serializeString (c :: s) = escapeChar c ++ serializeString s := by
  cases s with
  | nil => simp [serializeString, escapeUnderscores]
  | cons d s => simp [serializeString, escapeUnderscores, if_neg (h d s rfl)]

/-- Induction along the way the escaper reads a text. -/
theorem text_induction {P : PyStr → Prop} (h0 : P [])
    (h1 : ∀ d s, d = 120 ∨ d = 88 → P s → P (95 :: d :: s))
    (h2 : ∀ c s, (∀ d s', s = d :: s' → ¬ (c = 95 ∧ (d = 120 ∨ d = 88))) → P s → P (c :: s)) :
    ∀ s, P s := by
  intro s
  generalize hn : s.length = n
  induction n using Nat.strongRecOn generalizing s with
  | _ n ih =>
    cases s with
    | nil => exact h0
    | cons c s =>
      by_cases h : ∀ d s', s = d :: s' → ¬ (c = 95 ∧ (d = 120 ∨ d = 88))
      · exact h2 c s h (ih s.length (by simp at hn; omega) s rfl)
      · obtain ⟨d, s', hs, hc, hd⟩ : ∃ d s', s = d :: s' ∧ c = 95 ∧ (d = 120 ∨ d = 88) := by
          refine Classical.byContradiction fun hne => h fun d s' hs hcd => hne ⟨d, s', hs, hcd⟩
        subst hs hc
        exact h1 d s' hd (ih s'.length (by simp at hn; omega) s' rfl)

theorem hexUpper_range {d : Nat} (h : d < 16) : 48 ≤ hexUpper d ∧ hexUpper d ≤ 70 := by
  unfold hexUpper; split <;> omega

theorem hexVal_hexUpper {d : Nat} (h : d < 16) : hexVal (hexUpper d) = some d := by
  unfold hexUpper hexVal
  split
  · rw [if_pos (by omega)]; congr 1; omega
  · rw [if_neg (by omega), if_pos (by omega)]; congr 1; omega

theorem escapeUnit_eq (u : Nat) : escapeUnit u =
    [95, 120, hexUpper (u / 256 / 16), hexUpper (u / 256 % 16), hexUpper (u % 256 / 16),
      hexUpper (u % 256 % 16), 95] := rfl

theorem utf16_range {c : Nat} (h : c < 0x110000) : ∀ u ∈ utf16 c, u < 0x10000 := by
  intro u hu
  unfold utf16 at hu
  split at hu
  · simp at hu; omega
  · simp at hu; omega

theorem escapeUnit_ascii {u : Nat} (h : u < 0x10000) : ∀ x ∈ escapeUnit u, 48 ≤ x ∧ x ≤ 120 := by
  intro x hx
  rw [escapeUnit_eq] at hx
  have := @hexUpper_range
  simp only [List.mem_cons, List.not_mem_nil, or_false] at hx
  rcases hx with rfl | rfl | rfl | rfl | rfl | rfl | rfl <;> try omega
  all_goals first
    | exact ⟨(hexUpper_range (by omega)).1, Nat.le_trans (hexUpper_range (by omega)).2 (by omega)⟩

theorem escapeChar_chars {c : Nat} (h : c < 0x110000) :
    ∀ x ∈ escapeChar c, (48 ≤ x ∧ x ≤ 120) ∨ (x = c ∧ needsEscape c = false) := by
  intro x hx
  unfold escapeChar at hx
  split at hx
  · obtain ⟨u, hu, hx⟩ := List.mem_flatMap.mp hx
    exact Or.inl (escapeUnit_ascii (utf16_range h u hu) x hx)
  · rename_i hn
    simp at hx
    exact Or.inr ⟨hx, by simpa using hn⟩

theorem serialize_chars {s : PyStr} (h : IsText s) :
    ∀ x ∈ serializeString s, (48 ≤ x ∧ x ≤ 120) ∨ (x ∈ s ∧ needsEscape x = false) := by
  induction s using text_induction with
  | h0 => simp [serialize_nil]
  | h1 d s hd ih =>
    rw [serialize_x hd]
    intro x hx
    rcases List.mem_append.mp hx with hx | hx
    · left; simp at hx; omega
    · rcases ih (fun c hc => h c (by simp [hc])) x hx with h | h
      · exact Or.inl h
      · exact Or.inr ⟨by simp [h.1], h.2⟩
  | h2 c s hc ih =>
    rw [serialize_cons hc]
    intro x hx
    rcases List.mem_append.mp hx with hx | hx
    · rcases escapeChar_chars (h c (by simp)) x hx with h | h
      · exact Or.inl h
      · exact Or.inr ⟨by simp [h.1], by rw [h.1]; exact h.2⟩
    · rcases ih (fun c hc => h c (by simp [hc])) x hx with h | h
      · exact Or.inl h
      · exact Or.inr ⟨by simp [h.1], h.2⟩

/-- A character that is kept appears in the escaped text. -/
theorem serialize_mem {s : PyStr} {c : Nat} (hc : c ∈ s) (hn : needsEscape c = false) (h : c ≠ 95) :
    c ∈ serializeString s := by
  induction s using text_induction with
  | h0 => simp at hc
  | h1 d s hd ih =>
    rw [serialize_x hd]
    simp only [List.mem_cons] at hc
    rcases hc with rfl | rfl | hc
    · exact absurd rfl h
    · simp
    · simp [ih hc]
  | h2 c' s hc' ih =>
    rw [serialize_cons hc']
    simp only [List.mem_cons] at hc
    rcases hc with rfl | hc
    · rw [escapeChar_plain hn]; simp
    · simp [ih hc]

theorem needsEscape_false {c : Nat} (h : needsEscape c = false) (hb : ¬ (0xD900 ≤ c ∧ c ≤ 0xDBFF))
    (ht : c < 0x110000) : c < 0x10000 ∧ ¬ (0xD800 ≤ c ∧ c ≤ 0xDFFF) := by
  simp only [needsEscape, Bool.or_eq_false_iff, decide_eq_false_iff_not] at h
  omega

/-- The bytes of code units. -/
abbrev unitsBytes (us : List Nat) : List Nat := us.flatMap unitBytes

theorem unitsBytes_cons (u : Nat) (us : List Nat) :
    unitsBytes (u :: us) = u / 256 :: u % 256 :: unitsBytes us := rfl

theorem unitsBytes_length (us : List Nat) : (unitsBytes us).length = 2 * us.length := by
  induction us with
  | nil => rfl
  | cons u us ih => rw [unitsBytes_cons]; simp only [List.length_cons, ih]; omega

theorem flatMap_utf16 {s : PyStr} (h : ∀ c ∈ s, c < 0x10000) : s.flatMap utf16 = s := by
  induction s with
  | nil => rfl
  | cons c s ih =>
    simp only [List.flatMap_cons]
    rw [ih fun c hc => h c (by simp [hc]), utf16, if_pos (h c (by simp))]
    rfl

theorem encode_serialized {s : PyStr} (h : IsText s) (hb : ¬ HasBareHigh s) :
    encodeUtf16 (serializeString s) = .ok (unitsBytes (serializeString s)) := by
  have key : ∀ c ∈ serializeString s, c < 0x10000 ∧ ¬ (0xD800 ≤ c ∧ c ≤ 0xDFFF) := by
    intro c hc
    rcases serialize_chars h c hc with hc | hc
    · omega
    · exact needsEscape_false hc.2 (fun hx => hb ⟨c, hc.1, hx⟩) (h c hc.1)
  unfold encodeUtf16
  rw [if_neg, flatMap_utf16 fun c hc => (key c hc).1]
  simp only [List.any_eq_true, isSurrogate, decide_eq_true_eq, not_exists, not_and]
  intro c hc hx hx'
  exact (key c hc).2 ⟨hx, hx'⟩

/-- Big code units of the escaped text are characters of the text. -/
theorem serialize_head {s : PyStr} (h : IsText s) {u : Nat} {e : PyStr} (he : serializeString s = u :: e)
    (hu : 256 ≤ u) : ∃ s', s = u :: s' ∧ e = serializeString s' ∧ needsEscape u = false := by
  cases s using text_induction with
  | h0 => simp [serialize_nil] at he
  | h1 d s hd _ =>
    rw [serialize_x hd] at he
    simp at he; omega
  | h2 c s hc _ =>
    rw [serialize_cons hc] at he
    unfold escapeChar at he
    split at he
    · exfalso
      have : ∃ v vs, utf16 c = v :: vs := by
        unfold utf16; split <;> exact ⟨_, _, rfl⟩
      obtain ⟨v, vs, hv⟩ := this
      rw [hv] at he
      simp [escapeUnit] at he
      omega
    · rename_i hn
      simp at he
      obtain ⟨rfl, rfl⟩ := he
      exact ⟨s, rfl, rfl, by simpa using hn⟩

theorem isHexDigit_iff (c : Nat) : IsHexDigit c ↔ ∃ v, hexVal c = some v := by
  unfold IsHexDigit hexVal
  split
  · simp; omega
  · split
    · simp; omega
    · split
      · simp; omega
      · simp; omega

theorem unitsBytes_inj_head {x y : Nat} {bs : List Nat} {us : List Nat}
    (h : x :: y :: bs = unitsBytes us) : ∃ u us', us = u :: us' ∧ x = u / 256 ∧ y = u % 256 ∧ bs = unitsBytes us' := by
  cases us with
  | nil => simp at h
  | cons u us =>
    rw [unitsBytes_cons] at h
    simp only [List.cons.injEq] at h
    exact ⟨u, us, rfl, h.1, h.2.1, h.2.2⟩

/-- A match at an odd byte is a stretch of characters that looks like an escape. -/
theorem odd_match {s : PyStr} (h : IsText s) {l : Nat} {r rest : List Nat}
    (hm : matchEscape (l :: unitsBytes (serializeString s)) = some (r, rest)) :
    l = 0 ∧ ∃ h₁ h₂ h₃ h₄ z s', s = 0x5F00 :: 0x7800 :: 256 * h₁ :: 256 * h₂ :: 256 * h₃ :: 256 * h₄ :: z :: s' ∧
      IsHexDigit h₁ ∧ IsHexDigit h₂ ∧ IsHexDigit h₃ ∧ IsHexDigit h₄ ∧ z / 256 = 0x5F ∧
      rest = z % 256 :: unitsBytes (serializeString s') := by
  obtain ⟨a, b, c, d, hb, va, vb, vc, vd, ha, hb', hc, hd, _⟩ := matchEscape_some hm
  have h1 := (isHexDigit_iff a).mpr ⟨_, ha⟩
  have h2 := (isHexDigit_iff b).mpr ⟨_, hb'⟩
  have h3 := (isHexDigit_iff c).mpr ⟨_, hc⟩
  have h4 := (isHexDigit_iff d).mpr ⟨_, hd⟩
  simp only [List.cons.injEq] at hb
  obtain ⟨rfl, hb⟩ := hb
  have step : ∀ {t : PyStr} {x y : Nat} {bs : List Nat}, IsText t →
      unitsBytes (serializeString t) = x :: y :: bs → 1 ≤ x →
      ∃ u t', t = u :: t' ∧ x = u / 256 ∧ y = u % 256 ∧ unitsBytes (serializeString t') = bs ∧ IsText t' := by
    intro t x y bs ht hx h1
    obtain ⟨u, us, e1, e2, e3, e4⟩ := unitsBytes_inj_head hx.symm
    obtain ⟨t', e5, e6, _⟩ := serialize_head ht e1 (by omega)
    exact ⟨u, t', e5, e2, e3, by rw [e4, e6], fun q hq => ht q (by simp [e5, hq])⟩
  unfold IsHexDigit at h1 h2 h3 h4
  obtain ⟨u1, t1, rfl, e1, f1, hb, i1⟩ := step h hb (by omega)
  obtain ⟨u2, t2, rfl, e2, f2, hb, i2⟩ := step i1 hb (by omega)
  obtain ⟨u3, t3, rfl, e3, f3, hb, i3⟩ := step i2 hb (by omega)
  obtain ⟨u4, t4, rfl, e4, f4, hb, i4⟩ := step i3 hb (by omega)
  obtain ⟨u5, t5, rfl, e5, f5, hb, i5⟩ := step i4 hb (by omega)
  obtain ⟨u6, t6, rfl, e6, f6, hb, i6⟩ := step i5 hb (by omega)
  have : ∃ y bs, rest = y :: bs := by
    cases hr : rest with
    | nil =>
      rw [hr] at hb
      have := congrArg List.length hb
      rw [unitsBytes_length] at this
      simp at this
      omega
    | cons y bs => exact ⟨y, bs, rfl⟩
  obtain ⟨y, bs, rfl⟩ := this
  obtain ⟨u7, t7, rfl, e7, f7, hb, i7⟩ := step i6 hb (by omega)
  refine ⟨rfl, a, b, c, d, u7, t7, ?_, h1, h2, h3, h4, e7.symm, by rw [f7, hb]⟩
  simp only [List.cons.injEq, and_true]
  omega

/-- No match starts at a character that is kept and is not part of an escape. -/
theorem plain_nomatch {c : Nat} {s : PyStr} (h : IsText s)
    (hc : ∀ d s', s = d :: s' → ¬ (c = 95 ∧ (d = 120 ∨ d = 88))) :
    matchEscape (c / 256 :: c % 256 :: unitsBytes (serializeString s)) = none := by
  cases hm : matchEscape (c / 256 :: c % 256 :: unitsBytes (serializeString s)) with
  | none => rfl
  | some x =>
    exfalso
    obtain ⟨r, rest⟩ := x
    obtain ⟨a, b, c', d, hb, _⟩ := matchEscape_some hm
    simp only [List.cons.injEq] at hb
    obtain ⟨e1, e2, hb⟩ := hb
    have hc95 : c = 95 := by omega
    subst hc95
    obtain ⟨u, us, e3, e4, e5, e6⟩ := unitsBytes_inj_head hb.symm
    have hu : u = 120 := by omega
    subst hu
    cases s using text_induction with
    | h0 => simp [serialize_nil] at e3
    | h1 d s hd _ => rw [serialize_x hd] at e3; simp at e3
    | h2 d s hd _ =>
      rw [serialize_cons hd] at e3
      unfold escapeChar at e3
      split at e3
      · have : ∃ v vs, utf16 d = v :: vs := by
          unfold utf16; split <;> exact ⟨_, _, rfl⟩
        obtain ⟨v, vs, hv⟩ := this
        rw [hv] at e3
        simp [escapeUnit] at e3
      · simp at e3
        exact hc d s rfl ⟨rfl, Or.inl e3.1⟩

theorem sub_escapeUnit {u : Nat} (hu : u < 0x10000) (us : List Nat) :
    subAll (unitsBytes (escapeUnit u ++ us)) = unitBytes u ++ subAll (unitsBytes us) := by
  rw [escapeUnit_eq]
  have hx : ∀ d, d < 16 → hexUpper d / 256 = 0 ∧ hexUpper d % 256 = hexUpper d := by
    intro d hd; have := hexUpper_range hd; omega
  have h1 := hx (u / 256 / 16) (by omega)
  have h2 := hx (u / 256 % 16) (by omega)
  have h3 := hx (u % 256 / 16) (by omega)
  have h4 := hx (u % 256 % 16) (by omega)
  have key : unitsBytes ([95, 120, hexUpper (u / 256 / 16), hexUpper (u / 256 % 16), hexUpper (u % 256 / 16),
      hexUpper (u % 256 % 16), 95] ++ us) = 0 :: 95 :: 0 :: 120 :: 0 :: hexUpper (u / 256 / 16) :: 0 ::
      hexUpper (u / 256 % 16) :: 0 :: hexUpper (u % 256 / 16) :: 0 :: hexUpper (u % 256 % 16) :: 0 :: 95 ::
      unitsBytes us := by
    simp only [List.cons_append, List.nil_append, unitsBytes_cons, h1, h2, h3, h4]
  rw [key, subAll_match (matchEscape_eq _ (hexVal_hexUpper (by omega)) (hexVal_hexUpper (by omega))
    (hexVal_hexUpper (by omega)) (hexVal_hexUpper (by omega)))]
  simp only [unitBytes]
  congr 1
  simp only [List.cons.injEq, and_true]
  omega

theorem sub_escape {c : Nat} (hc : c < 0x110000) (us : List Nat) :
    subAll (unitsBytes ((utf16 c).flatMap escapeUnit ++ us)) =
      unitsBytes (utf16 c) ++ subAll (unitsBytes us) := by
  have hr := utf16_range hc
  generalize utf16 c = l at *
  induction l with
  | nil => rfl
  | cons u l ih =>
    simp only [List.flatMap_cons, List.append_assoc]
    rw [sub_escapeUnit (hr u (by simp)), ih fun v hv => hr v (by simp [hv])]

theorem sub_x {d : Nat} (hd : d = 120 ∨ d = 88) (us : List Nat) :
    subAll (unitsBytes ([95, 120, 48, 48, 53, 70, 95, d] ++ us)) =
      [0, 95, 0, d] ++ subAll (unitsBytes us) := by
  have h1 : [95, 120, 48, 48, 53, 70, 95, d] ++ us = escapeUnit 95 ++ (d :: us) := rfl
  have hd' : d / 256 = 0 ∧ d % 256 = d := by omega
  rw [h1, sub_escapeUnit (by omega), unitsBytes_cons, hd'.1, hd'.2, subAll_skip, subAll_skip]
  · simp [unitBytes]
  · cases hm : matchEscape (d :: unitsBytes us) with
    | none => rfl
    | some x =>
      obtain ⟨a, b, c', e, hb, _⟩ := matchEscape_some hm
      simp only [List.cons.injEq] at hb; omega
  · cases hm : matchEscape (0 :: d :: unitsBytes us) with
    | none => rfl
    | some x =>
      obtain ⟨a, b, c', e, hb, _⟩ := matchEscape_some hm
      simp only [List.cons.injEq] at hb; omega

/-- The code units of a text. -/
abbrev textUnits (s : PyStr) : List Nat := s.flatMap utf16

theorem HasMisread.cons {s : PyStr} (c : Nat) (h : HasMisread s) : HasMisread (c :: s) := by
  obtain ⟨pre, a, h1, h2, h3, h4, z, post, rfl, hr⟩ := h
  exact ⟨c :: pre, a, h1, h2, h3, h4, z, post, rfl, hr⟩

theorem textUnits_x {d : Nat} (hd : d = 120 ∨ d = 88) (s : PyStr) :
    unitsBytes (textUnits (95 :: d :: s)) = [0, 95, 0, d] ++ unitsBytes (textUnits s) := by
  rcases hd with rfl | rfl <;> simp [textUnits, utf16, unitsBytes, unitBytes]

theorem textUnits_plain {c : Nat} (h : c < 0x10000) (s : PyStr) :
    unitsBytes (textUnits (c :: s)) = c / 256 :: c % 256 :: unitsBytes (textUnits s) := by
  simp [textUnits, utf16, h, unitsBytes, unitBytes]

theorem misread_head {c : Nat} {s : PyStr} (h : IsText (c :: s)) (hb : ¬ HasBareHigh (c :: s))
    (hn : needsEscape c = false) {x : List Nat × List Nat}
    (hm : matchEscape (c % 256 :: unitsBytes (serializeString s)) = some x) : HasMisread (c :: s) := by
  obtain ⟨r, rest⟩ := x
  obtain ⟨e1, h1, h2, h3, h4, z, s', rfl, i1, i2, i3, i4, i5, _⟩ :=
    odd_match (fun q hq => h q (by simp [hq])) hm
  have := needsEscape_false hn (fun hx => hb ⟨c, by simp, hx⟩) (h c (by simp))
  refine ⟨[], c, h1, h2, h3, h4, z, s', rfl, ?_, this.1, e1, ?_, ?_, i1, i2, i3, i4, i5⟩
  · rcases Nat.eq_zero_or_pos c with rfl | h
    · simp [needsEscape] at hn
    · exact h
  · unfold IsHigh; omega
  · unfold IsLow; omega

/-- Without misread stretches the substitution gives the code units of the text. -/
theorem sub_serialized {s : PyStr} (h : IsText s) (hb : ¬ HasBareHigh s) (hm : ¬ HasMisread s) :
    subAll (unitsBytes (serializeString s)) = unitsBytes (textUnits s) := by
  induction s using text_induction with
  | h0 => rfl
  | h1 d s hd ih =>
    rw [serialize_x hd, sub_x hd, textUnits_x hd,
      ih (fun q hq => h q (by simp [hq])) (fun ⟨c, hc, hx⟩ => hb ⟨c, by simp [hc], hx⟩)
        (fun hx => hm ((hx.cons d).cons 95))]
  | h2 c s hc ih =>
    have ih := ih (fun q hq => h q (by simp [hq])) (fun ⟨c, hc, hx⟩ => hb ⟨c, by simp [hc], hx⟩)
      (fun hx => hm (hx.cons c))
    rw [serialize_cons hc]
    by_cases hn : needsEscape c = true
    · rw [escapeChar, if_pos hn, sub_escape (h c (by simp)), ih]
      simp [textUnits, unitsBytes]
    · have hn : needsEscape c = false := by simpa using hn
      have hr := needsEscape_false hn (fun hx => hb ⟨c, by simp, hx⟩) (h c (by simp))
      rw [escapeChar_plain hn, List.singleton_append, unitsBytes_cons, textUnits_plain hr.1,
        subAll_skip (plain_nomatch (fun q hq => h q (by simp [hq])) hc), subAll_skip, ih]
      cases hx : matchEscape (c % 256 :: unitsBytes (serializeString s)) with
      | none => rfl
      | some x => exact absurd (misread_head h hb hn hx) hm

/-! ## The length of the result -/

theorem misread_cons_inv {c : Nat} {s : PyStr} (h : HasMisread (c :: s)) :
    HasMisread s ∨ (needsEscape c = false ∧ ∃ x, matchEscape (c % 256 :: unitsBytes (serializeString s)) = some x) := by
  obtain ⟨pre, a, h1, h2, h3, h4, z, post, he, p1, p2, p3, p4, p5, q1, q2, q3, q4, q5⟩ := h
  cases pre with
  | cons b pre =>
    simp only [List.cons_append, List.cons.injEq] at he
    exact Or.inl ⟨pre, a, h1, h2, h3, h4, z, post, he.2, p1, p2, p3, p4, p5, q1, q2, q3, q4, q5⟩
  | nil =>
    right
    simp only [List.nil_append, List.cons.injEq] at he
    obtain ⟨rfl, rfl⟩ := he
    have hn : needsEscape c = false := by
      simp only [needsEscape, Bool.or_eq_false_iff, decide_eq_false_iff_not]
      unfold IsHigh at p4
      unfold IsLow at p5
      omega
    refine ⟨hn, ?_⟩
    have plain : ∀ {u : Nat} {t : PyStr}, 256 ≤ u → u < 0xD800 → serializeString (u :: t) = u :: serializeString t := by
      intro u t g1 g2
      rw [serialize_cons (fun d s' _ hx => by omega), escapeChar_plain]
      · rfl
      · simp only [needsEscape, Bool.or_eq_false_iff, decide_eq_false_iff_not]; omega
    have hz : 256 ≤ z ∧ z < 0xD800 := by omega
    have r1 : 256 ≤ 256 * h1 ∧ 256 * h1 < 0xD800 := by unfold IsHexDigit at q1; omega
    have r2 : 256 ≤ 256 * h2 ∧ 256 * h2 < 0xD800 := by unfold IsHexDigit at q2; omega
    have r3 : 256 ≤ 256 * h3 ∧ 256 * h3 < 0xD800 := by unfold IsHexDigit at q3; omega
    have r4 : 256 ≤ 256 * h4 ∧ 256 * h4 < 0xD800 := by unfold IsHexDigit at q4; omega
    rw [plain (by omega) (by omega), plain (by omega) (by omega), plain r1.1 r1.2, plain r2.1 r2.2,
      plain r3.1 r3.2, plain r4.1 r4.2, plain hz.1 hz.2]
    simp only [unitsBytes_cons, p3, q5]
    have e1 : ∀ h : Nat, 256 * h / 256 = h ∧ 256 * h % 256 = 0 := by omega
    simp only [(e1 h1).1, (e1 h1).2, (e1 h2).1, (e1 h2).2, (e1 h3).1, (e1 h3).2, (e1 h4).1, (e1 h4).2]
    obtain ⟨v1, w1⟩ := (isHexDigit_iff h1).mp q1
    obtain ⟨v2, w2⟩ := (isHexDigit_iff h2).mp q2
    obtain ⟨v3, w3⟩ := (isHexDigit_iff h3).mp q3
    obtain ⟨v4, w4⟩ := (isHexDigit_iff h4).mp q4
    exact ⟨_, matchEscape_eq _ w1 w2 w3 w4⟩

theorem sub_length (n : Nat) : ∀ s : PyStr, s.length ≤ n → IsText s → ¬ HasBareHigh s →
    ((subAll (unitsBytes (serializeString s))).length ≤ 2 * (textUnits s).length ∧
      (HasMisread s → (subAll (unitsBytes (serializeString s))).length < 2 * (textUnits s).length)) ∧
    ∀ l, (subAll (l :: unitsBytes (serializeString s))).length ≤ 1 + 2 * (textUnits s).length ∧
      (HasMisread s ∨ (∃ x, matchEscape (l :: unitsBytes (serializeString s)) = some x) →
        (subAll (l :: unitsBytes (serializeString s))).length < 1 + 2 * (textUnits s).length) := by
  induction n using Nat.strongRecOn with
  | _ n ih =>
    intro s hl h hb
    have hP : (subAll (unitsBytes (serializeString s))).length ≤ 2 * (textUnits s).length ∧
      (HasMisread s → (subAll (unitsBytes (serializeString s))).length < 2 * (textUnits s).length) := by
      cases s using text_induction with
      | h0 =>
        refine ⟨by simp [serialize_nil, subAll_nil], ?_⟩
        rintro ⟨pre, a, h1, h2, h3, h4, z, post, he, _⟩
        cases pre <;> simp at he
      | h1 d s hd _ =>
        obtain ⟨⟨i1, i2⟩, _⟩ := ih s.length (by simp at hl; omega) s (Nat.le_refl _) (fun q hq => h q (by simp [hq]))
          (fun ⟨c, hc, hx⟩ => hb ⟨c, by simp [hc], hx⟩)
        have hu : (textUnits (95 :: d :: s)).length = 2 + (textUnits s).length := by
          rcases hd with rfl | rfl <;> simp [textUnits, utf16] <;> omega
        rw [serialize_x hd, sub_x hd, hu]
        simp only [List.length_append, List.length_cons, List.length_nil]
        refine ⟨by omega, fun hm => ?_⟩
        rcases misread_cons_inv hm with hm | ⟨_, x, hx⟩
        · rcases misread_cons_inv hm with hm | ⟨_, x, hx⟩
          · have := i2 hm; omega
          · obtain ⟨a, b, c', e, hb, _⟩ := matchEscape_some hx
            simp only [List.cons.injEq] at hb; omega
        · obtain ⟨a, b, c', e, hb, _⟩ := matchEscape_some hx
          simp only [List.cons.injEq] at hb; omega
      | h2 c s hc _ =>
        obtain ⟨⟨i1, i2⟩, i3⟩ := ih s.length (by simp at hl; omega) s (Nat.le_refl _) (fun q hq => h q (by simp [hq]))
          (fun ⟨c, hc, hx⟩ => hb ⟨c, by simp [hc], hx⟩)
        rw [serialize_cons hc]
        by_cases hn : needsEscape c = true
        · rw [escapeChar, if_pos hn, sub_escape (h c (by simp))]
          have hu : (unitsBytes (utf16 c)).length = 2 * (utf16 c).length := by
            unfold utf16; split <;> rfl
          simp only [textUnits, List.flatMap_cons, List.length_append, hu] at *
          refine ⟨by omega, fun hm => ?_⟩
          rcases misread_cons_inv hm with hm | ⟨hn', _⟩
          · have := i2 hm; omega
          · rw [hn] at hn'; cases hn'
        · have hn : needsEscape c = false := by simpa using hn
          have hr := needsEscape_false hn (fun hx => hb ⟨c, by simp, hx⟩) (h c (by simp))
          have hu : (textUnits (c :: s)).length = 1 + (textUnits s).length := by
            simp [textUnits, utf16, hr.1]; omega
          rw [escapeChar_plain hn, List.singleton_append, unitsBytes_cons, hu,
            subAll_skip (plain_nomatch (fun q hq => h q (by simp [hq])) hc)]
          obtain ⟨j1, j2⟩ := i3 (c % 256)
          simp only [List.length_cons]
          refine ⟨by omega, fun hm => ?_⟩
          have := j2 ((misread_cons_inv hm).imp id fun hx => hx.2)
          omega
    refine ⟨hP, fun l => ?_⟩
    cases hm : matchEscape (l :: unitsBytes (serializeString s)) with
    | none =>
      rw [subAll_skip hm]
      simp only [List.length_cons]
      refine ⟨by omega, fun hx => ?_⟩
      rcases hx with hx | ⟨x, hx⟩
      · have := hP.2 hx; omega
      · cases hx
    | some x =>
      obtain ⟨r, rest⟩ := x
      obtain ⟨_, h1, h2, h3, h4, z, s', hs, _, _, _, _, hz, hrest⟩ := odd_match h hm
      have hlr := (matchEscape_length hm).2
      rw [subAll_match hm, hrest]
      have := (ih s'.length (by rw [hs] at hl; simp at hl; omega) s' (Nat.le_refl _)
        (fun q hq => h q (by rw [hs]; simp [hq])) (fun ⟨c, hc, hx⟩ => hb ⟨c, by rw [hs]; simp [hc], hx⟩)).2 (z % 256)
      have hu : (textUnits s).length ≥ 7 + (textUnits s').length := by
        rw [hs]
        have : ∀ c, 1 ≤ (utf16 c).length := by intro c; unfold utf16; split <;> simp
        simp only [textUnits, List.flatMap_cons, List.length_append]
        have a1 := this 0x5F00
        have a2 := this 0x7800
        have a3 := this (256 * h1)
        have a4 := this (256 * h2)
        have a5 := this (256 * h3)
        have a6 := this (256 * h4)
        have a7 := this z
        omega
      simp only [List.length_append, hlr]
      exact ⟨by omega, fun _ => by omega⟩

/-! ## Decoding -/

theorem bytesUnits_units {us : List Nat} (h : ∀ u ∈ us, u < 0x10000) :
    bytesUnits (unitsBytes us) = .ok us := by
  induction us with
  | nil => rfl
  | cons u us ih =>
    rw [unitsBytes_cons, bytesUnits, ih fun v hv => h v (by simp [hv])]
    simp only [Except.map]
    congr 2
    omega

theorem bytesUnits_length {bs us : List Nat} (h : bytesUnits bs = .ok us) : bs.length = 2 * us.length := by
  induction us generalizing bs with
  | nil =>
    rcases bs with _ | ⟨a, _ | ⟨b, bs⟩⟩
    · rfl
    · cases h
    · simp only [bytesUnits] at h
      cases hr : bytesUnits bs <;> simp [hr, Except.map] at h
  | cons u us ih =>
    rcases bs with _ | ⟨a, _ | ⟨b, bs⟩⟩
    · cases h
    · cases h
    · simp only [bytesUnits] at h
      cases hr : bytesUnits bs with
      | error e => simp [hr, Except.map] at h
      | ok us' =>
        simp only [hr, Except.map, Except.ok.injEq, List.cons.injEq] at h
        rw [← h.2] at ih
        have := ih hr
        simp only [List.length_cons, ← h.2]; omega

theorem splitPair_cons {c : Nat} {s : PyStr} (h : HasSplitPair s) : HasSplitPair (c :: s) := by
  obtain ⟨pre, u, v, post, rfl, h⟩ := h
  exact ⟨c :: pre, u, v, post, rfl, h⟩

theorem textUnits_range {s : PyStr} (h : IsText s) : ∀ u ∈ textUnits s, u < 0x10000 := by
  intro u hu
  obtain ⟨c, hc, hu⟩ := List.mem_flatMap.mp hu
  exact utf16_range (h c hc) u hu

theorem decode_textUnits {s : PyStr} (h : IsText s) (hp : ¬ HasSplitPair s) : decodeUnits (textUnits s) = s := by
  induction s with
  | nil => rfl
  | cons c s ih =>
    have ih := ih (fun q hq => h q (by simp [hq])) fun hx => hp (splitPair_cons hx)
    have hc := h c (by simp)
    by_cases hb : c < 0x10000
    · have : textUnits (c :: s) = c :: textUnits s := by simp [textUnits, utf16, hb]
      rw [this]
      cases hu : textUnits s with
      | nil => rw [hu] at ih; rw [← ih]; rfl
      | cons v us =>
        rw [decodeUnits, if_neg, ← hu, ih]
        rintro ⟨h1, h2⟩
        cases s with
        | nil => simp at hu
        | cons d s =>
          simp only [textUnits, List.flatMap_cons, utf16] at hu
          split at hu
          · simp only [List.singleton_append, List.cons.injEq] at hu
            obtain ⟨rfl, _⟩ := hu
            exact hp ⟨[], c, d, s, rfl, h1, h2⟩
          · rename_i hd
            simp only [List.cons_append, List.cons.injEq] at hu
            have := h d (by simp)
            omega
    · have : textUnits (c :: s) = (0xD800 + (c - 0x10000) / 0x400) :: (0xDC00 + (c - 0x10000) % 0x400) ::
          textUnits s := by simp [textUnits, utf16, hb]
      rw [this, decodeUnits, if_pos (by omega), ih]
      have e : 0x10000 + (0xD800 + (c - 0x10000) / 0x400 - 0xD800) * 0x400 +
          (0xDC00 + (c - 0x10000) % 0x400 - 0xDC00) = c := by omega
      rw [e]

theorem noSplit_decode (us : List Nat) : ¬ HasSplitPair (decodeUnits us) ∧
    (∀ c s, decodeUnits us = c :: s → c < 0x10000 → ∃ us', us = c :: us') := by
  fun_induction decodeUnits us with
  | case1 =>
    refine ⟨?_, by simp⟩
    rintro ⟨pre, u, v, post, h, _⟩
    cases pre <;> simp at h
  | case2 u =>
    refine ⟨?_, by simp⟩
    rintro ⟨pre, u, v, post, h, _⟩
    cases pre with
    | nil => simp at h
    | cons _ p => cases p <;> simp at h
  | case3 u v us h ih =>
    refine ⟨?_, ?_⟩
    · rintro ⟨pre, x, y, post, h', hx, hy⟩
      cases pre with
      | nil =>
        simp only [List.nil_append, List.cons.injEq] at h'
        unfold IsHigh at hx
        omega
      | cons c pre =>
        simp only [List.cons_append, List.cons.injEq] at h'
        exact ih.1 ⟨pre, x, y, post, h'.2, hx, hy⟩
    · intro c s h' hc
      simp only [List.cons.injEq] at h'
      omega
  | case4 u v us h ih =>
    refine ⟨?_, ?_⟩
    · rintro ⟨pre, x, y, post, h', hx, hy⟩
      cases pre with
      | nil =>
        simp only [List.nil_append, List.cons.injEq] at h'
        obtain ⟨rfl, h'⟩ := h'
        unfold IsLow at hy
        unfold IsHigh at hx
        obtain ⟨us', hu⟩ := ih.2 y post h' (by omega)
        simp only [List.cons.injEq] at hu
        omega
      | cons c pre =>
        simp only [List.cons_append, List.cons.injEq] at h'
        exact ih.1 ⟨pre, x, y, post, h'.2, hx, hy⟩
    · intro c s h' hc
      simp only [List.cons.injEq] at h'
      obtain ⟨rfl, _⟩ := h'
      exact ⟨_, rfl⟩

theorem textUnits_decode {us : List Nat} (h : ∀ u ∈ us, u < 0x10000) :
    textUnits (decodeUnits us) = us := by
  fun_induction decodeUnits us with
  | case1 => rfl
  | case2 u => simp [textUnits, utf16, h u (by simp)]
  | case3 u v us hp ih =>
    simp only [textUnits, List.flatMap_cons] at ih ⊢
    rw [ih fun x hx => h x (by simp [hx]), utf16, if_neg (by omega)]
    simp only [List.cons_append, List.nil_append, List.cons.injEq, and_true]
    omega
  | case4 u v us hp ih =>
    simp only [textUnits, List.flatMap_cons] at ih ⊢
    rw [ih fun x hx => h x (by simp at hx ⊢; simp [hx]), utf16, if_pos (h u (by simp))]
    rfl

theorem hexVal_range {c v : Nat} (h : hexVal c = some v) : v < 16 := by
  unfold hexVal at h
  split at h
  · simp at h; omega
  · split at h
    · simp at h; omega
    · split at h
      · simp at h; omega
      · cases h

theorem subAll_range {bs : List Nat} (h : ∀ b ∈ bs, b < 256) : ∀ b ∈ subAll bs, b < 256 := by
  generalize hn : bs.length = n
  induction n using Nat.strongRecOn generalizing bs with
  | _ n ih =>
    cases bs with
    | nil => simp [subAll_nil]
    | cons b bs =>
      cases hm : matchEscape (b :: bs) with
      | none =>
        rw [subAll_skip hm]
        intro x hx
        rcases List.mem_cons.mp hx with rfl | hx
        · exact h x (by simp)
        · exact ih bs.length (by simp at hn; omega) (fun q hq => h q (by simp [hq])) rfl x hx
      | some y =>
        obtain ⟨r, rest⟩ := y
        rw [subAll_match hm]
        have hl := (matchEscape_length hm).1
        obtain ⟨a, b', c, d, hb, va, vb, vc, vd, h1, h2, h3, h4, rfl⟩ := matchEscape_some hm
        have g1 := hexVal_range h1
        have g2 := hexVal_range h2
        have g3 := hexVal_range h3
        have g4 := hexVal_range h4
        intro x hx
        rcases List.mem_append.mp hx with hx | hx
        · simp at hx; omega
        · exact ih rest.length (by simp at hl hn; omega) (fun q hq => h q (by rw [hb]; simp [hq])) rfl x hx

theorem bytesUnits_range {bs us : List Nat} (hb : ∀ b ∈ bs, b < 256) (h : bytesUnits bs = .ok us) :
    ∀ u ∈ us, u < 0x10000 := by
  induction us generalizing bs with
  | nil => simp
  | cons u us ih =>
    rcases bs with _ | ⟨a, _ | ⟨b, bs⟩⟩
    · cases h
    · cases h
    · simp only [bytesUnits] at h
      cases hr : bytesUnits bs with
      | error e => simp [hr, Except.map] at h
      | ok us' =>
        simp only [hr, Except.map, Except.ok.injEq, List.cons.injEq] at h
        obtain ⟨h1, rfl⟩ := h
        have g1 := hb a (by simp)
        have g2 := hb b (by simp)
        intro x hx
        rcases List.mem_cons.mp hx with rfl | hx
        · omega
        · exact ih (fun q hq => hb q (by simp [hq])) hr x hx

theorem unitsBytes_range {us : List Nat} (h : ∀ u ∈ us, u < 0x10000) : ∀ b ∈ unitsBytes us, b < 256 := by
  intro b hb
  obtain ⟨u, hu, hb⟩ := List.mem_flatMap.mp hb
  have := h u hu
  simp [unitBytes] at hb
  omega

end Verif
