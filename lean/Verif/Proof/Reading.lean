import Verif.Spec.Reading
import Verif.Proof.Forms
import Verif.Proof.Clixml

/-! # Reading what other peers write: lemmas for C69 -/

namespace Verif

/-! ## Digits -/

theorem Digits.ascii {n : Nat} {t : PyStr} (h : Digits n t) : ∀ c ∈ t, 48 ≤ c ∧ c ≤ 57 := by
  induction h with
  | nil => simp
  | snoc h d hd ih =>
    intro c hc
    rcases List.mem_append.mp hc with hc | hc
    · exact ih c hc
    · simp at hc; omega

theorem Digits.val {n : Nat} {t : PyStr} (h : Digits n t) : digitsVal (t.map (· - 48)) = n := by
  induction h with
  | nil => rfl
  | snoc h d hd ih =>
    rw [List.map_append, List.map_cons, List.map_nil, digitsVal_snoc, ih]
    omega

theorem Digits.pad {n : Nat} {t : PyStr} (h : Digits n t) : t = padDigits t.length n ∧ n < 10 ^ t.length := by
  induction h with
  | nil => exact ⟨rfl, by simp⟩
  | @snoc n t h d hd ih =>
    rw [List.length_append, List.length_singleton, padDigits]
    have h1 : (10 * n + d) / 10 = n := by omega
    have h2 : (10 * n + d) % 10 = d := by omega
    rw [h1, h2, ← ih.1, Nat.pow_succ]
    exact ⟨rfl, by omega⟩

theorem Fixed.pad {k n : Nat} {t : PyStr} (h : Fixed k n t) : t = padDigits k n ∧ n < 10 ^ k := by
  have := h.1.pad
  rwa [h.2] at this

/-! ## Integers -/

theorem all_ascii (s : PyStr) : s.all (fun c => (asciiDigit c).isSome) = true ↔ ∀ c ∈ s, 48 ≤ c ∧ c ≤ 57 := by
  rw [List.all_eq_true]
  exact ⟨fun h c hc => isSome_asciiDigit.mp (h c hc), fun h c hc => isSome_asciiDigit.mpr (h c hc)⟩

theorem readInt_iff (k : IntKind) (t : PyStr) (p : Prim) : readInt k t = .ok p ↔
    ∃ v, p = .int k v ∧ ((t = [] ∧ v = 0) ∨ (IntegerText v t ∧ k.InRange v)) := by
  unfold readInt
  by_cases ht : t = []
  · subst ht
    rw [if_pos rfl]
    have : k.new .none = .ok 0 := by cases k <;> decide
    rw [this]
    constructor
    · intro h; cases h; exact ⟨0, rfl, .inl ⟨rfl, rfl⟩⟩
    · rintro ⟨v, rfl, ⟨_, rfl⟩ | ⟨h, _⟩⟩
      · rfl
      · exact absurd rfl h.ne_nil
  · rw [if_neg ht]
    cases hi : intOfText t with
    | error e =>
      constructor
      · intro h; cases h
      · rintro ⟨v, rfl, ⟨h, _⟩ | ⟨h, _⟩⟩
        · exact absurd h ht
        · rw [(intOfText_iff t v).mpr h] at hi; cases hi
    | ok w =>
      have hw := (intOfText_iff t w).mp hi
      dsimp only
      constructor
      · intro h
        cases hn : k.new (.number w) with
        | error e => rw [hn] at h; cases h
        | ok x =>
          rw [hn] at h
          obtain ⟨rfl, hr⟩ := (k.new_number w x).mp hn
          cases h
          exact ⟨x, rfl, .inr ⟨hw, hr⟩⟩
      · rintro ⟨v, rfl, ⟨h, _⟩ | ⟨h, hr⟩⟩
        · exact absurd h ht
        · rw [(intOfText_iff t v).mpr h, Except.ok.injEq] at hi
          subst hi
          rw [(k.new_number _ _).mpr ⟨rfl, hr⟩]
          rfl

/-! ## Strings -/

theorem hexAny_iff (d c : Nat) : HexAny d c ↔ hexVal c = some d := by
  unfold HexAny HexOf hexVal
  split
  · simp; omega
  · split
    · simp; omega
    · split
      · simp; omega
      · simp; omega

theorem charUnits_iff {c : Nat} (hc : c < 0x110000) (us : List Nat) : CharUnits c us ↔ us = utf16 c := by
  unfold CharUnits utf16 IsHigh IsLow
  constructor
  · rintro (⟨h, rfl⟩ | ⟨u, v, hu, hv, e, rfl⟩)
    · rw [if_pos h]
    · rw [if_neg (by omega)]
      simp only [List.cons.injEq, and_true]
      omega
  · rintro rfl
    by_cases h : c < 0x10000
    · rw [if_pos h]; exact .inl ⟨h, rfl⟩
    · rw [if_neg h]
      exact .inr ⟨_, _, by omega, by omega, by omega, rfl⟩

/-- A unit that is not half of a pair is a character. -/
theorem textUnits_head {t : PyStr} (ht : IsText t) {u : Nat} {us : List Nat} (h : textUnits t = u :: us) (hu : u < 0xD800) :
    ∃ t', t = u :: t' ∧ us = textUnits t' := by
  cases t with
  | nil => simp at h
  | cons c t =>
    have hc := ht c (by simp)
    simp only [textUnits, List.flatMap_cons] at h
    unfold utf16 at h
    split at h
    · simp only [List.singleton_append, List.cons.injEq] at h
      obtain ⟨rfl, rfl⟩ := h
      exact ⟨t, rfl, rfl⟩
    · simp only [List.cons_append, List.cons.injEq] at h
      omega

theorem IsText.tail {c : Nat} {t : PyStr} (h : IsText (c :: t)) : IsText t := fun d hd => h d (by simp [hd])

/-- A match at an even byte is an escape. -/
theorem even_match {t : PyStr} (ht : IsText t) {r rest : List Nat} (hm : matchEscape (unitsBytes (textUnits t)) = some (r, rest)) :
    ∃ u t', EscapeAt u t t' := by
  obtain ⟨a, b, c, d, hb, va, vb, vc, vd, ha, hb', hc, hd, _⟩ := matchEscape_some hm
  have hr : ∀ {x v}, hexVal x = some v → 48 ≤ x ∧ x ≤ 102 := by
    intro x v h
    have := (isHexDigit_iff x).mpr ⟨_, h⟩
    unfold IsHexDigit at this
    omega
  have step : ∀ {t : PyStr} {y : Nat} {bs : List Nat}, IsText t → unitsBytes (textUnits t) = 0 :: y :: bs →
      ∃ t', t = y :: t' ∧ unitsBytes (textUnits t') = bs ∧ IsText t' := by
    intro t y bs ht hx
    obtain ⟨u, us, e1, e2, e3, e4⟩ := unitsBytes_inj_head hx.symm
    obtain ⟨t', e5, e6⟩ := textUnits_head ht e1 (by omega)
    have : u = y := by omega
    subst this
    subst e5
    exact ⟨t', rfl, by rw [e4, e6], ht.tail⟩
  obtain ⟨t1, rfl, h1, i1⟩ := step ht hb
  obtain ⟨t2, rfl, h2, i2⟩ := step i1 h1
  obtain ⟨t3, rfl, h3, i3⟩ := step i2 h2
  obtain ⟨t4, rfl, h4, i4⟩ := step i3 h3
  obtain ⟨t5, rfl, h5, i5⟩ := step i4 h4
  obtain ⟨t6, rfl, h6, i6⟩ := step i5 h5
  obtain ⟨t7, rfl, h7, i7⟩ := step i6 h6
  exact ⟨_, t7, va, vb, vc, vd, a, b, c, d, rfl, (hexAny_iff _ _).mpr ha, (hexAny_iff _ _).mpr hb', (hexAny_iff _ _).mpr hc,
    (hexAny_iff _ _).mpr hd, rfl⟩

/-- A match at an odd byte starts with the two misleading characters. -/
theorem odd_match_units {t : PyStr} (ht : IsText t) {l : Nat} {r rest : List Nat}
    (hm : matchEscape (l :: unitsBytes (textUnits t)) = some (r, rest)) : ∃ t', t = 0x5F00 :: 0x7800 :: t' := by
  obtain ⟨a, b, c, d, hb, _⟩ := matchEscape_some hm
  simp only [List.cons.injEq] at hb
  obtain ⟨_, hb⟩ := hb
  obtain ⟨u, us, e1, e2, e3, e4⟩ := unitsBytes_inj_head hb.symm
  obtain ⟨t1, rfl, e6⟩ := textUnits_head ht e1 (by omega)
  rw [e6] at e4
  obtain ⟨v, vs, f1, f2, f3, f4⟩ := unitsBytes_inj_head e4
  obtain ⟨t2, rfl, f6⟩ := textUnits_head ht.tail f1 (by omega)
  refine ⟨t2, ?_⟩
  simp only [List.cons.injEq, and_true]
  omega

theorem EscapeAt.sub {u : Nat} {t rest : PyStr} (h : EscapeAt u t rest) :
    subAll (unitsBytes (textUnits t)) = unitBytes u ++ subAll (unitsBytes (textUnits rest)) := by
  obtain ⟨a, b, c, d, a', b', c', d', rfl, ha, hb, hc, hd, rfl⟩ := h
  rw [hexAny_iff] at ha hb hc hd
  have hr : ∀ {x v}, hexVal x = some v → x < 256 := by
    intro x v h
    have := (isHexDigit_iff x).mpr ⟨_, h⟩
    unfold IsHexDigit at this
    omega
  have hv := @hexVal_range
  have k : ∀ x, x < 256 → ∀ s, unitsBytes (textUnits (x :: s)) = 0 :: x :: unitsBytes (textUnits s) := by
    intro x hx s
    simp only [textUnits, List.flatMap_cons, utf16]
    rw [if_pos (by omega), List.singleton_append, unitsBytes_cons]
    congr 1
    · omega
    · congr 1; omega
  rw [k 95 (by omega), k 120 (by omega), k a' (hr ha), k b' (hr hb), k c' (hr hc), k d' (hr hd), k 95 (by omega),
    subAll_match (matchEscape_eq _ ha hb hc hd)]
  have := hv ha; have := hv hb; have := hv hc; have := hv hd
  simp only [unitBytes]
  congr 1
  simp only [List.cons.injEq, and_true]
  omega

theorem NoSurrogates.text {t : PyStr} (h : NoSurrogates t) : IsText t := fun c hc => (h c hc).1

theorem EscapeAt.mem {u : Nat} {t rest : PyStr} (h : EscapeAt u t rest) : ∃ pre, t = pre ++ rest := by
  obtain ⟨a, b, c, d, a', b', c', d', _, _, _, _, _, rfl⟩ := h
  exact ⟨[95, 120, a', b', c', d', 95], rfl⟩

theorem Misleading.append {pre t : PyStr} (h : Misleading t) : Misleading (pre ++ t) := by
  obtain ⟨a, b, rfl⟩ := h
  exact ⟨pre ++ a, b, by simp⟩

theorem unescaped_sub {t : PyStr} {us : List Nat} (h : Unescaped t us) (ht : NoSurrogates t) (hm : ¬ Misleading t) :
    subAll (unitsBytes (textUnits t)) = unitsBytes us := by
  induction h with
  | nil => rfl
  | @escape u t rest us he h ih =>
    obtain ⟨pre, rfl⟩ := he.mem
    rw [he.sub, ih (fun c hc => ht c (by simp [hc])) fun hx => hm hx.append]
    rfl
  | @plain c t cs us hn hc h ih =>
    have ih := ih (fun c hc => ht c (by simp [hc])) fun hx => hm (hx.append (pre := [c]))
    have htc := ht c (by simp)
    rw [charUnits_iff htc.1] at hc
    subst hc
    have hodd : ∀ l, matchEscape (l :: unitsBytes (textUnits t)) = none := by
      intro l
      cases hx : matchEscape (l :: unitsBytes (textUnits t)) with
      | none => rfl
      | some x =>
        obtain ⟨t', rfl⟩ := odd_match_units ht.text.tail hx
        exact absurd ⟨[c], t', rfl⟩ hm
    have hev : matchEscape (unitsBytes (textUnits (c :: t))) = none := by
      cases hx : matchEscape (unitsBytes (textUnits (c :: t))) with
      | none => rfl
      | some x =>
        obtain ⟨u, r, he⟩ := even_match ht.text hx
        exact absurd he (hn u r)
    have hhead : ∀ x l, 216 ≤ x → matchEscape (x :: l) = none := by
      intro x l hx
      cases hy : matchEscape (x :: l) with
      | none => rfl
      | some y =>
        obtain ⟨_, _, _, _, hb, _⟩ := matchEscape_some hy
        simp only [List.cons.injEq] at hb
        omega
    have hsnd : ∀ y x l, 216 ≤ x → matchEscape (y :: x :: l) = none := by
      intro y x l hx
      cases hy : matchEscape (y :: x :: l) with
      | none => rfl
      | some y =>
        obtain ⟨_, _, _, _, hb, _⟩ := matchEscape_some hy
        simp only [List.cons.injEq] at hb
        omega
    have hsplit : textUnits (c :: t) = utf16 c ++ textUnits t := rfl
    rw [hsplit] at hev ⊢
    by_cases hb : c < 0x10000
    · have h1 : utf16 c = [c] := by unfold utf16; rw [if_pos hb]
      rw [h1, List.singleton_append, unitsBytes_cons] at hev ⊢
      rw [subAll_skip hev, subAll_skip (hodd _), ih, List.singleton_append, unitsBytes_cons]
    · have h1 : utf16 c = [0xD800 + (c - 0x10000) / 0x400, 0xDC00 + (c - 0x10000) % 0x400] := by unfold utf16; rw [if_neg hb]
      rw [h1]
      simp only [List.cons_append, List.nil_append, unitsBytes_cons]
      rw [subAll_skip (hhead _ _ (by omega)), subAll_skip (hsnd _ _ _ (by omega)), subAll_skip (hhead _ _ (by omega)),
        subAll_skip (hodd _), ih]

theorem unescaped_range {t : PyStr} {us : List Nat} (h : Unescaped t us) : ∀ u ∈ us, u < 0x10000 := by
  induction h with
  | nil => simp
  | escape he h ih =>
    obtain ⟨a, b, c, d, a', b', c', d', rfl, ha, hb, hc, hd, _⟩ := he
    rw [hexAny_iff] at ha hb hc hd
    have := hexVal_range ha; have := hexVal_range hb; have := hexVal_range hc; have := hexVal_range hd
    intro u hu
    rcases List.mem_cons.mp hu with rfl | hu
    · omega
    · exact ih u hu
  | plain hn hc h ih =>
    intro u hu
    rcases List.mem_append.mp hu with hu | hu
    · rcases hc with ⟨hc, rfl⟩ | ⟨a, b, ha, hb, _, rfl⟩
      · simp at hu; omega
      · unfold IsHigh at ha; unfold IsLow at hb
        simp at hu; omega
    · exact ih u hu

theorem spelled_decode {s : PyStr} {us : List Nat} (h : Spelled s us) : decodeUnits us = s := by
  induction h with
  | nil => rfl
  | @single c s us hc h ih =>
    cases us with
    | nil => cases h; rfl
    | cons v us =>
      rw [decodeUnits, if_neg, ih]
      rintro ⟨h1, h2⟩
      exact hc h1 v rfl h2
  | @pair u v s us hu hv h ih =>
    rw [decodeUnits, if_pos ⟨hu, hv⟩, ih, Nat.mul_comm]

theorem read_string {t s : PyStr} {us : List Nat} (h : Unescaped t us) (hs : Spelled s us) (ht : NoSurrogates t)
    (hm : ¬ Misleading t) : deserializeString t = .ok s := by
  have he : encodeUtf16 t = .ok (unitsBytes (textUnits t)) := by
    unfold encodeUtf16
    rw [if_neg]
    simp only [List.any_eq_true, isSurrogate, decide_eq_true_eq, not_exists, not_and]
    intro c hc h1 h2
    have := ht c hc
    unfold IsHigh IsLow at this
    omega
  unfold deserializeString
  rw [he]
  dsimp only
  have : subEscapes (unitsBytes (textUnits t)).length (unitsBytes (textUnits t)) = unitsBytes us := unescaped_sub h ht hm
  rw [this, bytesUnits_units (unescaped_range h)]
  simp only [Except.map]
  rw [spelled_decode hs]

/-- Every text stands for some units. -/
theorem unescaped_exists : ∀ n t, t.length ≤ n → NoSurrogates t → ∃ us, Unescaped t us := by
  intro n
  induction n with
  | zero => intro t hl _; cases t with
    | nil => exact ⟨[], .nil⟩
    | cons c t => simp at hl
  | succ n ih =>
    intro t hl ht
    cases t with
    | nil => exact ⟨[], .nil⟩
    | cons c t =>
      rcases Classical.em (∃ u rest, EscapeAt u (c :: t) rest) with ⟨u, rest, he⟩ | hn
      · obtain ⟨us, h⟩ := ih rest (by
          obtain ⟨_, _, _, _, _, _, _, _, _, _, _, _, _, e⟩ := he
          have := congrArg List.length e
          simp at this hl; omega) (by
          obtain ⟨pre, e⟩ := he.mem
          intro d hd
          exact ht d (by rw [e]; simp [hd]))
        exact ⟨u :: us, .escape he h⟩
      · obtain ⟨us, h⟩ := ih t (by simp at hl; omega) fun d hd => ht d (by simp [hd])
        exact ⟨_, .plain (fun u rest he => hn ⟨u, rest, he⟩) ((charUnits_iff (ht c (by simp)).1 _).mpr rfl) h⟩

theorem spelled_exists : ∀ n us, us.length ≤ n → ∃ s, Spelled s us := by
  intro n
  induction n with
  | zero => intro us hl; cases us with
    | nil => exact ⟨[], .nil⟩
    | cons c t => simp at hl
  | succ n ih =>
    intro us hl
    match us with
    | [] => exact ⟨[], .nil⟩
    | [u] => exact ⟨[u], .single (by simp) .nil⟩
    | u :: v :: us =>
      by_cases h : (0xD800 ≤ u ∧ u ≤ 0xDBFF) ∧ (0xDC00 ≤ v ∧ v ≤ 0xDFFF)
      · obtain ⟨s, hs⟩ := ih us (by simp at hl; omega)
        exact ⟨_, .pair h.1 h.2 hs⟩
      · obtain ⟨s, hs⟩ := ih (v :: us) (by simp at hl ⊢; omega)
        refine ⟨_, .single ?_ hs⟩
        intro hu w hw hl
        cases hw
        exact h ⟨hu, hl⟩

/-! ## Dates -/

theorem date_zone (v : DateFields) (h : v.Valid) (F M : PyStr) (us ns : Nat)
    (hs : ∀ z, ZoneLike z → splitFraction (dateText v ++ F ++ z) = (dateText v ++ M ++ z, ns))
    (hM : ScansTo M us) (hd : ∀ c ∈ M, c = 46 ∨ 48 ≤ c ∧ c ≤ 57) (z : PyStr) (hz : AnyZone v.offset z) :
    deserializeDateTime (dateText v ++ F ++ z) = .ok { v with microsecond := us, nanosecond := ns } := by
  cases ho : v.offset with
  | none =>
    rw [ho] at hz
    have e : z = zoneText v.offset := by rw [ho]; exact hz
    rw [e, ← ho]
    exact deserialize_fraction v h (fun o e => by rw [ho] at e; cases e) F M us ns hs hM hd
  | some o =>
    rw [ho] at hz
    rcases hz with ⟨rfl, hz⟩ | ⟨hh, mm, h', m', hh24, mm60, fh, fm, hz⟩
    · have e : z = zoneText v.offset := by rw [ho, hz]; decide
      rw [e, ← ho]
      exact deserialize_fraction v h (fun o e => by rw [ho] at e; cases e; rfl) F M us ns hs hM hd
    · rw [fh.pad.1, fm.pad.1] at hz
      obtain ⟨sg, hsg, hsv, rfl⟩ : ∃ sg, (sg = 43 ∨ sg = 45) ∧ o = (if sg = 43 then (((hh * 3600 + mm * 60 : Nat)) : Int)
          else -((hh * 3600 + mm * 60 : Nat) : Int)) ∧ z = sg :: (padDigits 2 hh ++ 58 :: padDigits 2 mm) := by
        rcases hz with ⟨ho, rfl⟩ | ⟨ho, rfl⟩
        · exact ⟨43, .inl rfl, by simp only [↓reduceIte]; omega, rfl⟩
        · exact ⟨45, .inr rfl, by simp only [Nat.reduceEqDiff, ↓reduceIte]; omega, rfl⟩
      have hzl : ZoneLike (sg :: (padDigits 2 hh ++ 58 :: padDigits 2 mm)) := by
        refine ⟨?_, ?_⟩
        · intro c s e
          cases e
          omega
        · intro c hc
          simp only [List.mem_append, List.mem_cons] at hc
          rcases hc with hc | hc | hc | hc
          · omega
          · have := padDigits_ascii _ _ c hc; omega
          · omega
          · have := padDigits_ascii _ _ c hc; omega
      unfold deserializeDateTime
      rw [hs _ hzl]
      dsimp only
      rw [searchOffset_found _ _ _ _ hsg (by omega) (by omega)]
      dsimp only
      rw [strptime_text v h M us hM true _ _ (by intro c s e; cases e; omega)
        (scanZone_offset sg _ _ hsg (by omega) (by omega))]
      dsimp only
      rw [← hsv]

theorem read_date {d : DateFields} {t : PyStr} (hv : d.Valid) (h : AnyDate d t) : deserializeDateTime t = .ok d := by
  obtain ⟨y, mo, da, hh, mi, s, f, z, h1, h2, h3, h4, h5, h6, hf, hz, rfl⟩ := h
  rw [h1.pad.1, h2.pad.1, h3.pad.1, h4.pad.1, h5.pad.1, h6.pad.1]
  show deserializeDateTime (dateText d ++ f ++ z) = .ok d
  rcases hf with ⟨e1, e2, rfl⟩ | ⟨n, u, hd, hne, hl, rfl, hu, hn⟩
  · have hft : fractionText d = [] := by unfold fractionText; rw [if_neg (by omega)]
    have hmt : microText d = [] := by unfold microText; rw [if_neg (by omega)]
    have hs : ∀ z, ZoneLike z → splitFraction (dateText d ++ [] ++ z) = (dateText d ++ [] ++ z, 0) := by
      intro z hz
      have := splitFraction_text d (by omega) z hz
      rw [hft, hmt, e2] at this
      exact this
    have hM : ScansTo [] 0 := by
      intro z hz
      have := scanMicro_text d (by omega) z hz
      rwa [hmt, e1] at this
    rw [date_zone d hv [] [] 0 0 hs hM (by simp) z hz]
    congr 1
    cases d
    dsimp only at e1 e2 ⊢
    rw [e1, e2]
  · obtain ⟨e, hlt⟩ := hd.pad
    have hk : 1 ≤ u.length := List.length_pos_iff.mpr hne
    have dig : ∀ k f, ∀ c ∈ 46 :: padDigits k f, c = 46 ∨ 48 ≤ c ∧ c ≤ 57 := by
      intro k f c hc
      rcases List.mem_cons.mp hc with hc | hc
      · exact .inl hc
      · exact .inr (padDigits_ascii _ _ c hc)
    have hns := hv.2.2.2.2.2.2.2.1
    rw [e]
    generalize u.length = k at *
    by_cases e7 : k = 7
    · subst e7
      rw [date_zone d hv (46 :: padDigits 7 n) (46 :: padDigits 6 (n / 10)) (n / 10 * 10 ^ (6 - 6))
        (n % 10 * 100) (fun z hz => split_seven d n z hz) (scansTo_digits 6 (n / 10) (by omega) (by omega) (by omega)) (dig _ _) z hz]
      have a1 : n / 10 * 10 ^ (6 - 6) = d.microsecond := by simp at hu ⊢; omega
      have a2 : n % 10 * 100 = d.nanosecond := by simp at hu; omega
      rw [a1, a2]
    · have h6 : k ≤ 6 := by omega
      rw [date_zone d hv _ _ _ 0 (fun z hz => split_digits d k n hk h6 z hz) (scansTo_digits k n hk h6 hlt) (dig _ _) z hz]
      have : 7 - k = (6 - k) + 1 := by omega
      rw [this, Nat.pow_succ, ← Nat.mul_assoc] at hu
      have a1 : n * 10 ^ (6 - k) = d.microsecond := by omega
      have a2 : 0 = d.nanosecond := by omega
      rw [a1, a2]

/-! ## Durations -/

/-- No number that is followed by a letter is at the start of the text. -/
def Stops (uni : Nat → Option Nat) (x : Nat) (s : PyStr) : Prop :=
  ∀ ds r, PSVersion.scanDigits uni s = (ds, r) → ds = [] ∨ r.head? ≠ some x

theorem scanDigits_digits {uni : Nat → Option Nat} (hu : ExtendsAscii uni) {n : Nat} {u : PyStr} (h : Digits n u) (x : Nat)
    (r : PyStr) (hx : 58 ≤ x ∧ x < 128 ∨ x = 46) : PSVersion.scanDigits uni (u ++ x :: r) = (u.map (· - 48), x :: r) :=
  scanDigits_ascii hu _ _ h.ascii (letter_stop hu hx)

theorem stops_count {uni : Nat → Option Nat} (hu : ExtendsAscii uni) {unit n x : Nat} {t s : PyStr} (h : AnyCount unit n t)
    (hl : 58 ≤ unit ∧ unit < 128) (hx : x ≠ unit) (hs : Stops uni x s) : Stops uni x (t ++ s) := by
  rcases h with ⟨_, rfl⟩ | ⟨u, hd, hne, rfl⟩
  · exact hs
  · intro ds r h
    rw [List.append_assoc, List.singleton_append, scanDigits_digits hu hd _ _ (.inl hl)] at h
    cases h
    exact .inr (by simpa using fun e => hx e.symm)

theorem scan_count {uni : Nat → Option Nat} (hu : ExtendsAscii uni) {unit n : Nat} {t s : PyStr} (h : AnyCount unit n t)
    (hl : 58 ≤ unit ∧ unit < 128) (hs : Stops uni unit s) : scanCount uni unit (t ++ s) = (n, s) := by
  unfold scanCount
  rcases h with ⟨rfl, rfl⟩ | ⟨u, hd, hne, rfl⟩
  · rw [List.nil_append]
    rcases hp : PSVersion.scanDigits uni s with ⟨ds, r⟩
    dsimp only
    rw [if_neg]
    rintro ⟨h1, h2⟩
    rcases hs ds r hp with h | h
    · exact h1 h
    · exact h h2
  · rw [List.append_assoc, List.singleton_append, scanDigits_digits hu hd _ _ (.inl hl)]
    dsimp only
    rw [if_pos ⟨by simpa using hne, rfl⟩, hd.val]
    rfl

theorem stops_seconds {uni : Nat → Option Nat} (hu : ExtendsAscii uni) {n x : Nat} {t : PyStr} (h : AnySeconds n t)
    (hx : x ≠ 83 ∧ x ≠ 46) : Stops uni x t := by
  intro ds r hp
  rcases h with ⟨rfl, rfl⟩ | ⟨k, u, hd, hne, _, ⟨_, rfl⟩ | ⟨m, f, hf, hfn, _, _, rfl⟩⟩
  · cases hp; exact .inl rfl
  · rw [scanDigits_digits hu hd _ _ (by omega)] at hp
    cases hp
    exact .inr (by simp; omega)
  · rw [List.append_assoc, List.cons_append, scanDigits_digits hu hd _ _ (by omega)] at hp
    cases hp
    exact .inr (by simp; omega)

theorem scan_seconds {uni : Nat → Option Nat} (hu : ExtendsAscii uni) {n : Nat} {t : PyStr} (h : AnySeconds n t) :
    ∃ k fs, scanSeconds uni t = (k, fs, []) ∧ k * 1000000000 + fractionTicks fs * 100 = n * 100 := by
  rcases h with ⟨rfl, rfl⟩ | ⟨k, u, hd, hne, _, ⟨rfl, rfl⟩ | ⟨m, f, hf, hfn, hl, rfl, rfl⟩⟩
  · exact ⟨0, [], by simp [scanSeconds, PSVersion.scanDigits], by decide⟩
  · refine ⟨k, [], ?_, ?_⟩
    · unfold scanSeconds
      rw [scanDigits_digits hu hd _ _ (by omega)]
      dsimp only
      rw [if_pos (by rfl), hd.val]
      rfl
    · have : fractionTicks [] = 0 := by decide
      rw [this]; omega
  · refine ⟨k, f.map (· - 48), ?_, ?_⟩
    · unfold scanSeconds
      rw [List.append_assoc, List.cons_append, scanDigits_digits hu hd _ _ (by omega)]
      dsimp only
      rw [if_neg (by simp), if_pos (by rfl), List.drop_succ_cons, List.drop_zero, scanDigits_digits hu hf _ _ (by omega)]
      dsimp only
      rw [if_pos ⟨by rw [List.length_map]; cases f <;> simp_all, by rw [List.length_map]; exact hl, rfl⟩, hd.val]
      rfl
    · unfold fractionTicks
      rw [digitsVal_zeros, hf.val, List.length_map]
      omega

theorem AnyCount.first {unit n : Nat} {t : PyStr} (h : AnyCount unit n t) : ∀ c r, t = c :: r → 48 ≤ c ∧ c ≤ 57 := by
  rintro c r rfl
  rcases h with ⟨_, h⟩ | ⟨u, hd, hne, h⟩
  · cases h
  · cases u with
    | nil => exact absurd rfl hne
    | cons d u => cases h; exact hd.ascii c (by simp)

theorem AnySeconds.first {n : Nat} {t : PyStr} (h : AnySeconds n t) : ∀ c r, t = c :: r → 48 ≤ c ∧ c ≤ 57 := by
  rintro c r rfl
  rcases h with ⟨_, h⟩ | ⟨k, u, hd, hne, _, ⟨_, h⟩ | ⟨m, f, hf, hfn, _, _, h⟩⟩
  · cases h
  all_goals
    cases u with
    | nil => exact absurd rfl hne
    | cons d u => cases h; exact hd.ascii c (by simp)

theorem period_ticks (d h m s k q : Nat) (hv : k * 1000000000 + q * 100 = s * 100) :
    d * 86400 * 1000000000 + ((k + m * 60 + h * 3600) * 1000000000 + q * 100) =
      (864000000000 * d + 36000000000 * h + 600000000 * m + s) * 100 := by grind

theorem scan_period {uni : Nat → Option Nat} (hu : ExtendsAscii uni) {ticks : Nat} {t : PyStr} (h : AnyPeriod ticks t) :
    scanDuration uni t = some (ticks * 100) := by
  obtain ⟨d, td, hd, ⟨hne, rfl, rfl⟩ | ⟨h, m, s, th, tm, ts, hh, hm, hs, hne, rfl, rfl⟩⟩ := h
  · have hc := scan_count hu (s := []) hd (by decide) (fun ds r e => by
      left; simp [PSVersion.scanDigits] at e; exact e.1)
    rw [List.append_nil] at hc
    have ha : dotAhead td = true := by
      cases td with
      | nil => exact absurd rfl hne
      | cons c r => have := hd.first c r rfl; simp [dotAhead]; omega
    unfold scanDuration
    rw [if_pos ⟨rfl, by simpa using ha⟩, List.drop_succ_cons, List.drop_zero, hc]
    dsimp only
    rw [if_pos (by rfl)]
    exact congrArg some (by omega)
  · have e : (80 :: td ++ 84 :: th ++ tm ++ ts : PyStr) = 80 :: (td ++ 84 :: (th ++ (tm ++ ts))) := by simp
    rw [e]
    have hc := scan_count hu (s := 84 :: (th ++ (tm ++ ts))) hd (by decide) (fun ds r e => by
      rw [scanDigits_letter hu _ _ (by omega)] at e
      cases e
      exact .inl rfl)
    have hch := scan_count hu (s := tm ++ ts) hh (by decide)
      (stops_count hu hm (by decide) (by decide) (stops_seconds hu hs (by decide)))
    have hcm := scan_count hu (s := ts) hm (by decide) (stops_seconds hu hs (by decide))
    obtain ⟨k, fs, hcs, hv⟩ := scan_seconds hu hs
    have hda : dotAhead (td ++ 84 :: (th ++ (tm ++ ts))) = true := by
      cases td with
      | nil => simp [dotAhead]
      | cons c r => have := hd.first c r rfl; simp [dotAhead]; omega
    have hta : dotAhead (th ++ (tm ++ ts)) = true := by
      have hfirst : ∀ c r, th ++ (tm ++ ts) = c :: r → 48 ≤ c ∧ c ≤ 57 := by
        intro c r e
        cases th with
        | cons x th => cases e; exact hh.first _ _ rfl
        | nil =>
          cases tm with
          | cons x tm => cases e; exact hm.first _ _ rfl
          | nil => exact hs.first _ _ e
      rw [List.append_assoc] at hne
      cases hx : th ++ (tm ++ ts) with
      | nil => exact absurd hx hne
      | cons c r => have := hfirst c r hx; simp [dotAhead]; omega
    unfold scanDuration
    rw [if_pos ⟨rfl, by simpa using hda⟩, List.drop_succ_cons, List.drop_zero, hc]
    dsimp only
    rw [if_neg (by simp [PSVersion.atEnd]), if_pos (by rfl), List.drop_succ_cons, List.drop_zero]
    unfold scanTime
    rw [if_pos hta, hch]
    dsimp only
    rw [hcm]
    dsimp only
    rw [hcs]
    dsimp only
    rw [if_pos (by rfl), Option.map_some]
    exact congrArg some (period_ticks _ _ _ _ _ _ hv)

theorem AnyPeriod.head {n : Nat} {t : PyStr} (h : AnyPeriod n t) : t.head? = some 80 := by
  obtain ⟨d, td, _, ⟨_, _, rfl⟩ | ⟨_, _, _, _, _, _, _, _, _, _, _, rfl⟩⟩ := h <;> rfl

theorem read_span {uni : Nat → Option Nat} (hu : ExtendsAscii uni) {ticks : Int} {t : PyStr} (h : AnySpan ticks t) :
    deserializeDuration uni t = Duration.ofNanos (ticks * 100) := by
  obtain ⟨n, ⟨rfl, h⟩ | ⟨rfl, u, rfl, h⟩⟩ := h
  · unfold deserializeDuration
    have : ¬ t.head? = some 45 := by rw [h.head]; simp
    simp only [this, ↓reduceIte, scan_period hu h]
    congr 1
  · unfold deserializeDuration
    simp only [List.head?_cons, ↓reduceIte, List.drop_succ_cons, List.drop_zero, scan_period hu h]
    congr 1; omega

/-! ## Bytes -/

theorem SextetOf.val {d c : Nat} (h : SextetOf d c) : b64Val c = some d ∧ d < 64 ∧ c < 128 ∧ c ≠ 61 := by
  unfold SextetOf at h
  unfold b64Val
  split
  · simp; omega
  · split
    · simp; omega
    · split
      · simp; omega
      · split
        · simp; omega
        · split
          · simp; omega
          · omega

theorem b64_start {c d : Nat} (h : SextetOf d c) (s : PyStr) (p l : Nat) : b64Loop 0 l p (c :: s) = b64Loop 1 d 0 s := by
  obtain ⟨h1, _, _, h3⟩ := h.val
  rw [b64Loop, if_neg h3, h1]; rfl
theorem b64_second {c d : Nat} (h : SextetOf d c) (s : PyStr) (p l : Nat) :
    b64Loop 1 l p (c :: s) = (b64Loop 2 (d % 16) 0 s).map (UInt8.ofNat (l * 4 + d / 16) :: ·) := by
  obtain ⟨h1, _, _, h3⟩ := h.val
  rw [b64Loop, if_neg h3, h1]; rfl
theorem b64_third {c d : Nat} (h : SextetOf d c) (s : PyStr) (p l : Nat) :
    b64Loop 2 l p (c :: s) = (b64Loop 3 (d % 4) 0 s).map (UInt8.ofNat (l * 16 + d / 4) :: ·) := by
  obtain ⟨h1, _, _, h3⟩ := h.val
  rw [b64Loop, if_neg h3, h1]; rfl
theorem b64_fourth {c d : Nat} (h : SextetOf d c) (s : PyStr) (p l : Nat) :
    b64Loop 3 l p (c :: s) = (b64Loop 0 0 0 s).map (UInt8.ofNat (l * 64 + d) :: ·) := by
  obtain ⟨h1, _, _, h3⟩ := h.val
  rw [b64Loop, if_neg h3, h1]; rfl

theorem byte_of {n : Nat} {a : UInt8} (h : n % 256 = a.toNat) : UInt8.ofNat n = a := by
  apply UInt8.toNat_inj.mp
  rw [UInt8.toNat_ofNat']
  exact h

theorem read_loop {b : Bytes} {t : PyStr} (h : Base64 b t) : b64Loop 0 0 0 t = .ok b := by
  induction h with
  | nil => rfl
  | @one a w x w' x' h hw hx =>
    have := hw.val; have := hx.val; have := a.toNat_lt
    rw [b64_start hw, b64_second hx]
    have e : b64Loop 2 (x % 16) 0 [61, 61] = .ok [] := rfl
    rw [e]
    simp only [Except.map]
    rw [byte_of (a := a) (by omega)]
  | @two a b w x y w' x' y' h hw hx hy =>
    have := hw.val; have := hx.val; have := hy.val; have := a.toNat_lt; have := b.toNat_lt
    rw [b64_start hw, b64_second hx, b64_third hy]
    have e : b64Loop 3 (y % 4) 0 [61] = .ok [] := rfl
    rw [e]
    simp only [Except.map]
    rw [byte_of (a := a) (by omega), byte_of (a := b) (by omega)]
  | @three a b c w x y z w' x' y' z' bs t h hw hx hy hz ht ih =>
    have := hw.val; have := hx.val; have := hy.val; have := hz.val
    have := a.toNat_lt; have := b.toNat_lt; have := c.toNat_lt
    rw [b64_start hw, b64_second hx, b64_third hy, b64_fourth hz, ih]
    simp only [Except.map]
    rw [byte_of (a := a) (by omega), byte_of (a := b) (by omega), byte_of (a := c) (by omega)]

theorem Base64.ascii {b : Bytes} {t : PyStr} (h : Base64 b t) : ∀ c ∈ t, c < 128 := by
  induction h with
  | nil => simp
  | one h hw hx => have := hw.val; have := hx.val; simp; omega
  | two h hw hx hy => have := hw.val; have := hx.val; have := hy.val; simp; omega
  | three h hw hx hy hz ht ih =>
    have := hw.val; have := hx.val; have := hy.val; have := hz.val
    intro c hc
    simp only [List.mem_cons] at hc
    rcases hc with rfl | rfl | rfl | rfl | hc
    · omega
    · omega
    · omega
    · omega
    · exact ih c hc

theorem read_bytes {b : Bytes} {t : PyStr} (h : Base64 b t) : b64decode t = .ok b := by
  unfold b64decode
  rw [if_pos, read_loop h]
  rw [List.all_eq_true]
  intro c hc
  simpa using h.ascii c hc

end Verif
