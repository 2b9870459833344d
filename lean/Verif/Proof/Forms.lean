import Verif.Spec.Forms
import Verif.Proof.XmlDoc
import Verif.Proof.Duration
import Verif.Proof.Decimals
import Verif.Proof.Guid

/-! # Lemmas about the forms of CLIXML -/

namespace Verif

/-! ## Numbers -/

theorem digits_pad : ∀ k n, n < 10 ^ k → Digits n (padDigits k n) := by
  intro k
  induction k with
  | zero => intro n h; simp at h; subst h; exact .nil
  | succ k ih =>
    intro n h
    rw [Nat.pow_succ] at h
    have := Digits.snoc (ih (n / 10) (by omega)) (n % 10) (by omega)
    rwa [show 10 * (n / 10) + n % 10 = n by omega] at this

theorem fixed_pad {k n : Nat} (h : n < 10 ^ k) : Fixed k n (padDigits k n) := ⟨digits_pad k n h, padDigits_length k n⟩

/-! ## Escapes -/

theorem hexOf (d : Nat) (h : d < 16) : HexOf d (hexUpper d) := by
  unfold HexOf hexUpper
  split <;> omega

theorem escUnit (u : Nat) (h : u < 0x10000) : EscUnit u (escapeUnit u) :=
  ⟨u / 256 / 16, u / 256 % 16, u % 256 / 16, u % 256 % 16, _, _, _, _, by omega, hexOf _ (by omega), hexOf _ (by omega),
    hexOf _ (by omega), hexOf _ (by omega), rfl⟩

theorem esc_step {c : Nat} {s t : PyStr} (hc : c < 0x110000) (hb : ¬ (0xD900 ≤ c ∧ c ≤ 0xDBFF))
    (hx : c = 95 → s.head? ≠ some 120 ∧ s.head? ≠ some 88) (h : Esc s t) : Esc (c :: s) (escapeChar c ++ t) := by
  unfold escapeChar
  by_cases hn : needsEscape c = true
  · rw [if_pos hn]
    unfold utf16
    by_cases hl : c < 0x10000
    · rw [if_pos hl]
      have hh : Hidden c := by
        simp only [needsEscape, Bool.or_eq_true, decide_eq_true_eq] at hn
        unfold Hidden IsControl IsHigh IsLow
        omega
      have := Esc.unit hh (escUnit c hl) h
      simpa using this
    · rw [if_neg hl]
      have hu : IsHigh (0xD800 + (c - 0x10000) / 0x400) := by unfold IsHigh; omega
      have hv : IsLow (0xDC00 + (c - 0x10000) % 0x400) := by unfold IsLow; omega
      have := Esc.pair hu hv (escUnit _ (by omega)) (escUnit _ (by omega)) h
      rw [show 0x10000 + 0x400 * (0xD800 + (c - 0x10000) / 0x400 - 0xD800) + (0xDC00 + (c - 0x10000) % 0x400 - 0xDC00) = c
        by omega] at this
      simpa using this
  · rw [if_neg hn]
    simp only [needsEscape, Bool.or_eq_true, decide_eq_true_eq] at hn
    refine Esc.plain ?_ (by omega) hx h
    unfold Hidden IsControl IsHigh IsLow
    omega

theorem sound_tail {c : Nat} {s : PyStr} (h : Sound (c :: s)) :
    c < 0x110000 ∧ ¬ (0xD900 ≤ c ∧ c ≤ 0xDBFF) ∧ Sound s :=
  ⟨h.1 c (by simp), fun hc => h.2 ⟨c, by simp, hc⟩,
    fun d hd => h.1 d (by simp [hd]), fun ⟨d, hd, hc⟩ => h.2 ⟨d, by simp [hd], hc⟩⟩

theorem esc_serialize : ∀ s : PyStr, Sound s → Esc s (serializeString s) := by
  intro s
  unfold serializeString
  induction s using escapeUnderscores.induct with
  | case1 => intro _; exact .nil
  | case2 c =>
    intro h
    obtain ⟨h1, h2, _⟩ := sound_tail h
    exact esc_step h1 h2 (by simp) .nil
  | case3 c d s hx ih =>
    intro h
    obtain ⟨h1, h2, h'⟩ := sound_tail h
    obtain ⟨h3, h4, h'⟩ := sound_tail h'
    rw [escapeUnderscores, if_pos hx, List.flatMap_append]
    obtain ⟨rfl, hd⟩ := hx
    have hd' : Esc (d :: s) (escapeChar d ++ (escapeUnderscores s).flatMap escapeChar) :=
      esc_step h3 h4 (by omega) (ih h')
    have e : escapeChar d = [d] := by rcases hd with rfl | rfl <;> rfl
    have := Esc.under (s := d :: s) (by rcases hd with rfl | rfl <;> simp) hd'
    rw [e] at this
    rw [show List.flatMap escapeChar [95, 120, 48, 48, 53, 70, 95, d] = (txt! "_x005F_") ++ [d] by
      rcases hd with rfl | rfl <;> rfl]
    rw [List.append_assoc]
    exact this
  | case4 c d s hx ih =>
    intro h
    obtain ⟨h1, h2, h'⟩ := sound_tail h
    rw [escapeUnderscores, if_neg hx, List.flatMap_cons]
    refine esc_step h1 h2 (fun e => ?_) (ih h')
    simp only [List.head?_cons, ne_eq, Option.some.injEq]
    omega

/-! ## Base64 -/

theorem sextetOf (d : Nat) (h : d < 64) : SextetOf d (b64Char d) := by
  unfold SextetOf b64Char
  split
  · omega
  · split
    · omega
    · split
      · omega
      · split <;> omega

theorem base64_encode : ∀ b : Bytes, Base64 b (b64encode b) := by
  intro b
  induction b using b64encode.induct with
  | case1 => exact .nil
  | case2 a =>
    have := UInt8.toNat_lt a
    exact .one (by omega) (sextetOf _ (by omega)) (sextetOf _ (by omega))
  | case3 a b =>
    have := UInt8.toNat_lt a
    have := UInt8.toNat_lt b
    exact .two (by omega) (sextetOf _ (by omega)) (sextetOf _ (by omega)) (sextetOf _ (by omega))
  | case4 a b c bs ih =>
    have := UInt8.toNat_lt a
    have := UInt8.toNat_lt b
    have := UInt8.toNat_lt c
    exact .three (by omega) (sextetOf _ (by omega)) (sextetOf _ (by omega)) (sextetOf _ (by omega)) (sextetOf _ (by omega)) ih

/-! ## Dates, durations and versions -/

theorem zone_form {o : Option Int} (hz : ∀ x, o = some x → x % 60 = 0) (hr : ∀ x, o = some x → -86400 < x ∧ x < 86400) :
    ZoneText o (zoneText o) := by
  cases o with
  | none => rfl
  | some x =>
    have h1 := hz x rfl
    have h2 := hr x rfl
    unfold zoneText
    by_cases h0 : x = 0
    · subst h0; exact .inl ⟨rfl, rfl⟩
    · dsimp only
      rw [if_neg h0]
      refine .inr ⟨h0, _, _, fixed_pad (k := 2) (by omega), fixed_pad (k := 2) (by omega), ?_⟩
      unfold offsetText
      dsimp only
      rw [if_pos (show x.natAbs % 60 = 0 by omega)]
      simp [padDigits]

theorem fraction_form (v : DateFields) (hu : v.microsecond < 1000000) (hn : v.nanosecond < 1000) :
    FractionText v.microsecond v.nanosecond (fractionText v) := by
  unfold FractionText fractionText
  by_cases h1 : v.nanosecond = 0
  · by_cases h2 : v.microsecond = 0
    · rw [if_neg (by simp [h1, h2])]; exact .inl ⟨h2, h1, rfl⟩
    · rw [if_pos (.inl h2), if_neg (by simp [h1]), List.append_nil]
      exact .inr (.inl ⟨h2, h1, _, fixed_pad (by omega), rfl⟩)
  · rw [if_pos (.inr h1), if_pos h1]
    refine .inr (.inr ⟨h1, _, ?_, rfl⟩)
    have e : natStr (v.nanosecond / 100) = [48 + v.nanosecond / 100] := by
      unfold natStr natDigitsAux
      rw [if_pos (by omega)]
    rw [e]
    exact ⟨.snoc (digits_pad 6 _ (by omega)) _ (by omega), by simp [padDigits_length]⟩

theorem date_form {year4 : Nat → PyStr} {d : DateFields} (h : d.Valid) (hz : d.MinuteZone) (hy : FourDigits year4 d.year) :
    DateText d (serializeDateTime year4 d) := by
  obtain ⟨h1, h2, h3, h4, h5, h6, h7, h8, h9⟩ := h
  unfold serializeDateTime
  rw [hy]
  unfold DayOfMonth at h3
  exact ⟨_, _, _, _, _, _, _, _, fixed_pad (by omega), fixed_pad (by omega), fixed_pad (by omega), fixed_pad (by omega),
    fixed_pad (by omega), fixed_pad (by omega), fraction_form d h7 h8, zone_form hz h9, rfl⟩

theorem count_form (unit n : Nat) : CountText unit n (countText n unit) := by
  unfold CountText countText
  by_cases h : n = 0
  · rw [if_pos h]; exact .inl ⟨h, rfl⟩
  · rw [if_neg h]; exact .inr ⟨h, _, decimal_natStr n, rfl⟩

theorem digits_append_zeros {f : PyStr} (k : Nat) : ∀ m, Digits m (f ++ List.replicate k 48) →
    (∃ n, Digits n f ∧ n * 10 ^ k = m) := by
  induction k with
  | zero => intro m h; rw [List.replicate_zero, List.append_nil] at h; exact ⟨m, h, by simp⟩
  | succ k ih =>
    intro m h
    rw [List.replicate_succ', ← List.append_assoc] at h
    generalize e : f ++ List.replicate k 48 ++ [48] = w at h
    cases h with
    | nil => simp at e
    | @snoc n t h d hd =>
      have e2 := List.append_inj' e rfl
      obtain ⟨r, hr, hn⟩ := ih n (e2.1 ▸ h)
      have : d = 0 := by have := e2.2; simp at this; omega
      subst this
      exact ⟨r, hr, by rw [Nat.pow_succ, ← hn, Nat.add_zero]; rw [← Nat.mul_assoc, Nat.mul_comm]⟩

theorem seconds_form (ticks : Nat) (h : ticks < 600000000) (ht : ticks ≠ 0 → ticks % 100000000 ≠ 0) :
    SecondsText ticks (zfill1 (rstripDotZero (fixed7 ticks)) ++ [83]) := by
  have hlt : ticks % 10000000 < 10 ^ 7 := Nat.mod_lt _ (by decide)
  refine ⟨_, decimal_natStr _, ?_⟩
  by_cases h0 : ticks % 10000000 = 0
  · left
    refine ⟨h0, ?_⟩
    rw [fixed7, h0, whole_text _ (by omega)]
    by_cases hz : ticks = 0
    · subst hz; rfl
    · have := ht hz
      rw [if_neg (by omega)]
  · right
    obtain ⟨p, d, k, h1, h2, h3, h4⟩ := padDigits_split 7 _ hlt h0
    have hs : rstripDotZero (fixed7 ticks) = natStr (ticks / 10000000) ++ 46 :: (p ++ [48 + d]) := by
      have : fixed7 ticks = (natStr (ticks / 10000000) ++ 46 :: (p ++ [48 + d])) ++
          List.replicate k 48 := by
        rw [fixed7, h1]; simp
      rw [this]
      refine rstrip_eq _ _ ?_ ?_
      · intro c hc; exact Or.inr (List.eq_of_mem_replicate hc)
      · intro u c hc
        have : natStr (ticks / 10000000) ++ 46 :: p ++ [48 + d] = u ++ [c] := by
          rw [← hc]; simp
        have := (List.append_inj' this rfl).2
        simp at this
        omega
    obtain ⟨n, hn, e⟩ := digits_append_zeros k _ (h1 ▸ digits_pad 7 _ hlt)
    refine ⟨n, _, hn, by simp, by simp; omega, ?_, ?_⟩
    · rw [← e]
      congr 2
      simp
      omega
    · rw [hs]; unfold zfill1; rw [if_neg (by simp)]

theorem period_form (n : Nat) (h : n % 600000000 ≠ 0 → n % 100000000 ≠ 0) : PeriodText n (ticksText n) := by
  unfold ticksText
  dsimp only
  refine ⟨_, _, count_form 68 _, ?_, rfl⟩
  by_cases hc : n % 864000000000 ≠ 0 ∨ n / 864000000000 = 0
  · right
    rw [if_pos hc]
    unfold timeText
    dsimp only
    have e1 : n % 864000000000 % 36000000000 = n % 36000000000 := by omega
    have e2 : n % 36000000000 % 600000000 = n % 600000000 := by omega
    rw [e1, e2]
    refine ⟨_, _, _, count_form 72 _, count_form 77 _, ?_, rfl⟩
    by_cases hs : n % 600000000 ≠ 0 ∨
        (countText (n % 864000000000 / 36000000000) 72 = [] ∧ countText (n % 36000000000 / 600000000) 77 = [])
    · right
      rw [if_pos hs]
      exact seconds_form _ (by omega) (by omega)
    · left
      rw [if_neg hs]
      refine ⟨rfl, by omega, fun e => hs (.inr ?_)⟩
      exact List.append_eq_nil_iff.mp e
  · left
    rw [if_neg hc]
    refine ⟨by omega, ?_, rfl⟩
    unfold countText
    rw [if_neg (by omega)]
    simp

theorem span_form (d : Duration) (h : ¬ TensOfSeconds (d.totalNs / 100 * 100)) :
    SpanText (d.totalNs / 100) (serializeDuration d) := by
  unfold TensOfSeconds at h
  unfold serializeDuration
  dsimp only
  generalize d.totalNs / 100 = k at *
  by_cases hk : k < 0
  · rw [if_pos hk]
    exact .inr ⟨hk, _, rfl, period_form _ (by omega)⟩
  · rw [if_neg hk]
    exact .inl ⟨by omega, period_form _ (by omega)⟩

theorem version_form (v : PSVersion) (h : v.WellFormed) : VersionText v v.str := by
  obtain ⟨a, b, c, d⟩ := v
  refine ⟨_, _, signed_intStr a, signed_intStr b, ?_⟩
  cases c with
  | none =>
    have : d = none := h rfl
    subst this
    simp [PSVersion.str, PSVersion.tuple, PSVersion.joinDots]
  | some c =>
    cases d with
    | none => exact ⟨_, signed_intStr c, by simp [PSVersion.str, PSVersion.tuple, PSVersion.joinDots]⟩
    | some d => exact ⟨_, _, signed_intStr c, signed_intStr d, by simp [PSVersion.str, PSVersion.tuple, PSVersion.joinDots]⟩

/-! ## Texts without quotes -/

/-- No character that XML writes otherwise. -/
def Bare (s : PyStr) : Prop := ∀ c ∈ s, c ≠ 38 ∧ c ≠ 60 ∧ c ≠ 62

theorem Bare.nil : Bare [] := fun c hc => by cases hc

theorem Bare.cons {c : Nat} {s : PyStr} (hc : c ≠ 38 ∧ c ≠ 60 ∧ c ≠ 62) (h : Bare s) : Bare (c :: s) := fun d hd => by
  rcases List.mem_cons.mp hd with rfl | hd
  · exact hc
  · exact h d hd

theorem Bare.append {s t : PyStr} (hs : Bare s) (ht : Bare t) : Bare (s ++ t) := fun d hd => by
  rcases List.mem_append.mp hd with hd | hd
  · exact hs d hd
  · exact ht d hd

theorem xmlText_bare {s : PyStr} (h : Bare s) : xmlText s = s := by
  induction s with
  | nil => rfl
  | cons c s ih =>
    have hc := h c (by simp)
    unfold xmlText at ih ⊢
    rw [List.flatMap_cons, ih fun d hd => h d (by simp [hd])]
    unfold textChar
    rw [if_neg hc.1, if_neg hc.2.1, if_neg hc.2.2]
    rfl

theorem Digits.bare {n : Nat} {t : PyStr} (h : Digits n t) : Bare t := by
  induction h with
  | nil => exact .nil
  | snoc h d hd ih => exact ih.append (.cons (by omega) .nil)

theorem Signed.bare {v : Int} {t : PyStr} (h : Signed v t) : Bare t := by
  rcases h with ⟨_, h, _⟩ | ⟨_, u, rfl, h, _⟩
  · exact h.bare
  · exact .cons (by decide) h.bare

theorem SextetOf.ne {d c : Nat} (h : SextetOf d c) : c ≠ 38 ∧ c ≠ 60 ∧ c ≠ 62 := by
  unfold SextetOf at h; omega

theorem Base64.bare {b : Bytes} {t : PyStr} (h : Base64 b t) : Bare t := by
  induction h with
  | nil => exact .nil
  | one _ hw hx => exact .cons hw.ne (.cons hx.ne (.cons (by decide) (.cons (by decide) .nil)))
  | two _ hw hx hy => exact .cons hw.ne (.cons hx.ne (.cons hy.ne (.cons (by decide) .nil)))
  | three _ hw hx hy hz _ ih => exact .cons hw.ne (.cons hx.ne (.cons hy.ne (.cons hz.ne ih)))

theorem DateText.bare {d : DateFields} {t : PyStr} (h : DateText d t) : Bare t := by
  obtain ⟨y, mo, da, h, mi, s, f, z, h1, h2, h3, h4, h5, h6, h7, h8, rfl⟩ := h
  have hf : Bare f := by
    rcases h7 with ⟨_, _, rfl⟩ | ⟨_, _, f, hf, rfl⟩ | ⟨_, f, hf, rfl⟩
    · exact .nil
    · exact .cons (by decide) hf.1.bare
    · exact .cons (by decide) hf.1.bare
  have hz : Bare z := by
    cases ho : d.offset with
    | none => rw [ho] at h8; rw [show z = [] from h8]; exact .nil
    | some o =>
      rw [ho] at h8
      rcases h8 with ⟨_, rfl⟩ | ⟨_, a, b, ha, hb, rfl⟩
      · exact .cons (by decide) .nil
      · exact .append (.cons (by split <;> decide) ha.1.bare) (.cons (by decide) hb.1.bare)
  exact .append (.append (.append (.append (.append (.append (.append h1.1.bare (.cons (by decide) h2.1.bare))
    (.cons (by decide) h3.1.bare)) (.cons (by decide) h4.1.bare)) (.cons (by decide) h5.1.bare)) (.cons (by decide) h6.1.bare))
    hf) hz

theorem GuidGroups.bare {n : Nat} {t : PyStr} (h : GuidGroups HexLow n t) : Bare t := fun c hc => by
  have := (groups_chars h.any).1 c hc
  unfold guidChar at this
  omega

theorem PlainDecimal.bare {neg : Bool} {n k : Nat} {t : PyStr} (h : PlainDecimal neg n k t) : Bare t := by
  induction h with
  | whole h _ => exact h.bare
  | @point n w f h _ _ =>
    have hb := h.bare
    exact .append (fun c hc => hb c (List.mem_append_left _ hc)) (.cons (by decide) fun c hc => hb c (List.mem_append_right _ hc))
  | minus h ih => exact .cons (by decide) ih

theorem FloatNumber.bare {t : PyStr} (h : FloatNumber t) : Bare t := by
  have sign : ∀ {sg : Nat}, sg = 43 ∨ sg = 45 → sg ≠ 38 ∧ sg ≠ 60 ∧ sg ≠ 62 := by omega
  cases h with
  | plain h _ _ =>
    have hb := h.bare
    exact .append (fun c hc => hb c (List.mem_append_left _ hc)) (.cons (by decide) fun c hc => hb c (List.mem_append_right _ hc))
  | whole h _ hs he _ => exact .append h.bare (.cons (by decide) (.cons (sign hs) he.bare))
  | point h _ _ hs he _ =>
    have hb := h.bare
    exact .append (.append (fun c hc => hb c (List.mem_append_left _ hc))
      (.cons (by decide) fun c hc => hb c (List.mem_append_right _ hc))) (.cons (by decide) (.cons (sign hs) he.bare))

theorem FloatForm.bare {x : PyFloat} {t : PyStr} (h : FloatForm x t) : Bare t := by
  cases h with
  | positive h => exact h.bare
  | negative h => exact .cons (by decide) h.bare
  | infinity => unfold Bare; decide
  | minusInfinity => unfold Bare; decide
  | nan => unfold Bare; decide

theorem CountText.bare {u n : Nat} {t : PyStr} (hu : u ≠ 38 ∧ u ≠ 60 ∧ u ≠ 62) (h : CountText u n t) : Bare t := by
  rcases h with ⟨_, rfl⟩ | ⟨_, s, hs, rfl⟩
  · exact .nil
  · exact .append hs.1.bare (.cons hu .nil)

theorem SecondsText.bare {n : Nat} {t : PyStr} (h : SecondsText n t) : Bare t := by
  obtain ⟨u, hu, ⟨_, rfl⟩ | ⟨k, f, hf, _, _, _, rfl⟩⟩ := h
  · exact .append hu.1.bare (.cons (by decide) .nil)
  · exact .append (.append hu.1.bare (.cons (by decide) hf.bare)) (.cons (by decide) .nil)

theorem PeriodText.bare {n : Nat} {t : PyStr} (h : PeriodText n t) : Bare t := by
  obtain ⟨d, h, h1, h2, rfl⟩ := h
  refine .append (.cons (by decide) (h1.bare (by decide))) ?_
  rcases h2 with ⟨_, _, rfl⟩ | ⟨hs, ms, ss, h3, h4, h5, rfl⟩
  · exact .nil
  · refine .append (.append (.cons (by decide) (h3.bare (by decide))) (h4.bare (by decide))) ?_
    rcases h5 with ⟨rfl, _⟩ | h5
    · exact .nil
    · exact h5.bare

theorem SpanText.bare {n : Int} {t : PyStr} (h : SpanText n t) : Bare t := by
  rcases h with ⟨_, h⟩ | ⟨_, u, rfl, h⟩
  · exact h.bare
  · exact .cons (by decide) h.bare

theorem VersionText.bare {v : PSVersion} {t : PyStr} (h : VersionText v t) : Bare t := by
  obtain ⟨ma, mi, bu, re⟩ := v
  obtain ⟨a, b, h1, h2, h3⟩ := h
  have h12 : Bare (a ++ 46 :: b) := .append h1.bare (.cons (by decide) h2.bare)
  cases bu with
  | none => rw [show t = _ from h3]; exact h12
  | some c =>
    cases re with
    | none =>
      obtain ⟨c', hc, rfl⟩ := h3
      exact .append h12 (.cons (by decide) hc.bare)
    | some d =>
      obtain ⟨c', d', hc, hd, rfl⟩ := h3
      exact .append (.append h12 (.cons (by decide) hc.bare)) (.cons (by decide) hd.bare)

/-! ## Elements -/

theorem writeXml_ne (x : Xml) : writeXml x ≠ [] := by
  cases x with
  | node t a s k => unfold writeXml; simp

theorem writeAll_eq_nil {k : List Xml} : writeAll k = [] ↔ k = [] := by
  cases k with
  | nil => simp [writeAll]
  | cons x k => simp [writeAll, writeXml_ne]

theorem textChar_ne (c : Nat) : textChar c ≠ [] := by
  unfold textChar
  repeat' split
  all_goals simp

theorem xmlText_eq_nil {s : PyStr} : xmlText s = [] ↔ s = [] := by
  cases s with
  | nil => simp [xmlText]
  | cons c s => simp [xmlText, textChar_ne]

theorem writeXml_element (t : Tag) (a : Attrs) (s : PyStr) (k : List Xml) :
    writeXml (.node t a s k) = element t.name (writeAttrs a) (xmlText s ++ writeAll k) := by
  unfold writeXml element
  have e : (xmlText s ++ writeAll k = []) ↔ (s = [] ∧ k = []) := by
    rw [List.append_eq_nil_iff, xmlText_eq_nil, writeAll_eq_nil]
  by_cases h : s = [] ∧ k = []
  · rw [if_pos h, if_pos (e.mpr h)]
  · rw [if_neg h, if_neg (fun c => h (e.mp c))]
    have : s.flatMap escText = xmlText s := rfl
    rw [this]
    simp [List.append_assoc]

/-- The element with another name and another stream. -/
def Xml.withAttrs (N S : Option PyStr) : Xml → Xml
  | .node t a x k => .node t { a with name := N, stream := S } x k

/-- The attributes after the reference id. -/
def moreAttrs (N S : Option PyStr) : PyStr := writeAttr (txt! "N") N ++ writeAttr (txt! "S") S

theorem attrs_plain (N S : Option PyStr) : writeAttrs { name := N, stream := S } = moreAttrs N S := rfl

theorem writeAttr_natStr (n : Nat) : writeAttr (txt! "RefId") (some (natStr n)) = attrib (txt! "RefId") (natStr n) := by
  have : (natStr n).flatMap escAttr = (natStr n).flatMap valueChar := by
    have h := natStr_ascii n
    generalize natStr n = s at *
    induction s with
    | nil => rfl
    | cons c s ih =>
      rw [List.flatMap_cons, List.flatMap_cons, ih fun d hd => h d (by simp [hd])]
      congr 1
      have := h c (by simp)
      unfold escAttr valueChar
      rw [if_neg (by omega), if_neg (by omega), if_neg (by omega), if_neg (by omega), if_neg (by omega)]
      rfl
  unfold writeAttr attrib
  dsimp only
  rw [this]

theorem attrs_ref (n : Nat) (N S : Option PyStr) :
    writeAttrs { refId := some (natStr n), name := N, stream := S } = attrib (txt! "RefId") (natStr n) ++ moreAttrs N S := by
  rw [← writeAttr_natStr]
  unfold writeAttrs moreAttrs
  rw [List.append_assoc]

/-- An attribute without control characters. -/
theorem writeAttr_form (n s : PyStr) (h : ∀ c ∈ s, ¬ IsControl c) : writeAttr n (some s) = attrib n s := by
  have : s.flatMap escAttr = s.flatMap valueChar := by
    induction s with
    | nil => rfl
    | cons c s ih =>
      rw [List.flatMap_cons, List.flatMap_cons, ih fun d hd => h d (by simp [hd])]
      congr 1
      have := h c (by simp)
      unfold IsControl at this
      unfold escAttr valueChar
      split
      · rfl
      · rw [if_neg (by omega), if_neg (by omega), if_neg (by omega)]
        rfl
  unfold writeAttr attrib
  dsimp only
  rw [this]

theorem writeAttr_name {n : PyStr} (h : Sound n) :
    writeAttr (txt! "N") (some (serializeString n)) = attrib (txt! "N") (serializeString n) := by
  refine writeAttr_form _ _ fun c hc => ?_
  unfold IsControl
  rcases serialize_chars h.1 c hc with hc | ⟨_, hc⟩
  · omega
  · simp only [needsEscape, Bool.or_eq_false_iff, decide_eq_false_iff_not] at hc; omega

/-! ## Primitives -/

/-- What is written for a primitive. -/
def Writes (x : Xml) (n t : PyStr) : Prop :=
  x.withAttrs none none = x ∧ ∀ N S, writeXml (x.withAttrs N S) = element n (moreAttrs N S) t

theorem leaf_writes (t : Tag) {s : PyStr} : Writes (.node t {} s []) t.name (xmlText s) :=
  ⟨rfl, fun N S => by
    unfold Xml.withAttrs
    rw [writeXml_element, writeAll, List.append_nil]; rfl⟩

theorem bare_writes (t : Tag) {s : PyStr} (h : Bare s) : Writes (.node t {} s []) t.name s := by
  have := leaf_writes t (s := s)
  rwa [xmlText_bare h] at this

theorem Writes.plain {x : Xml} {n t : PyStr} (h : Writes x n t) : writeXml x = element n [] t := by
  have := h.2 none none
  rwa [h.1] at this

theorem text_form (t : Tag) {s : PyStr} (h : Sound s) : TextForm t.name s (writeXml (.node t {} (serializeString s) [])) :=
  ⟨_, esc_serialize s h, (leaf_writes t).plain⟩

theorem number_form (t : Tag) {v : Option Int} (h : v ≠ none) : NumberForm t.name v (writeXml (.node t {} (optIntStr v) [])) := by
  cases v with
  | none => exact absurd rfl h
  | some i => exact ⟨i, _, rfl, signed_intStr i, (bare_writes t (signed_intStr i).bare).plain⟩

theorem progress_form {r : Progress} (h1 : Sound r.activity) (h2 : Sound r.status) (h3 : ∀ t, r.operation = some t → Sound t)
    (h4 : ∀ v ∈ [r.activityId, r.parentId, r.percent, r.seconds], v ≠ none) :
    ProgressForm r (writeAll (progressKids r)) := by
  have ascii : ∀ s : PyStr, (∀ c ∈ s, c < 128) → Sound s := fun s h =>
    ⟨fun c hc => by have := h c hc; omega, fun ⟨c, hc, hx⟩ => by have := h c hc; omega⟩
  refine ⟨_, _, writeXml (match r.operation with
      | none => .node .Nil {} [] []
      | some t => .node .S {} (serializeString t) []), _, _, _, _, _, text_form .AV h1, number_form .AI (h4 _ (by simp)), ?_, number_form .PI (h4 _ (by simp)),
    number_form .PC (h4 _ (by simp)), text_form .T (ascii _ ?_), number_form .SR (h4 _ (by simp)), text_form .SD h2, ?_⟩
  · cases h : r.operation with
    | none => exact .inl ⟨rfl, (bare_writes .Nil .nil).plain⟩
    | some s => exact .inr ⟨s, rfl, text_form .S (h3 s h)⟩
  · split <;> decide
  · unfold progressKids
    simp only [writeAll, List.append_nil, List.append_assoc]
    rfl

theorem prim_writes (E : TextEnv) {p : Prim} (h : p.Formal E) : ∃ n t, p.Form n t ∧ Writes (primXml E p) n t := by
  unfold primXml
  cases p with
  | int k v => exact ⟨_, _, ⟨by cases k <;> rfl, signed_intStr v⟩, bare_writes _ (signed_intStr v).bare⟩
  | plainInt v =>
    refine ⟨_, _, ⟨?_, signed_intStr v⟩, bare_writes _ (signed_intStr v).bare⟩
    obtain ⟨h1, h2⟩ := h
    have hm : IntKind.psInt.maxValue = 2 ^ 31 - 1 := by decide
    simp only [writePrim, plainKind]
    rw [hm]
    by_cases hv : v < 2 ^ 31
    · rw [if_neg (by omega)]; exact .inl ⟨h1, hv, rfl⟩
    · rw [if_pos (by omega)]; exact .inr ⟨by omega, h2, rfl⟩
  | char c => exact ⟨_, _, ⟨rfl, signed_intStr c⟩, bare_writes .C (signed_intStr c).bare⟩
  | str k s => exact ⟨_, _, ⟨by cases k <;> rfl, _, esc_serialize s h, rfl⟩, leaf_writes _⟩
  | bytes b => exact ⟨_, _, ⟨rfl, base64_encode b⟩, bare_writes .BA (base64_encode b).bare⟩
  | date d => exact ⟨_, _, ⟨rfl, date_form h.1 h.2.1 h.2.2⟩, bare_writes .DT (date_form h.1 h.2.1 h.2.2).bare⟩
  | duration d => exact ⟨_, _, ⟨rfl, span_form d h⟩, bare_writes .TS (span_form d h).bare⟩
  | version v => exact ⟨_, _, ⟨rfl, version_form v h⟩, bare_writes .Version (version_form v h).bare⟩
  | guid g => exact ⟨_, _, ⟨rfl, guidStr_groups g h⟩, bare_writes .G (guidStr_groups g h).bare⟩
  | decimal d =>
    obtain ⟨neg, coeff, exp, digits, rfl, hd, h1, h2⟩ := h
    have hl : (natStr coeff).length = digits.length := by rw [decimal_unique hd (decimal_natStr coeff)]
    have hp : PlainDecimal neg coeff (-exp).toNat (PyDecimal.text (.finite neg coeff exp)) := by
      have := plain_digits (coeff := coeff) (exp := exp) ⟨h1, by omega⟩
      unfold PyDecimal.text PyDecimal.str
      rw [text_sign]
      cases neg with
      | false => exact this
      | true => exact .minus this
    exact ⟨_, _, ⟨rfl, neg, coeff, (-exp).toNat, by rw [Int.toNat_of_nonneg (by omega), Int.neg_neg], hp⟩, bare_writes .D hp.bare⟩
  | float k x => exact ⟨_, _, ⟨by cases k <;> rfl, float_form h.1 h.2⟩, bare_writes k.tag (float_form h.1 h.2).bare⟩
  | secure t => exact ⟨_, _, ⟨rfl, rfl⟩, leaf_writes _⟩
  | progress r =>
    refine ⟨_, _, ⟨rfl, progress_form h.1 h.2.1 h.2.2.1 h.2.2.2⟩, rfl, fun N S => ?_⟩
    unfold Xml.withAttrs
    dsimp only [writePrim]
    rw [writeXml_element]
    rfl

/-! ## Graphs -/

/-- What `f` gives for a value has its form. -/
def Shapes (H : Heap) (f : PVal → SState → Except Err (Xml × SState)) (v : PVal) : Prop :=
  ∀ s x s', f v s = .ok (x, s') → x.withAttrs none none = x ∧ ∀ N S, Form H v (moreAttrs N S) (writeXml (x.withAttrs N S))

theorem setName_with {x : Xml} (h : x.withAttrs none none = x) (n : PyStr) : x.setName n = x.withAttrs (some n) none := by
  cases x with
  | node t a s k =>
    unfold Xml.withAttrs at h
    injection h with _ h _ _
    unfold Xml.setName Xml.withAttrs
    dsimp only
    rw [← h]

theorem setStream_with {x : Xml} (h : x.withAttrs none none = x) (n : PyStr) : x.setStream n = x.withAttrs none (some n) := by
  cases x with
  | node t a s k =>
    unfold Xml.withAttrs at h
    injection h with _ h _ _
    unfold Xml.setStream Xml.withAttrs
    dsimp only
    rw [← h]

theorem more_name {n : PyStr} (h : Sound n) :
    moreAttrs (some (serializeString n)) none = attrib (txt! "N") (serializeString n) := by
  unfold moreAttrs
  rw [writeAttr_name h]
  exact List.append_nil _

theorem writeAll_cons (x : Xml) (xs : List Xml) : writeAll (x :: xs) = writeXml x ++ writeAll xs := by rw [writeAll]

theorem writeAll_append (xs ys : List Xml) : writeAll (xs ++ ys) = writeAll xs ++ writeAll ys := by
  induction xs with
  | nil => rfl
  | cons x xs ih => rw [List.cons_append, writeAll_cons, writeAll_cons, ih, List.append_assoc]

theorem writeAll_one (t : Tag) (k : List Xml) : writeAll [.node t {} [] k] = element t.name [] (writeAll k) := by
  rw [writeAll_cons, writeXml_element]
  simp [writeAll, xmlText, writeAttrs, writeAttr]

theorem shape_props {H : Heap} {f : PVal → SState → Except Err (Xml × SState)} (ps : List (PyStr × PVal))
    (hf : ∀ v ∈ ps.map Prod.snd, Shapes H f v) (hn : ∀ q ∈ ps, Sound q.1) :
    ∀ s xs s', serProps f ps s = .ok (xs, s') → PropForms H ps (writeAll xs) := by
  induction ps with
  | nil => intro s xs s' h; cases h; exact .nil
  | cons q ps ih =>
    obtain ⟨n, v⟩ := q
    intro s xs s' h
    unfold serProps at h
    split at h
    · cases h
    · rename_i x s1 h1
      split at h
      · cases h
      · rename_i ys s2 h2
        cases h
        have hx := hf v (by simp) _ _ _ h1
        have hs := hn _ List.mem_cons_self
        rw [writeAll_cons, setName_with hx.1]
        have := hx.2 (some (serializeString n)) none
        rw [more_name hs] at this
        exact .cons (esc_serialize n hs) this (ih (fun v hv => hf v (by simp only [List.map_cons, List.mem_cons]; exact .inr hv))
            (fun q hq => hn q (List.mem_cons_of_mem _ hq)) _ _ _ h2)

theorem shape_group {H : Heap} {f : PVal → SState → Except Err (Xml × SState)} {tag : Tag} (ps : List (PyStr × PVal))
    (hf : ∀ v ∈ ps.map Prod.snd, Shapes H f v) (hn : ∀ q ∈ ps, Sound q.1)
    {s : SState} {xs : List Xml} {s' : SState} (h : serGroup f tag ps s = .ok (xs, s')) :
    GroupForm H tag.name ps (writeAll xs) := by
  unfold serGroup at h
  split at h
  · rename_i e
    subst e
    cases h; exact .none
  · rename_i hp
    split at h
    · cases h
    · rename_i ys s1 h1
      cases h
      rw [writeAll_one]
      exact .some hp (shape_props ps hf hn _ _ _ h1)

theorem shape_items {H : Heap} {f : PVal → SState → Except Err (Xml × SState)} (vs : List PVal)
    (hf : ∀ v ∈ vs, Shapes H f v) : ∀ s xs s', serItems f vs s = .ok (xs, s') → ItemForms H vs (writeAll xs) := by
  induction vs with
  | nil => intro s xs s' h; cases h; exact .nil
  | cons v vs ih =>
    intro s xs s' h
    unfold serItems at h
    split at h
    · cases h
    · rename_i x s1 h1
      split at h
      · cases h
      · rename_i ys s2 h2
        cases h
        have hx := hf v (by simp) _ _ _ h1
        have := hx.2 none none
        rw [hx.1] at this
        rw [writeAll_cons]
        exact .cons this (ih (fun v hv => hf v (List.mem_cons_of_mem _ hv)) _ _ _ h2)

theorem shape_entries {H : Heap} {f : PVal → SState → Except Err (Xml × SState)} (es : List (PVal × PVal))
    (hf : ∀ e ∈ es, Shapes H f e.1 ∧ Shapes H f e.2) :
    ∀ s xs s', serEntries f es s = .ok (xs, s') → EntryForms H es (writeAll xs) := by
  induction es with
  | nil => intro s xs s' h; cases h; exact .nil
  | cons e es ih =>
    obtain ⟨k, v⟩ := e
    intro s xs s' h
    unfold serEntries at h
    split at h
    · cases h
    · rename_i xk s1 h1
      split at h
      · cases h
      · rename_i xv s2 h2
        split at h
        · cases h
        · rename_i ys s3 h3
          cases h
          obtain ⟨c1, c2⟩ := hf (k, v) List.mem_cons_self
          have hk := c1 _ _ _ h1
          have hv := c2 _ _ _ h2
          rw [setName_with hk.1, setName_with hv.1, show ∀ (x : Xml) (xs : List Xml), x :: xs = [x] ++ xs from fun _ _ => rfl,
            writeAll_append, writeAll_one]
          have e2 : writeAll [xk.withAttrs (some (txt! "Key")) none, xv.withAttrs (some (txt! "Value")) none] =
              writeXml (xk.withAttrs (some (txt! "Key")) none) ++ writeXml (xv.withAttrs (some (txt! "Value")) none) := by
            rw [writeAll_cons, writeAll_cons, writeAll, List.append_nil]
          have e3 : moreAttrs (some (txt! "Key")) none = attrib (txt! "N") (txt! "Key") := by decide
          have e4 : moreAttrs (some (txt! "Value")) none = attrib (txt! "N") (txt! "Value") := by decide
          rw [e2]
          exact .cons (e3 ▸ hk.2 (some (txt! "Key")) none) (e4 ▸ hv.2 (some (txt! "Value")) none)
            (ih (fun e he => hf e (List.mem_cons_of_mem _ he)) _ _ _ h3)

theorem shape_string (o : Option PyStr) : StringForm o (writeAll (serString o)) := by
  unfold serString
  cases o with
  | none => exact .inl ⟨.inl rfl, rfl⟩
  | some t =>
    by_cases h : t = []
    · subst h; exact .inl ⟨.inr rfl, rfl⟩
    · dsimp only
      rw [if_neg h, writeAll_cons, writeAll, List.append_nil]
      exact .inr ⟨t, rfl, h, (leaf_writes .ToString).plain⟩

theorem shape_content {H : Heap} {f : PVal → SState → Except Err (Xml × SState)} (a : Nat) (o : PObj)
    (hf : ∀ v ∈ o.values, Shapes H f v) {s : SState} {xs : List Xml} {s' : SState}
    (h : serContent f a o s = .ok (xs, s')) : ContentForm H o (writeAll xs) := by
  unfold serContent at h
  split at h
  · rename_i k items hd
    split at h
    · cases h
    · rename_i ys s1 h1
      cases h
      rw [writeAll_one]
      have := ContentForm.list (H := H) hd (shape_items items (fun v hv => hf v (by unfold PObj.values; rw [hd]; simp [hv])) _ _ _ h1)
      rwa [show k.element = k.tag.name by cases k <;> rfl] at this
  · rename_i items hd
    split at h
    · cases h
    · rename_i ys s1 h1
      cases h
      rw [writeAll_one]
      by_cases hc : s.drained.contains a = true
      · rw [if_pos hc] at h1
        cases h1
        exact .emptied hd
      · rw [if_neg hc] at h1
        exact .queue hd (shape_items _ (fun v hv => hf v (by unfold PObj.values; rw [hd]; simp [hv])) _ _ _ h1)
  · rename_i es hd
    split at h
    · cases h
    · rename_i ys s1 h1
      cases h
      rw [writeAll_one]
      refine .dict hd (shape_entries es (fun e he => ⟨hf _ ?_, hf _ ?_⟩) _ _ _ h1)
      · unfold PObj.values; rw [hd]
        simp only [List.mem_append]
        exact .inr (.inl (List.mem_map_of_mem he))
      · unfold PObj.values; rw [hd]
        simp only [List.mem_append]
        exact .inr (.inr (List.mem_map_of_mem he))
  · rename_i p hd; cases h; exact .ext hd
  · rename_i p hd; cases h; exact .string (.inr ⟨p, hd⟩) (shape_string _)
  · rename_i hd; cases h; exact .string (.inl hd) (shape_string _)

theorem shape_types (o : PObj) (s : SState) : TypesForm o (writeAll (serTypes (writtenTypes o) s).1) := by
  have one : ∀ (t : Tag) (n : Nat) (k : List Xml), writeAll [.node t { refId := some (natStr n) } [] k] =
      element t.name (attrib (txt! "RefId") (natStr n)) (writeAll k) := by
    intro t n k
    rw [writeAll_cons, writeXml_element, writeAll, List.append_nil]
    have := attrs_ref n none none
    rw [show moreAttrs none none = [] from rfl, List.append_nil] at this
    rw [this]
    rfl
  unfold writtenTypes
  split
  · rename_i p hd
    exact .inl ⟨.inr ⟨p, hd⟩, rfl⟩
  · rename_i hd
    unfold serTypes
    split
    · rename_i e; exact .inl ⟨.inl e, rfl⟩
    · rename_i m ms e
      refine .inr ⟨by rw [e]; simp, fun p hp => hd p hp, ?_⟩
      split
      · exact ⟨_, _, decimal_natStr _, .inr (one _ _ _)⟩
      · refine ⟨(s.tnRefs ++ [m]).idxOf m, _, decimal_natStr _, .inl ?_⟩
        dsimp only
        rw [one, e]
        have : ∀ l : List PyStr, writeAll (l.map fun t => .node .T {} t []) =
            l.flatMap fun n => element (txt! "T") [] (xmlText n) := by
          intro l
          induction l with
          | nil => rfl
          | cons t l ih =>
            rw [List.map_cons, writeAll_cons, List.flatMap_cons, ih]
            congr 1
            exact (leaf_writes .T).plain
        rw [this]
        rfl

theorem shape_own (E : TextEnv) (o : PObj) (h : ∀ p, o.data = .ext p ∨ o.data = .enum p → p.Formal E) :
    OwnForm o (writeAll (serSub E o.data)) := by
  have one : ∀ p, (o.data = .ext p ∨ o.data = .enum p) → OwnForm o (writeAll [primXml E p]) := by
    intro p hp
    obtain ⟨n, t, hf, hw⟩ := prim_writes E (h p hp)
    rw [writeAll_cons, writeAll, List.append_nil]
    exact .inl ⟨p, n, t, hp, hf, hw.plain⟩
  cases hd : o.data with
  | ext p => exact one p (.inl hd)
  | enum p => exact one p (.inr hd)
  | none => exact .inr ⟨fun p => by rw [hd]; simp, rfl⟩
  | list k vs => exact .inr ⟨fun p => by rw [hd]; simp, rfl⟩
  | queue vs => exact .inr ⟨fun p => by rw [hd]; simp, rfl⟩
  | dict es => exact .inr ⟨fun p => by rw [hd]; simp, rfl⟩

/-- The form in any heap that has the same objects. -/
theorem ser_shapes_in (E : TextEnv) (H G : Heap) (roots : List PVal) (ok : ∀ a, Reach H roots a → (H a).Formal E)
    (same : ∀ a, Reach H roots a → G a = H a) :
    ∀ n v, v.Formal E → (∀ a, v = .ref a → Reach H roots a) → Shapes G (ser E H n) v := by
  intro n
  induction n with
  | zero => intro v _ _ s x s' h; cases h
  | succ n ih =>
    intro v hv hr s x s' h
    cases v with
    | nil =>
      cases h
      refine ⟨rfl, fun N S => ?_⟩
      rw [(bare_writes .Nil .nil).2]
      exact .nil
    | bool b =>
      cases h
      refine ⟨rfl, fun N S => ?_⟩
      cases b with
      | true =>
        rw [if_pos rfl, (bare_writes .B (s := txt! "true") (by unfold Bare; decide)).2]
        exact .true
      | false =>
        rw [if_neg (by simp), (bare_writes .B (s := txt! "false") (by unfold Bare; decide)).2]
        exact .false
    | prim p =>
      cases h
      obtain ⟨n, t, hf, hw⟩ := prim_writes E (p := p) hv
      exact ⟨hw.1, fun N S => by rw [hw.2]; exact .prim hf⟩
    | ref a =>
      have hra := hr a rfl
      have o := ok a hra
      have hval : ∀ v ∈ (H a).values, Shapes G (ser E H n) v := fun v hv =>
        ih v (o.vals v hv) fun b e => .step hra (e ▸ hv)
      change serObj E (ser E H n) a (H a) s = .ok (x, s') at h
      rw [← same a hra] at o hval h
      unfold serObj at h
      split at h
      · rename_i p hp
        cases h
        unfold bareExt at hp
        split at hp
        · rename_i q hd
          split at hp
          · rename_i hc
            cases hp
            obtain ⟨n, t, hf, hw⟩ := prim_writes E (o.own p (.inl hd))
            refine ⟨hw.1, fun N S => ?_⟩
            rw [hw.2]
            refine .bare hd hc.2 ?_ hf
            have h1 := hc.1
            cases p with
            | progress r => exact .inr ⟨r, rfl, h1⟩
            | _ => exact .inl (List.length_eq_zero_iff.mp (Nat.le_zero.mp h1))
          · cases hp
        · cases hp
      · split at h
        · cases h
          refine ⟨rfl, fun N S => ?_⟩
          unfold Xml.withAttrs
          dsimp only
          rw [writeXml_element, attrs_ref]
          exact .again (decimal_natStr _)
        · unfold serBody at h
          split at h
          · cases h
          · rename_i ps s1 h1
            split at h
            · cases h
            · rename_i ms s2 h2
              split at h
              · cases h
              · rename_i c s3 h3
                cases h
                refine ⟨rfl, fun N S => ?_⟩
                unfold Xml.withAttrs
                dsimp only
                rw [writeXml_element, attrs_ref, show xmlText [] = [] from rfl, List.nil_append, writeAll_append,
                  writeAll_append, writeAll_append, writeAll_append]
                have subA : ∀ v ∈ (G a).adapted.map Prod.snd, Shapes G (ser E H n) v := fun v hv => hval v (by
                  unfold PObj.values; simp only [List.mem_append]; exact .inl (.inl hv))
                have subE : ∀ v ∈ (G a).extended.map Prod.snd, Shapes G (ser E H n) v := fun v hv => hval v (by
                  unfold PObj.values; simp only [List.mem_append]; exact .inl (.inr hv))
                exact .obj (decimal_natStr _) (shape_own E _ o.own) (shape_types _ _)
                  (shape_group _ subA (fun q hq => o.names q (List.mem_append.mpr (.inl hq))) h1)
                  (shape_group _ subE (fun q hq => o.names q (List.mem_append.mpr (.inr hq))) h2)
                  (shape_content a (G a) hval h3)

theorem ser_shapes (E : TextEnv) (H : Heap) (roots : List PVal) (ok : ∀ a, Reach H roots a → (H a).Formal E) :
    ∀ n v, v.Formal E → (∀ a, v = .ref a → Reach H roots a) → Shapes H (ser E H n) v :=
  ser_shapes_in E H H roots ok fun _ _ => rfl

theorem doc_shapes (E : TextEnv) (H : Heap) (n : Nat) (roots : List PVal) (ok : ∀ a, Reach H roots a → (H a).Formal E) :
    ∀ vs : List (PVal × Option ClixmlStream), (∀ v ∈ vs, v.1.Formal E) → (∀ v ∈ vs, ∀ a, v.1 = .ref a → Reach H roots a) →
    ∀ s xs s', serDoc E H n vs s = .ok (xs, s') → ∃ ts,
      All2 (fun (v : PVal × Option ClixmlStream) t => Form H v.1 (streamAttr v.2) t) vs ts ∧ writeAll xs = ts.flatten ∧
      (vs ≠ [] → xs ≠ []) := by
  intro vs
  induction vs with
  | nil => intro _ _ s xs s' h; cases h; exact ⟨[], .nil, rfl, fun h => absurd rfl h⟩
  | cons v vs ih =>
    obtain ⟨v, st⟩ := v
    intro hv hr s xs s' h
    unfold serDoc at h
    split at h
    · cases h
    · rename_i x s1 h1
      split at h
      · cases h
      · rename_i ys s2 h2
        cases h
        obtain ⟨ts, h3, h4, _⟩ := ih (fun v h => hv v (List.mem_cons_of_mem _ h)) (fun v h => hr v (List.mem_cons_of_mem _ h)) _ _ _ h2
        have hx := ser_shapes E H roots ok n v (hv _ List.mem_cons_self) (hr _ List.mem_cons_self) _ _ _ h1
        refine ⟨writeXml (tagStream st x) :: ts, .cons ?_ h3, by rw [writeAll_cons, h4, List.flatten_cons], fun _ => by simp⟩
        cases st with
        | none =>
          have := hx.2 none none
          rw [hx.1] at this
          exact this
        | some st =>
          unfold tagStream
          dsimp only
          rw [setStream_with hx.1]
          have := hx.2 none (some st.value)
          have e : moreAttrs none (some st.value) = streamAttr (some st) := by cases st <;> decide
          rwa [e] at this

end Verif
