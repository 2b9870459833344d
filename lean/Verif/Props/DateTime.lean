import Verif.Proof.DateTime

/-! # C27, C50, C51: date arithmetic, comparison and copies -/

namespace Verif

open DateTime

/-! ## C27: dates and durations -/

/-- C27 (sum): the sum is the date exactly that many nanoseconds later in the same time zone, and is
given whenever that date exists and the date without the nanoseconds does not fall before year 1. -/
theorem C27_add (a r : DateTime) (d : Duration) (ha : a.Valid) (hd : d.Valid) :
    a.add d = .ok r ↔
      (0 ≤ a.wall + d.micros ∧ r.Valid ∧ r.tz = a.tz ∧ r.wallNs = a.wallNs + d.totalNs) := by
  obtain ⟨aw, az, an⟩ := a
  obtain ⟨rw', rz, rn⟩ := r
  obtain ⟨h1, h2, h3⟩ := ha
  obtain ⟨_, _, _, h4⟩ := hd
  have e := d.micros_total
  simp only [Valid, wallNs, add] at *
  generalize d.micros = m at e ⊢
  generalize d.totalNs = t at e ⊢
  generalize d.nanoseconds = n at *
  by_cases c1 : 0 ≤ aw + m ∧ aw + m < 3652059 * 86400000000
  · rw [stdAdd_pos c1]
    dsimp only
    by_cases c2 : an + n > 999
    · rw [if_pos c2]
      by_cases c3 : 0 ≤ aw + m + (an + n) / 1000 ∧ aw + m + (an + n) / 1000 < 3652059 * 86400000000
      · rw [stdAdd_pos c3]
        simp only [Except.ok.injEq, DateTime.mk.injEq]
        constructor
        · rintro ⟨rfl, rfl, rfl⟩
          refine ⟨by omega, ⟨by omega, by omega, h3⟩, rfl, by omega⟩
        · rintro ⟨_, ⟨_, _, _⟩, rfl, _⟩
          exact ⟨by omega, rfl, by omega⟩
      · rw [stdAdd_neg c3]
        simp only [reduceCtorEq, false_iff]
        rintro ⟨_, ⟨_, _, _⟩, rfl, _⟩
        omega
    · rw [if_neg c2]
      simp only [Except.ok.injEq, DateTime.mk.injEq]
      constructor
      · rintro ⟨rfl, rfl, rfl⟩
        refine ⟨by omega, ⟨by omega, by omega, h3⟩, rfl, by omega⟩
      · rintro ⟨_, ⟨_, _, _⟩, rfl, _⟩
        exact ⟨by omega, rfl, by omega⟩
  · rw [stdAdd_neg c1]
    simp only [reduceCtorEq, false_iff]
    rintro ⟨_, ⟨_, _, _⟩, rfl, _⟩
    omega

/-- C27 (sum): it fails only with OverflowError. -/
theorem C27_add_fails (a : DateTime) (d : Duration) (e : Err) (h : a.add d = .error e) :
    e = .overflowError := by
  have key : ∀ (x : DateTime) us e, stdAdd x us = .error e → e = .overflowError := by
    intro x us e h
    unfold stdAdd at h
    split at h
    · cases h
    · cases h; rfl
  unfold add at h
  dsimp only at h
  split at h
  · rename_i h1
    cases h
    exact key _ _ _ h1
  · split at h
    · split at h
      · rename_i h1
        cases h
        exact key _ _ _ h1
      · cases h
    · cases h

/-- C27 (back again): after adding a duration, subtracting it gives back the date with its nanosecond,
for every date at least a microsecond after the start of year 1. Partial: without that bound it fails,
see `C27_back_violated`. -/
theorem C27_back_partial (a r : DateTime) (d : Duration) (ha : a.Valid) (hd : d.Valid)
    (hw : 1 ≤ a.wall) (h : a.add d = .ok r) : r.sub d = .ok a := by
  obtain ⟨h1, h2, h3, h4⟩ := (C27_add a r d ha hd).mp h
  have hr : NsInRange (-d.totalNs) := by
    have e := d.micros_total
    obtain ⟨_, _, _, hn⟩ := hd
    obtain ⟨ha1, ha2, _⟩ := ha
    obtain ⟨hr1, hr2, _⟩ := h2
    unfold wallNs at h4
    unfold NsInRange
    omega
  obtain ⟨m, hm⟩ := Duration.ofNanos_range hr
  obtain ⟨hm1, hm2⟩ := Duration.ofNanos_ok hm
  have e : d.neg = .ok m := hm
  unfold sub
  rw [e]
  dsimp only
  rw [C27_add r a m h2 hm1]
  refine ⟨?_, ha, h3.symm, by omega⟩
  have e1 := d.micros_total
  have e2 := m.micros_total
  obtain ⟨_, _, _, hn⟩ := hd
  obtain ⟨_, _, _, hmn⟩ := hm1
  obtain ⟨_, ha2, _⟩ := ha
  obtain ⟨_, hr2, _⟩ := h2
  unfold wallNs at h4
  omega

/-- C27 (back again): and adding back what was subtracted. -/
theorem C27_forth_partial (a r : DateTime) (d : Duration) (ha : a.Valid) (hd : d.Valid)
    (hw : 1 ≤ a.wall) (h : a.sub d = .ok r) : r.add d = .ok a := by
  unfold sub at h
  cases hm : d.neg with
  | error e => rw [hm] at h; cases h
  | ok m =>
    rw [hm] at h
    dsimp only at h
    obtain ⟨hm1, hm2⟩ := Duration.ofNanos_ok hm
    obtain ⟨h1, h2, h3, h4⟩ := (C27_add a r m ha hm1).mp h
    rw [C27_add r a d h2 hd]
    refine ⟨?_, ha, h3.symm, by omega⟩
    have e1 := d.micros_total
    have e2 := m.micros_total
    obtain ⟨_, _, _, hn⟩ := hd
    obtain ⟨_, _, _, hmn⟩ := hm1
    obtain ⟨_, ha2, _⟩ := ha
    obtain ⟨_, hr2, _⟩ := h2
    unfold wallNs at h4
    omega

/-- C27 (back again) fails at the start of year 1: adding a nanosecond works, subtracting it again
raises OverflowError. -/
theorem C27_back_violated :
    (⟨0, none, 0⟩ : DateTime).add ⟨0, 0, 0, 1⟩ = .ok ⟨0, none, 1⟩ ∧
    (⟨0, none, 1⟩ : DateTime).sub ⟨0, 0, 0, 1⟩ = .error .overflowError := by
  decide +kernel

/-- C27 (difference): the difference of two dates is the exact time between them. -/
theorem C27_diff (a b : DateTime) (ha : a.Valid) (hb : b.Valid) (hk : a.SameKind b) :
    ∃ d, a.diff b = .ok d ∧ d.Valid ∧ d.totalNs = a.instant - b.instant := by
  obtain ⟨us, hus, hv, hlt⟩ : ∃ us, stdDiff a b = .ok us ∧
      us = (a.wall - a.tz.getD 0) - (b.wall - b.tz.getD 0) ∧
      (-(3652062 * 86400000000) < us ∧ us < 3652062 * 86400000000) := by
    obtain ⟨a1, a2, a3⟩ := a
    obtain ⟨b1, b2, b3⟩ := b
    obtain ⟨h1, _, h2⟩ := ha
    obtain ⟨g1, _, g2⟩ := hb
    simp only [SameKind] at hk
    simp only at h1 h2 g1 g2
    cases a2 with
    | none =>
      cases b2 with
      | none => exact ⟨_, rfl, by simp, by dsimp only; omega⟩
      | some y => simp at hk
    | some x =>
      cases b2 with
      | none => simp at hk
      | some y =>
        have := h2 x rfl
        have := g2 y rfl
        exact ⟨_, rfl, by simp, by dsimp only; omega⟩
  obtain ⟨_, h2, _⟩ := ha
  obtain ⟨_, g2, _⟩ := hb
  obtain ⟨td, htd⟩ : ∃ td, Duration.ofMicros us = .ok td := ⟨_, Duration.ofMicros_pos (by omega)⟩
  obtain ⟨t1, t2⟩ := (Duration.ofMicros_iff _ _).mp htd
  have hnew : Duration.new td 0 = .ok td := by
    have := Duration.ofNanos_total t1
    unfold Duration.ofNanos Duration.new at this
    unfold Duration.new
    rw [Duration.zero_total, Int.add_zero] at this
    rw [Int.zero_add]
    exact this
  obtain ⟨n, hn⟩ := Duration.ofNanos_range (n := a.nanosecond - b.nanosecond)
    (by unfold NsInRange; omega)
  have hn2 := (Duration.ofNanos_ok hn).2
  obtain ⟨d, hd⟩ := Duration.ofNanos_range (n := td.totalNs + n.totalNs)
    (by unfold NsInRange; omega)
  have hd' : td.add n = .ok d := hd
  refine ⟨d, ?_, (Duration.ofNanos_ok hd).1, ?_⟩
  · unfold diff
    simp only [hus, htd, hnew, hn, hd']
  · rw [(Duration.ofNanos_ok hd).2]
    unfold instant
    omega

/-- C27 (difference): a date with a time zone and one without cannot be subtracted. -/
theorem C27_diff_mixed (a b : DateTime) (hk : ¬ a.SameKind b) : a.diff b = .error .typeError := by
  obtain ⟨a1, a2, a3⟩ := a
  obtain ⟨b1, b2, b3⟩ := b
  simp only [SameKind] at hk
  cases a2 <;> cases b2 <;> simp at hk <;> rfl

/-- C27 (difference): adding the difference to the second date gives the first, when both are in the
same time zone. -/
theorem C27_diff_add (a b : DateTime) (d : Duration) (ha : a.Valid) (hb : b.Valid)
    (hw : 1 ≤ a.wall) (hz : a.tz = b.tz) (h : a.diff b = .ok d) : b.add d = .ok a := by
  obtain ⟨d', h1, h2, h3⟩ := C27_diff a b ha hb (by simp [SameKind, hz])
  rw [h] at h1
  cases h1
  rw [C27_add b a d hb h2]
  have e1 := d.micros_total
  obtain ⟨_, _, _, hn⟩ := h2
  obtain ⟨ha1, ha2, _⟩ := id ha
  obtain ⟨hb1, hb2, _⟩ := hb
  simp only [instant, hz] at h3
  refine ⟨?_, ha, hz, ?_⟩
  · omega
  · unfold wallNs
    omega

/-- 2020-ish, in a time zone, with nanoseconds. -/
def exampleDate : DateTime := ⟨63745056000999999, some 3600000000, 700⟩

example : exampleDate.Valid ∧ 1 ≤ exampleDate.wall := by
  unfold exampleDate DateTime.Valid
  refine ⟨⟨by decide, by decide, ?_⟩, by decide⟩
  intro o h
  simp at h
  omega
example : (⟨0, 0, 0, 400⟩ : Duration).Valid := by unfold Duration.Valid; decide
example : exampleDate.add ⟨0, 0, 0, 400⟩ = .ok ⟨63745056001000000, some 3600000000, 100⟩ := by
  decide +kernel
example : exampleDate.diff ⟨63745056000999999, some 0, 900⟩ = .ok ⟨-1, 82799, 999999, 800⟩ := by
  decide +kernel
example : exampleDate.SameKind ⟨63745056000999999, some 0, 900⟩ ∧ ¬ exampleDate.SameKind ⟨0, none, 0⟩ := by
  unfold SameKind; decide

/-! ## C50: comparison -/

/-- C50: dates whose nanosecond attributes agree compare as their instants do. Partial: the nanosecond
attribute is ignored, see `C50_exact` and `C50_violated`. -/
theorem C50_partial (a b : DateTime) (hk : a.SameKind b) (hn : a.nanosecond = b.nanosecond) :
    (a.eq b = true ↔ a.instant = b.instant) ∧
    (∃ x, a.lt b = .ok x ∧ (x = true ↔ a.instant < b.instant)) := by
  obtain ⟨a1, a2, a3⟩ := a
  obtain ⟨b1, b2, b3⟩ := b
  simp only [SameKind] at hk
  cases a2 <;> cases b2 <;> simp at hk <;>
    simp [DateTime.eq, DateTime.lt, stdDiff, instant, Except.map] at hn ⊢ <;> omega

/-- C50: what is compared are the instants in whole microseconds. -/
theorem C50_exact (a b : DateTime) (ha : a.Valid) (hb : b.Valid) (hk : a.SameKind b) :
    (a.eq b = true ↔ a.instant / 1000 = b.instant / 1000) ∧
    (∃ x, a.lt b = .ok x ∧ (x = true ↔ a.instant / 1000 < b.instant / 1000)) := by
  obtain ⟨a1, a2, a3⟩ := a
  obtain ⟨b1, b2, b3⟩ := b
  obtain ⟨_, h2, _⟩ := ha
  obtain ⟨_, g2, _⟩ := hb
  simp only [SameKind] at hk
  simp only at h2 g2
  cases a2 <;> cases b2 <;> simp at hk <;>
    simp [DateTime.eq, DateTime.lt, stdDiff, instant, Except.map] <;> omega

/-- C50 (kinds): a date with a time zone never equals one without, and they have no order. -/
theorem C50_mixed (a b : DateTime) (hk : ¬ a.SameKind b) :
    a.eq b = false ∧ a.lt b = .error .typeError := by
  obtain ⟨a1, a2, a3⟩ := a
  obtain ⟨b1, b2, b3⟩ := b
  simp only [SameKind] at hk
  cases a2 <;> cases b2 <;> simp at hk <;> exact ⟨rfl, rfl⟩

/-- C50 fails: two dates 999 ns apart are equal, and neither is before the other. -/
theorem C50_violated :
    (⟨0, none, 0⟩ : DateTime).Valid ∧ (⟨0, none, 999⟩ : DateTime).Valid ∧
    (⟨0, none, 0⟩ : DateTime).eq ⟨0, none, 999⟩ = true ∧
    (⟨0, none, 0⟩ : DateTime).lt ⟨0, none, 999⟩ = .ok false ∧
    (⟨0, none, 0⟩ : DateTime).instant < (⟨0, none, 999⟩ : DateTime).instant := by
  unfold DateTime.Valid
  refine ⟨⟨by decide, by decide, by simp⟩, ⟨by decide, by decide, by simp⟩, by decide, by decide,
    by decide⟩

/-! ## C51: copies -/

/-- C51 (durations): a duration built from a duration is the same duration. -/
theorem C51_duration (d : Duration) (h : d.Valid) : Duration.new d 0 = .ok d := by
  have := Duration.ofNanos_total h
  unfold Duration.ofNanos Duration.new at this
  unfold Duration.new
  rw [Duration.zero_total, Int.add_zero] at this
  rw [Int.zero_add]
  exact this

/-- C51 (dates): a date built from a date is the same date if it has no nanoseconds. Partial: the
nanoseconds are lost, see `C51_date_exact`. -/
theorem C51_date_partial (a : DateTime) (h : a.nanosecond = 0) : a.copy = a := by
  obtain ⟨a1, a2, a3⟩ := a
  simp only at h
  subst h
  rfl

/-- C51 (dates): and is otherwise the same date without them. -/
theorem C51_date_exact (a : DateTime) :
    (a.copy = a ↔ a.nanosecond = 0) ∧ a.copy.instant = a.instant - a.nanosecond ∧ a.copy.tz = a.tz := by
  obtain ⟨a1, a2, a3⟩ := a
  refine ⟨?_, ?_, rfl⟩
  · simp [copy, eq_comm]
  · simp [copy, instant]

/-- C51 (dates) fails for a date with nanoseconds. -/
theorem C51_date_violated : (⟨0, none, 500⟩ : DateTime).copy = ⟨0, none, 0⟩ := rfl

/-! ## C52: text -/

/-- C52: the text of a date is read as that date cut down to whole ticks (100 ns), if its time zone is
a whole number of minutes from UTC and its year is written with four digits. Partial: otherwise it
fails, see `C52_violated`. -/
theorem C52_partial (year4 : Nat → PyStr) (v : DateFields) (h : v.Valid) (hz : v.MinuteZone)
    (hy : FourDigits year4 v.year) :
    deserializeDateTime (serializeDateTime year4 v) =
      .ok { v with nanosecond := v.nanosecond / 100 * 100 } := by
  unfold serializeDateTime
  rw [show year4 v.year = padDigits 4 v.year from hy]
  exact deserialize_text v h hz

/-- C52: a fraction of one to seven digits is read as what it says, `.5` as half a second: with `k` digits of
the number `f` the microseconds and nanoseconds are those of `f` times ten to the power of `7 - k` ticks. -/
theorem C52_fraction (v : DateFields) (h : v.Valid) (hz : v.MinuteZone) (k f : Nat) (hk : 1 ≤ k ∧ k ≤ 7)
    (hf : f < 10 ^ k) :
    ∃ us ns, us * 10 + ns / 100 = f * 10 ^ (7 - k) ∧ ns < 1000 ∧ ns % 100 = 0 ∧
      deserializeDateTime (padDigits 4 v.year ++ 45 :: padDigits 2 v.month ++ 45 :: padDigits 2 v.day ++
          84 :: padDigits 2 v.hour ++ 58 :: padDigits 2 v.minute ++ 58 :: padDigits 2 v.second ++
          46 :: padDigits k f ++ zoneText v.offset) =
        .ok { v with microsecond := us, nanosecond := ns } :=
  ⟨_, _, by omega, by omega, by omega, deserialize_digits v h hz k f hk.1 hk.2 hf⟩

/-- C52: a date that is not in the calendar is refused. -/
theorem C52_refused (y mo d h mi s : Nat) (hy : y < 10000) (hmo : mo < 100) (hd : d < 100) (hh : h < 100)
    (hmi : mi < 100) (hs : s < 100)
    (bad : ¬ (1 ≤ y ∧ (1 ≤ mo ∧ mo ≤ 12) ∧ DayOfMonth y mo d ∧ h ≤ 23 ∧ mi ≤ 59 ∧ s ≤ 59)) (r : PyStr) :
    scanDate (padDigits 4 y ++ 45 :: padDigits 2 mo ++ 45 :: padDigits 2 d ++ 84 :: padDigits 2 h ++
      58 :: padDigits 2 mi ++ 58 :: padDigits 2 s ++ r) = none := by
  have hok : dateOk y mo d h mi s = false := by
    rw [dayOfMonth_iff] at bad
    rw [Bool.eq_false_iff]
    intro hc
    simp only [dateOk, Bool.and_eq_true, decide_eq_true_eq] at hc
    omega
  simp only [List.append_assoc, List.cons_append]
  unfold scanDate
  simp only [takeNum_pad 4 y _ (by omega), takeChar_cons, takeNum_pad 2 mo _ (by omega),
    takeNum_pad 2 d _ (by omega), takeNum_pad 2 h _ (by omega),
    takeNum_pad 2 mi _ (by omega), takeNum_pad 2 s _ (by omega), Option.bind_eq_bind,
    Option.bind_some, hok, Bool.false_eq_true, ↓reduceIte]

example : ¬ DayOfMonth 1900 2 29 ∧ DayOfMonth 2000 2 29 := by
  unfold DayOfMonth LeapYear
  omega

/-- C52: a `strftime` that does not pad still writes the years from 1000 on with four digits. -/
theorem C52_years (y : Nat) (h : 1000 ≤ y ∧ y ≤ 9999) : FourDigits natStr y := by
  obtain ⟨z, rfl⟩ : ∃ z, y = z + 4 := ⟨y - 4, by omega⟩
  unfold FourDigits natStr
  rw [natDigitsAux, if_neg (by omega), natDigitsAux, if_neg (by omega), natDigitsAux,
    if_neg (by omega), natDigitsAux, if_pos (by omega)]
  simp only [padDigits, List.nil_append]
  have : (z + 4) / 10 / 10 / 10 % 10 = (z + 4) / 10 / 10 / 10 := by omega
  rw [this]

/-- C52 fails: the text of a time zone with seconds, and that of a year before 1000 on a platform that
does not pad it, cannot be read. -/
theorem C52_violated :
    serializeDateTime natStr ⟨2020, 2, 29, 1, 2, 3, 0, 0, some 3661⟩ = lit "2020-02-29T01:02:03+01:0101" ∧
    deserializeDateTime (lit "2020-02-29T01:02:03+01:0101") = .error .valueError ∧
    serializeDateTime natStr ⟨999, 12, 31, 1, 2, 3, 0, 0, none⟩ = lit "999-12-31T01:02:03" ∧
    deserializeDateTime (lit "999-12-31T01:02:03") = .error .valueError := by
  decide +kernel

/-- A leap day in a time zone, with a fraction down to the nanosecond. -/
def exampleFields : DateFields := ⟨2024, 2, 29, 23, 59, 59, 1, 230, some (-34200)⟩

example : exampleFields.Valid ∧ exampleFields.MinuteZone := by
  unfold exampleFields DateFields.Valid DateFields.MinuteZone
  refine ⟨⟨by decide, by decide, ?_, by decide, by decide, by decide, by decide, by decide, ?_⟩, ?_⟩
  · refine ⟨by decide, by decide, by decide, fun _ => ⟨by decide, fun _ => .inr ⟨by decide, by decide⟩⟩⟩
  · intro o h; simp at h; omega
  · intro o h; simp at h; omega
example : serializeDateTime natStr exampleFields = lit "2024-02-29T23:59:59.0000012-09:30" := by
  decide +kernel
example : FourDigits (padDigits 4) 7 := rfl

end Verif
