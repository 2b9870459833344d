import Verif.Proof.Duration

/-! # C25, C26: durations -/

namespace Verif

open Duration

/-! ## C26: exact arithmetic -/

/-- C26 (construction): the constructor gives the one normal form with that many nanoseconds. -/
theorem C26_construct (n : Int) (d : Duration) : ofNanos n = .ok d ↔ d.Valid ∧ d.totalNs = n :=
  ofNanos_iff n d

/-- C26 (construction): every number of nanoseconds in range has a duration, any other raises
OverflowError. -/
theorem C26_range (n : Int) : (NsInRange n → ∃ d, ofNanos n = .ok d) ∧
    (¬ NsInRange n → ofNanos n = .error .overflowError) :=
  ⟨ofNanos_range, ofNanos_error⟩

/-- C26 (normal form): two durations of the same length are the same. -/
theorem C26_unique (a b : Duration) (ha : a.Valid) (hb : b.Valid) (h : a.totalNs = b.totalNs) :
    a = b := total_inj ha hb h

/-- C26 (arithmetic): sums, differences and negation have exactly the right length, and fail exactly
when that is out of range. -/
theorem C26_arith (a b d : Duration) :
    (a.add b = .ok d ↔ d.Valid ∧ d.totalNs = a.totalNs + b.totalNs) ∧
    (a.sub b = .ok d ↔ d.Valid ∧ d.totalNs = a.totalNs - b.totalNs) ∧
    (a.neg = .ok d ↔ d.Valid ∧ d.totalNs = -a.totalNs) :=
  ⟨ofNanos_iff _ _, ofNanos_iff _ _, ofNanos_iff _ _⟩

/-- C26 (arithmetic): they fail only with OverflowError and only when the result is out of range. -/
theorem C26_arith_fails (a b : Duration) (e : Err) :
    (a.add b = .error e ↔ e = .overflowError ∧ ¬ NsInRange (a.totalNs + b.totalNs)) ∧
    (a.sub b = .error e ↔ e = .overflowError ∧ ¬ NsInRange (a.totalNs - b.totalNs)) ∧
    (a.neg = .error e ↔ e = .overflowError ∧ ¬ NsInRange (-a.totalNs)) := by
  have key : ∀ n, ofNanos n = .error e ↔ e = .overflowError ∧ ¬ NsInRange n := by
    intro n
    by_cases h : NsInRange n
    · obtain ⟨d, hd⟩ := ofNanos_range h
      simp [hd, h]
    · rw [ofNanos_error h]
      simp [h, eq_comm]
  exact ⟨key _, key _, key _⟩

/-- C26 (arithmetic): subtracting from a plain timedelta is exact too; it fails when the result or
the negation of the duration is out of range. -/
theorem C26_rsub (a o d : Duration) : a.rsub o = .ok d ↔
    NsInRange (-a.totalNs) ∧ d.Valid ∧ d.totalNs = o.totalNs - a.totalNs := by
  unfold rsub
  by_cases h : NsInRange (-a.totalNs)
  · obtain ⟨m, hm⟩ := ofNanos_range h
    have hm' := (ofNanos_ok hm).2
    have e : a.neg = .ok m := hm
    rw [e]
    dsimp only
    unfold Duration.add
    rw [ofNanos_iff, hm']
    have : -a.totalNs + o.totalNs = o.totalNs - a.totalNs := by omega
    rw [this]
    simp [h]
  · have e : a.neg = .error .overflowError := ofNanos_error h
    rw [e]
    simp [h]

/-- C26 (comparison): comparisons are those of the numbers of nanoseconds. -/
theorem C26_compare (a b : Duration) :
    (a.eq b = true ↔ a.totalNs = b.totalNs) ∧ (a.ne b = true ↔ a.totalNs ≠ b.totalNs) ∧
    (a.lt b = true ↔ a.totalNs < b.totalNs) ∧ (a.le b = true ↔ a.totalNs ≤ b.totalNs) ∧
    (a.gt b = true ↔ a.totalNs > b.totalNs) ∧ (a.ge b = true ↔ a.totalNs ≥ b.totalNs) := by
  simp [Duration.eq, Duration.ne, Duration.lt, Duration.le, Duration.gt, Duration.ge]

/-- C26 (comparison): and durations compare equal only if all their fields are. -/
theorem C26_eq_fields (a b : Duration) (ha : a.Valid) (hb : b.Valid) : a.eq b = true ↔ a = b := by
  constructor
  · intro h
    exact total_inj ha hb (by simpa [Duration.eq] using h)
  · rintro rfl
    simp [Duration.eq]

/-- C26 (abs, `*`, timedelta on the left): these come from `datetime.timedelta` and are exact as long
as no nanoseconds are involved. Partial: `C26_inherited_exact` says what they give otherwise. -/
theorem C26_inherited_partial (a td d : Duration) (k : Int) (hv : a.Valid)
    (hn : a.nanoseconds = 0) (ht : td.nanoseconds = 0) :
    (a.abs = .ok d ↔ d.Valid ∧ d.totalNs = a.totalNs.natAbs) ∧
    (a.mul k = .ok d ↔ d.Valid ∧ d.totalNs = a.totalNs * k) ∧
    (Duration.radd td a = .ok d ↔ d.Valid ∧ d.totalNs = td.totalNs + a.totalNs) := by
  have e := micros_total a
  have e2 := micros_total td
  refine ⟨?_, ?_, ?_⟩
  · unfold Duration.abs
    have hneg : a.days < 0 ↔ a.totalNs < 0 := by
      obtain ⟨h1, h2, h3, h4⟩ := hv
      unfold totalNs
      omega
    by_cases h : a.days < 0
    · rw [if_pos h, ofMicros_iff]
      have : (-a.micros) * 1000 = a.totalNs.natAbs := by omega
      rw [this]
    · rw [if_neg h, ofMicros_iff]
      have : a.micros * 1000 = a.totalNs.natAbs := by omega
      rw [this]
  · unfold Duration.mul
    rw [ofMicros_iff]
    have : a.micros * k * 1000 = a.totalNs * k := by
      rw [Int.mul_right_comm, e, hn, Int.sub_zero]
    rw [this]
  · unfold Duration.radd
    rw [ofMicros_iff]
    have : (td.micros + a.micros) * 1000 = td.totalNs + a.totalNs := by omega
    rw [this]

/-- C26: with nanoseconds, they all lose them. -/
theorem C26_inherited_exact (a td d : Duration) (k : Int) :
    (a.abs = .ok d → d.totalNs = (a.totalNs - a.nanoseconds) * (if a.days < 0 then -1 else 1)) ∧
    (a.mul k = .ok d → d.totalNs = (a.totalNs - a.nanoseconds) * k) ∧
    (Duration.radd td a = .ok d →
      d.totalNs = td.totalNs - td.nanoseconds + (a.totalNs - a.nanoseconds)) := by
  rw [← micros_total a, ← micros_total td]
  refine ⟨?_, ?_, ?_⟩
  · unfold Duration.abs
    split
    · intro h
      rw [((ofMicros_iff _ _).mp h).2]; omega
    · intro h
      rw [((ofMicros_iff _ _).mp h).2]; omega
  · intro h
    rw [((ofMicros_iff _ _).mp h).2, Int.mul_right_comm]
  · intro h
    rw [((ofMicros_iff _ _).mp h).2]; omega

/-- C26 fails for abs, `*` and a timedelta on the left: 500 ns times two is nothing, the absolute
value of -1 ns is 1000 ns, and a timedelta of 0 plus 999 ns is 0. -/
theorem C26_violated :
    (∃ d, ofNanos 500 = .ok d ∧ d.mul 2 = .ok Duration.zero) ∧
    (∃ d r, ofNanos (-1) = .ok d ∧ d.abs = .ok r ∧ r.totalNs = 1000) ∧
    (∃ d, ofNanos 999 = .ok d ∧ Duration.radd Duration.zero d = .ok Duration.zero) :=
  ⟨⟨⟨0, 0, 0, 500⟩, by decide +kernel, by decide +kernel⟩,
   ⟨⟨-1, 86399, 999999, 999⟩, ⟨0, 0, 1, 0⟩, by decide +kernel, by decide +kernel, by decide +kernel⟩,
   ⟨⟨0, 0, 0, 999⟩, by decide +kernel, by decide +kernel⟩⟩

/-- A negative duration with all fields set: -1 day + 23:59:59.999998 + 500 ns. -/
def exampleDuration : Duration := ⟨-1, 86399, 999998, 500⟩

example : exampleDuration.Valid ∧ exampleDuration.totalNs = -1500 := by
  unfold Valid; decide +kernel
example : exampleDuration.add exampleDuration = .ok ⟨-1, 86399, 999997, 0⟩ := by decide +kernel
example : exampleDuration.neg = .ok ⟨0, 0, 1, 500⟩ := by decide +kernel
example : exampleDuration.rsub ⟨0, 0, 1, 0⟩ = .ok ⟨0, 0, 2, 500⟩ := by decide +kernel
example : (⟨3, 7, 5, 0⟩ : Duration).Valid ∧ (⟨3, 7, 5, 0⟩ : Duration).nanoseconds = 0 := by
  unfold Valid; decide +kernel
example : NsInRange 5 ∧ ¬ NsInRange (10 ^ 30) := by unfold NsInRange; decide +kernel

/-! ## C25: text -/

/-- C25: the text of a duration is read as that duration cut down to whole ticks (100 ns), unless
its seconds are 10, 20, 30, 40 or 50 exactly. Partial: for those see `C25_exact`. -/
theorem C25_partial (uni : Nat → Option Nat) (hu : ExtendsAscii uni) (d : Duration) (h : d.Valid)
    (ht : ¬ TensOfSeconds (d.totalNs / 100 * 100)) :
    ∃ r, deserializeDuration uni (serializeDuration d) = .ok r ∧ r.Valid ∧
      r.totalNs = d.totalNs / 100 * 100 := by
  rw [tens_iff] at ht
  rw [deserialize_serialize hu]
  have hx := (read_exact (d.totalNs / 100).natAbs).mpr ht
  have hr : NsInRange (d.totalNs / 100 * 100) := by
    have := total_range h
    unfold NsInRange at *
    omega
  obtain ⟨r, h1⟩ := ofNanos_range hr
  refine ⟨r, ?_, ofNanos_ok h1⟩
  rw [← h1]
  dsimp only
  rw [hx]
  congr 1
  split <;> omega

/-- C25: a duration of whole ticks comes back from its text exactly when its seconds are not 10, 20,
30, 40 or 50. -/
theorem C25_exact (uni : Nat → Option Nat) (hu : ExtendsAscii uni) (d : Duration) (h : d.Valid)
    (hw : d.totalNs % 100 = 0) :
    deserializeDuration uni (serializeDuration d) = .ok d ↔ ¬ TensOfSeconds d.totalNs := by
  have e : d.totalNs / 100 * 100 = d.totalNs := by omega
  constructor
  · intro hr ht
    rw [deserialize_serialize hu, ofNanos_iff] at hr
    rw [← e, tens_iff] at ht
    refine absurd ht ((read_exact (d.totalNs / 100).natAbs).mp ?_)
    have := hr.2
    dsimp only at this
    split at this <;> omega
  · intro ht
    obtain ⟨r, h1, h2, h3⟩ := C25_partial uni hu d h (by rw [e]; exact ht)
    rw [h1, total_inj h2 h (by omega)]

/-- C25 fails: ten seconds are written as `PT1S` and come back as one second. -/
theorem C25_violated :
    serializeDuration ⟨0, 10, 0, 0⟩ = lit "PT1S" ∧
    deserializeDuration asciiDigit (serializeDuration ⟨0, 10, 0, 0⟩) = .ok ⟨0, 1, 0, 0⟩ := by
  decide +kernel

example : serializeDuration ⟨-3, 3661, 1, 200⟩ = lit "-P2DT22H58M58.9999988S" := by decide +kernel
example : (⟨-3, 3661, 1, 200⟩ : Duration).Valid ∧ (⟨-3, 3661, 1, 200⟩ : Duration).totalNs % 100 = 0 ∧
    ¬ TensOfSeconds (⟨-3, 3661, 1, 200⟩ : Duration).totalNs := by
  unfold Valid TensOfSeconds; decide +kernel
example : TensOfSeconds (⟨0, 10, 0, 0⟩ : Duration).totalNs := by unfold TensOfSeconds; decide +kernel
example : ExtendsAscii asciiDigit := fun _ _ => rfl

end Verif
