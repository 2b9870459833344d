import Verif.Spec.Duration
import Verif.Proof.Version

/-! # Durations: helper lemmas -/

namespace Verif

open PSVersion

namespace Duration

theorem total_range {d : Duration} (h : d.Valid) : NsInRange d.totalNs := by
  obtain ⟨h1, h2, h3, h4⟩ := h
  unfold NsInRange totalNs
  omega

theorem total_inj {a b : Duration} (ha : a.Valid) (hb : b.Valid) (h : a.totalNs = b.totalNs) :
    a = b := by
  obtain ⟨a1, a2, a3, a4⟩ := a
  obtain ⟨b1, b2, b3, b4⟩ := b
  obtain ⟨h1, h2, h3, h4⟩ := ha
  obtain ⟨g1, g2, g3, g4⟩ := hb
  simp only [totalNs] at *
  have e1 : a1 = b1 := by omega
  have e2 : a2 = b2 := by omega
  have e3 : a3 = b3 := by omega
  have e4 : a4 = b4 := by omega
  rw [e1, e2, e3, e4]

theorem ofMicros_pos {us : Int} (h : -999999999 ≤ us / 86400000000 ∧ us / 86400000000 ≤ 999999999) :
    ofMicros us = .ok ⟨us / 86400000000, us % 86400000000 / 1000000, us % 86400000000 % 1000000, 0⟩ :=
  if_pos h

theorem ofMicros_neg {us : Int}
    (h : ¬ (-999999999 ≤ us / 86400000000 ∧ us / 86400000000 ≤ 999999999)) :
    ofMicros us = .error .overflowError :=
  if_neg h

theorem zero_total : zero.totalNs = 0 := by decide

theorem ofNanos_pos {n : Int} (h : NsInRange n) :
    ofNanos n = .ok ⟨n / 1000 / 86400000000, n / 1000 % 86400000000 / 1000000,
      n / 1000 % 86400000000 % 1000000, n % 1000⟩ := by
  unfold ofNanos new
  simp only [zero_total, Int.add_zero]
  unfold NsInRange at h
  rw [ofMicros_pos (by omega)]

theorem ofNanos_error {n : Int} (h : ¬ NsInRange n) : ofNanos n = .error .overflowError := by
  unfold ofNanos new
  simp only [zero_total, Int.add_zero]
  unfold NsInRange at h
  rw [ofMicros_neg (by omega)]

theorem ofNanos_range {n : Int} (h : NsInRange n) : ∃ d, ofNanos n = .ok d :=
  ⟨_, ofNanos_pos h⟩

theorem ofNanos_ok {n : Int} {d : Duration} (h : ofNanos n = .ok d) : d.Valid ∧ d.totalNs = n := by
  by_cases hr : NsInRange n
  · rw [ofNanos_pos hr] at h
    simp only [Except.ok.injEq] at h
    subst h
    unfold NsInRange at hr
    simp only [Valid, totalNs]
    refine ⟨?_, ?_⟩ <;> omega
  · rw [ofNanos_error hr] at h
    cases h

theorem ofNanos_total {d : Duration} (h : d.Valid) : ofNanos d.totalNs = .ok d := by
  obtain ⟨d', hd⟩ := ofNanos_range (total_range h)
  rw [hd, total_inj (ofNanos_ok hd).1 h (ofNanos_ok hd).2]

/-- What the constructor does. -/
theorem ofNanos_iff (n : Int) (d : Duration) : ofNanos n = .ok d ↔ d.Valid ∧ d.totalNs = n := by
  constructor
  · exact ofNanos_ok
  · rintro ⟨h, rfl⟩
    exact ofNanos_total h

theorem ofMicros_iff (us : Int) (d : Duration) :
    ofMicros us = .ok d ↔ d.Valid ∧ d.totalNs = us * 1000 := by
  rw [← ofNanos_iff]
  unfold ofNanos new
  simp only [zero_total, Int.add_zero]
  have e1 : us * 1000 / 1000 = us := by omega
  have e2 : us * 1000 % 1000 = 0 := by omega
  rw [e1, e2]
  by_cases h : -999999999 ≤ us / 86400000000 ∧ us / 86400000000 ≤ 999999999
  · rw [ofMicros_pos h]
  · rw [ofMicros_neg h]

end Duration

/-! ## Digits -/

theorem scanDigits_ascii {uni : Nat → Option Nat} (hu : ExtendsAscii uni) (cs rest : PyStr)
    (h : ∀ c ∈ cs, 48 ≤ c ∧ c ≤ 57) (hr : ∀ c r, rest = c :: r → uni c = none) :
    scanDigits uni (cs ++ rest) = (cs.map (· - 48), rest) := by
  refine scanDigits_exact uni cs rest _ ?_ hr
  rw [List.map_map]
  apply List.map_congr_left
  intro c hc
  have := h c hc
  rw [hu c (by omega)]
  simp [asciiDigit, this]

theorem padDigits_ascii (w n : Nat) : ∀ c ∈ padDigits w n, 48 ≤ c ∧ c ≤ 57 := by
  induction w generalizing n with
  | zero => simp [padDigits]
  | succ w ih =>
    intro c hc
    simp only [padDigits, List.mem_append, List.mem_singleton] at hc
    rcases hc with hc | hc
    · exact ih _ c hc
    · omega

theorem padDigits_length (w n : Nat) : (padDigits w n).length = w := by
  induction w generalizing n with
  | zero => rfl
  | succ w ih => simp [padDigits, ih]

theorem padDigits_val (w n : Nat) (h : n < 10 ^ w) : digitsVal ((padDigits w n).map (· - 48)) = n := by
  induction w generalizing n with
  | zero => simp at h; subst h; rfl
  | succ w ih =>
    simp only [padDigits, List.map_append, List.map_cons, List.map_nil]
    rw [digitsVal_append, ih (n / 10) (by rw [Nat.pow_succ] at h; omega)]
    simp
    omega

/-- A text with the trailing characters `.` and `0` cut off. -/
theorem rstrip_eq (t z : PyStr) (hz : ∀ c ∈ z, c = 46 ∨ c = 48)
    (ht : ∀ u c, t = u ++ [c] → c ≠ 46 ∧ c ≠ 48) : rstripDotZero (t ++ z) = t := by
  unfold rstripDotZero
  rw [List.reverse_append, List.dropWhile_append_of_pos]
  · rcases List.eq_nil_or_concat t with rfl | ⟨u, c, rfl⟩
    · simp
    · have := ht u c (by simp)
      simp [this.1, this.2]
  · intro c hc
    rcases hz c (by simpa using hc) with rfl | rfl <;> simp

/-- The digits of a number that is not zero end in zeros after a digit that is not zero. -/
theorem padDigits_split (w n : Nat) (h : n < 10 ^ w) (hn : n ≠ 0) :
    ∃ p d k, padDigits w n = p ++ [48 + d] ++ List.replicate k 48 ∧ d ≠ 0 ∧ d < 10 ∧
      p.length + 1 + k = w := by
  induction w generalizing n with
  | zero => simp at h; omega
  | succ w ih =>
    by_cases h0 : n % 10 = 0
    · obtain ⟨p, d, k, h1, h2, h3, h4⟩ := ih (n / 10) (by rw [Nat.pow_succ] at h; omega) (by omega)
      refine ⟨p, d, k + 1, ?_, h2, h3, by omega⟩
      rw [padDigits, h1, h0, List.replicate_succ']
      simp
    · refine ⟨padDigits w (n / 10), n % 10, 0, by simp [padDigits], h0, by omega, ?_⟩
      rw [padDigits_length]

/-! ## The seconds text -/

/-- The whole seconds that the text of a number of ticks is read as. -/
def readWhole (ticks : Nat) : Nat :=
  if ticks % 100000000 = 0 then ticks / 100000000 else ticks / 10000000

theorem letter_stop {uni : Nat → Option Nat} (hu : ExtendsAscii uni) {x : Nat} {r : PyStr}
    (hx : 58 ≤ x ∧ x < 128 ∨ x = 46) : ∀ c s, x :: r = c :: s → uni c = none := by
  rintro c s h
  cases h
  rw [hu x (by omega)]
  simp [asciiDigit]
  omega

theorem whole_text : ∀ q, q < 60 →
    zfill1 (rstripDotZero (natStr q ++ 46 :: padDigits 7 0)) =
      natStr (if q % 10 = 0 then q / 10 else q) := by
  decide +kernel

theorem scanSeconds_text {uni : Nat → Option Nat} (hu : ExtendsAscii uni) (ticks : Nat)
    (h : ticks < 600000000) :
    ∃ fs, scanSeconds uni (zfill1 (rstripDotZero (fixed7 ticks)) ++ [83]) =
      (readWhole ticks, fs, []) ∧ fractionTicks fs = ticks % 10000000 := by
  have hlt : ticks % 10000000 < 10 ^ 7 := Nat.mod_lt _ (by decide)
  by_cases h0 : ticks % 10000000 = 0
  · refine ⟨[], ?_, by rw [h0]; decide⟩
    rw [fixed7, h0, whole_text _ (by omega)]
    have hr : readWhole ticks = if ticks / 10000000 % 10 = 0 then ticks / 10000000 / 10
        else ticks / 10000000 := by
      unfold readWhole
      split <;> split <;> omega
    rw [← hr]
    unfold scanSeconds
    rw [scanDigits_ascii hu _ _ (natStr_ascii _) (letter_stop hu (by omega))]
    simp [natStr_val]
  · obtain ⟨p, d, k, h1, h2, h3, h4⟩ := padDigits_split 7 _ hlt h0
    have hp : ∀ c ∈ p ++ [48 + d], 48 ≤ c ∧ c ≤ 57 := fun c hc =>
      padDigits_ascii 7 (ticks % 10000000) c (by rw [h1]; exact List.mem_append_left _ hc)
    have hs : rstripDotZero (fixed7 ticks) = natStr (ticks / 10000000) ++ 46 :: (p ++ [48 + d]) := by
      have : fixed7 ticks = (natStr (ticks / 10000000) ++ 46 :: (p ++ [48 + d])) ++
          List.replicate k 48 := by
        rw [fixed7, h1]; simp
      rw [this]
      refine rstrip_eq _ _ ?_ ?_
      · intro c hc; exact Or.inr (List.eq_of_mem_replicate hc)
      · intro u c hc
        have : natStr (ticks / 10000000) ++ 46 :: p ++ [48 + d] = u ++ [c] := by
          rw [← hc]; simp
        have := (List.append_inj' this rfl).2
        simp at this
        omega
    refine ⟨(p ++ [48 + d]).map (· - 48), ?_, ?_⟩
    · have hz : zfill1 (rstripDotZero (fixed7 ticks)) =
          natStr (ticks / 10000000) ++ 46 :: (p ++ [48 + d]) := by
        rw [hs]; unfold zfill1; rw [if_neg (by simp)]
      rw [hz]
      unfold scanSeconds
      have e : natStr (ticks / 10000000) ++ 46 :: (p ++ [48 + d]) ++ [83] =
          natStr (ticks / 10000000) ++ (46 :: (p ++ [48 + d] ++ [83])) := by simp
      rw [e, scanDigits_ascii hu _ _ (natStr_ascii _) (letter_stop hu (by omega))]
      simp only [List.head?_cons, Option.some.injEq, Nat.reduceEqDiff, ↓reduceIte, List.drop_succ_cons,
        List.drop_zero]
      rw [scanDigits_ascii hu _ _ hp (letter_stop hu (by omega))]
      have hr : readWhole ticks = ticks / 10000000 := by
        unfold readWhole; rw [if_neg (by omega)]
      rw [hr]
      simp [natStr_val]
      omega
    · have : fractionTicks ((p ++ [48 + d]).map (· - 48)) =
          digitsVal ((padDigits 7 (ticks % 10000000)).map (· - 48)) := by
        rw [h1]
        unfold fractionTicks
        have e : 7 - ((p ++ [48 + d]).map (· - 48)).length = k := by simp; omega
        rw [e]
        simp
      rw [this, padDigits_val 7 _ hlt]

/-! ## The time and day text -/

theorem countText_ascii_stop {uni : Nat → Option Nat} (hu : ExtendsAscii uni) (n unit : Nat)
    (r : PyStr) (hx : 58 ≤ unit ∧ unit < 128)
    (hr : ∀ ds r', scanDigits uni r = (ds, r') → ds = [] ∨ r'.head? ≠ some unit) :
    scanCount uni unit (countText n unit ++ r) = (n, r) := by
  unfold countText
  split
  · rename_i h0
    subst h0
    unfold scanCount
    cases h : scanDigits uni r with
    | mk ds r' =>
      simp only [List.nil_append, h]
      rw [if_neg]
      rintro ⟨h1, h2⟩
      exact (hr ds r' h).elim h1 (fun h3 => h3 h2)
  · unfold scanCount
    rw [List.append_assoc, List.singleton_append,
      scanDigits_ascii hu _ _ (natStr_ascii _) (letter_stop hu (by omega))]
    simp [natStr_val, natStr_ne_nil]

theorem scanDigits_letter {uni : Nat → Option Nat} (hu : ExtendsAscii uni) (x : Nat) (r : PyStr)
    (hx : 58 ≤ x ∧ x < 128 ∨ x = 46) : scanDigits uni (x :: r) = ([], x :: r) := by
  have := scanDigits_ascii hu [] (x :: r) (by simp) (letter_stop hu hx)
  simpa using this

theorem scanDigits_natStr {uni : Nat → Option Nat} (hu : ExtendsAscii uni) (n x : Nat) (r : PyStr)
    (hx : 58 ≤ x ∧ x < 128 ∨ x = 46) :
    scanDigits uni (natStr n ++ x :: r) = ((natStr n).map (· - 48), x :: r) :=
  scanDigits_ascii hu _ _ (natStr_ascii _) (letter_stop hu hx)

theorem scanSeconds_head {uni : Nat → Option Nat} {s r : PyStr} {n : Nat} {fs : List Nat}
    (h : scanSeconds uni s = (n, fs, r)) (hr : r ≠ s) :
    (scanDigits uni s).2.head? = some 83 ∨ (scanDigits uni s).2.head? = some 46 := by
  unfold scanSeconds at h
  by_cases h1 : (scanDigits uni s).2.head? = some 83
  · exact Or.inl h1
  · by_cases h2 : (scanDigits uni s).2.head? = some 46
    · exact Or.inr h2
    · simp only [if_neg h1, if_neg h2, Prod.mk.injEq] at h
      exact absurd h.2.2.symm hr

/-- The seconds text of line 562 to 564. -/
def secondsText (b : Bool) (ticks : Nat) : PyStr :=
  if ticks ≠ 0 ∨ b then zfill1 (rstripDotZero (fixed7 ticks)) ++ [83] else []

theorem scanSeconds_secondsText {uni : Nat → Option Nat} (hu : ExtendsAscii uni) (b : Bool)
    (ticks : Nat) (h : ticks < 600000000) :
    ∃ fs, scanSeconds uni (secondsText b ticks) = (readWhole ticks, fs, []) ∧
      fractionTicks fs = ticks % 10000000 := by
  unfold secondsText
  split
  · exact scanSeconds_text hu ticks h
  · rename_i hn
    have : ticks = 0 := by omega
    subst this
    exact ⟨[], by simp [scanSeconds, scanDigits, readWhole], by decide⟩

theorem secondsText_head {uni : Nat → Option Nat} (hu : ExtendsAscii uni) (b : Bool) (ticks : Nat)
    (h : ticks < 600000000) {x : Nat} (hx : x ≠ 83 ∧ x ≠ 46) {ds : List Nat} {r : PyStr}
    (hs : scanDigits uni (secondsText b ticks) = (ds, r)) : ds = [] ∨ r.head? ≠ some x := by
  by_cases he : secondsText b ticks = []
  · rw [he] at hs
    simp [scanDigits] at hs
    exact Or.inl hs.1
  · obtain ⟨fs, h1, _⟩ := scanSeconds_secondsText hu b ticks h
    have := scanSeconds_head h1 (Ne.symm he)
    rw [hs] at this
    right
    rcases this with this | this <;> simp only at this <;> rw [this] <;> simp <;> omega

theorem countText_head {uni : Nat → Option Nat} (hu : ExtendsAscii uni) (n unit x : Nat) (s : PyStr)
    (hx : x ≠ unit) (hl : 58 ≤ unit ∧ unit < 128)
    (hs : ∀ ds r, scanDigits uni s = (ds, r) → ds = [] ∨ r.head? ≠ some x) :
    ∀ ds r, scanDigits uni (countText n unit ++ s) = (ds, r) → ds = [] ∨ r.head? ≠ some x := by
  intro ds r h
  unfold countText at h
  split at h
  · exact hs ds r h
  · rw [List.append_assoc, List.singleton_append, scanDigits_natStr hu _ _ _ (by omega)] at h
    cases h
    right
    simp
    omega

theorem timeText_eq (ticks : Nat) : ∃ b, timeText ticks =
    84 :: (countText (ticks / 36000000000) 72 ++ (countText (ticks % 36000000000 / 600000000) 77 ++
      secondsText b (ticks % 36000000000 % 600000000))) := by
  refine ⟨decide (countText (ticks / 36000000000) 72 = [] ∧
    countText (ticks % 36000000000 / 600000000) 77 = []), ?_⟩
  simp only [timeText, secondsText, decide_eq_true_eq, List.append_assoc]

theorem timeText_ne (ticks : Nat) : ∃ c r, timeText ticks = 84 :: c :: r ∧ c ≠ 10 := by
  have key : ∀ n c r, natStr n = c :: r → c ≠ 10 := by
    intro n c r h
    have := natStr_ascii n c (by rw [h]; simp)
    omega
  unfold timeText
  dsimp only
  by_cases h1 : ticks / 36000000000 = 0
  · by_cases h2 : ticks % 36000000000 / 600000000 = 0
    · have hz : ∃ c r, zfill1 (rstripDotZero (fixed7 (ticks % 36000000000 % 600000000))) ++ [83] =
          c :: r ∧ c ≠ 10 := by
        have := scanSeconds_text (uni := asciiDigit) (fun _ _ => rfl) (ticks % 36000000000 % 600000000)
          (by omega)
        cases hs : zfill1 (rstripDotZero (fixed7 (ticks % 36000000000 % 600000000))) ++ [83] with
        | nil => simp at hs
        | cons c r =>
          refine ⟨c, r, rfl, ?_⟩
          rintro rfl
          obtain ⟨fs, h3, _⟩ := this
          rw [hs] at h3
          have := scanSeconds_head h3 (by simp)
          simp [scanDigits, asciiDigit] at this
      obtain ⟨c, r, hz, hc⟩ := hz
      simp only [h1, h2, countText, ↓reduceIte, List.nil_append, and_self, or_true, hz]
      exact ⟨c, r, rfl, hc⟩
    · obtain ⟨c, r, hc, _⟩ := natStr_pos _ h2
      simp only [h1, h2, countText, ↓reduceIte, List.nil_append, hc, List.cons_append]
      exact ⟨_, _, rfl, key _ _ _ hc⟩
  · obtain ⟨c, r, hc, _⟩ := natStr_pos _ h1
    simp only [h1, countText, ↓reduceIte, hc, List.cons_append]
    exact ⟨_, _, rfl, key _ _ _ hc⟩

/-- What the text of a number of ticks below one day is read as. -/
def readTicks (ticks : Nat) : Nat :=
  let rest := ticks % 36000000000 % 600000000
  ticks / 600000000 * 60 * 1000000000 + readWhole rest * 1000000000 + rest % 10000000 * 100

theorem scanTime_text {uni : Nat → Option Nat} (hu : ExtendsAscii uni) (ticks : Nat) :
    scanTime uni ((timeText ticks).drop 1) = some (readTicks ticks) := by
  have hd : dotAhead ((timeText ticks).drop 1) = true := by
    obtain ⟨c, r, h, hc⟩ := timeText_ne ticks
    rw [h]
    simp [dotAhead, hc]
  obtain ⟨b, hb⟩ := timeText_eq ticks
  rw [hb] at hd ⊢
  simp only [List.drop_succ_cons, List.drop_zero] at hd ⊢
  have hlt : ticks % 36000000000 % 600000000 < 600000000 := Nat.mod_lt _ (by decide)
  have hm : ∀ ds r, scanDigits uni (countText (ticks % 36000000000 / 600000000) 77 ++
      secondsText b (ticks % 36000000000 % 600000000)) = (ds, r) → ds = [] ∨ r.head? ≠ some 72 :=
    countText_head hu _ _ _ _ (by decide) (by decide)
      (fun ds r h => secondsText_head hu b _ hlt (by decide) h)
  obtain ⟨fs, h1, h2⟩ := scanSeconds_secondsText hu b _ hlt
  unfold scanTime
  rw [if_pos hd]
  simp only [countText_ascii_stop hu _ 72 _ (by decide) hm,
    countText_ascii_stop hu _ 77 _ (by decide)
      (fun ds r h => secondsText_head hu b _ hlt (by decide) h), h1, h2]
  simp only [atEnd, BEq.rfl, Bool.true_or, ↓reduceIte, Option.some.injEq, readTicks]
  omega

theorem scanDuration_text {uni : Nat → Option Nat} (hu : ExtendsAscii uni) (ticks : Nat) :
    scanDuration uni (ticksText ticks) =
      some (ticks / 864000000000 * 86400 * 1000000000 + readTicks (ticks % 864000000000)) := by
  unfold ticksText
  dsimp only
  obtain ⟨c, r, ht, hc⟩ := timeText_ne (ticks % 864000000000)
  by_cases h0 : ticks % 864000000000 ≠ 0 ∨ ticks / 864000000000 = 0
  · rw [if_pos h0]
    have hda : dotAhead (countText (ticks / 864000000000) 68 ++ timeText (ticks % 864000000000)) = true := by
      unfold countText
      split
      · rw [ht]; simp [dotAhead]
      · rename_i hn
        obtain ⟨c, r, hc, _⟩ := natStr_pos _ hn
        rw [hc]
        simp [dotAhead]
        omega
    have hs := countText_ascii_stop hu (ticks / 864000000000) 68 (timeText (ticks % 864000000000))
      (by decide) (by
        intro ds r' h
        rw [ht, scanDigits_letter hu _ _ (by omega)] at h
        cases h
        exact Or.inl rfl)
    unfold scanDuration
    simp only [List.head?_cons, List.drop_succ_cons, List.drop_zero, hda, and_self, ↓reduceIte, hs]
    have he : atEnd (timeText (ticks % 864000000000)) = false := by rw [ht]; simp [atEnd]
    have hh : (timeText (ticks % 864000000000)).head? = some 84 := by rw [ht]; rfl
    rw [he, hh, scanTime_text hu]
    simp
  · have h1 : ticks % 864000000000 = 0 := by omega
    have h2 : ticks / 864000000000 ≠ 0 := by omega
    rw [if_neg h0]
    have hda : dotAhead (countText (ticks / 864000000000) 68 ++ []) = true := by
      unfold countText
      rw [if_neg h2]
      obtain ⟨c, r, hc, _⟩ := natStr_pos _ h2
      rw [hc]
      simp [dotAhead]
      omega
    have hs := countText_ascii_stop hu (ticks / 864000000000) 68 []
      (by decide) (by
        intro ds r' h
        simp [scanDigits] at h
        exact Or.inl h.1)
    unfold scanDuration
    simp only [List.head?_cons, List.drop_succ_cons, List.drop_zero, hda, and_self, ↓reduceIte, hs]
    rw [h1]
    simp [atEnd, readTicks, readWhole]

/-- What a text of ticks is read as: the ticks, unless the seconds are 10, 20, 30, 40 or 50. -/
theorem read_exact (ticks : Nat) :
    ticks / 864000000000 * 86400 * 1000000000 + readTicks (ticks % 864000000000) = ticks * 100 ↔
      ¬ (ticks % 600000000 ≠ 0 ∧ ticks % 600000000 % 100000000 = 0) := by
  unfold readTicks readWhole
  dsimp only
  have e : ticks % 864000000000 % 36000000000 % 600000000 = ticks % 600000000 := by omega
  rw [e]
  split <;> omega

theorem deserialize_serialize {uni : Nat → Option Nat} (hu : ExtendsAscii uni) (d : Duration) :
    deserializeDuration uni (serializeDuration d) = Duration.ofNanos
      (let t := (d.totalNs / 100).natAbs
       let n : Nat := t / 864000000000 * 86400 * 1000000000 + readTicks (t % 864000000000)
       if d.totalNs / 100 < 0 then -(n : Int) else n) := by
  unfold serializeDuration
  dsimp only
  split
  · rename_i h
    have e : (-(d.totalNs / 100)).toNat = (d.totalNs / 100).natAbs := by omega
    rw [e]
    unfold deserializeDuration
    simp [scanDuration_text hu]
  · rename_i h
    have e : (d.totalNs / 100).toNat = (d.totalNs / 100).natAbs := by omega
    rw [e]
    unfold deserializeDuration
    have hn : (ticksText (d.totalNs / 100).natAbs).head? ≠ some 45 := by
      simp [ticksText]
    simp [hn, scanDuration_text hu]

theorem Duration.micros_total (d : Duration) : d.micros * 1000 = d.totalNs - d.nanoseconds := by
  unfold Duration.micros Duration.totalNs; omega

theorem tens_iff (t : Int) : TensOfSeconds (t * 100) ↔
    (t.natAbs % 600000000 ≠ 0 ∧ t.natAbs % 600000000 % 100000000 = 0) := by
  unfold TensOfSeconds
  omega

end Verif
