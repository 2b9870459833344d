import Verif.Spec.DateTime
import Verif.Proof.Duration

/-! # Dates: helper lemmas -/

namespace Verif

namespace DateTime

theorem stdAdd_pos {a : DateTime} {us : Int}
    (h : 0 ≤ a.wall + us ∧ a.wall + us < 3652059 * 86400000000) :
    stdAdd a us = .ok ⟨a.wall + us, a.tz, 0⟩ := if_pos h

theorem stdAdd_neg {a : DateTime} {us : Int}
    (h : ¬ (0 ≤ a.wall + us ∧ a.wall + us < 3652059 * 86400000000)) :
    stdAdd a us = .error .overflowError := if_neg h

end DateTime

/-! ## Text -/

theorem isSome_asciiDigit {c : Nat} : (asciiDigit c).isSome = true ↔ 48 ≤ c ∧ c ≤ 57 := by
  unfold asciiDigit
  split <;> simp_all

theorem takeNum_pad (n x : Nat) (r : PyStr) (h : x < 10 ^ n) :
    takeNum n (padDigits n x ++ r) = some (x, r) := by
  have e1 : (padDigits n x ++ r).take n = padDigits n x := by
    rw [List.take_append_of_le_length (by rw [padDigits_length]; exact Nat.le_refl _)]
    rw [List.take_of_length_le (by rw [padDigits_length]; exact Nat.le_refl _)]
  have e2 : (padDigits n x ++ r).drop n = r := by
    rw [List.drop_append_of_le_length (by rw [padDigits_length]; exact Nat.le_refl _)]
    rw [List.drop_of_length_le (by rw [padDigits_length]; exact Nat.le_refl _), List.nil_append]
  unfold takeNum
  rw [e1, e2, padDigits_length, padDigits_val n x h, if_pos]
  refine ⟨rfl, ?_⟩
  rw [List.all_eq_true]
  intro c hc
  exact isSome_asciiDigit.mpr (padDigits_ascii n x c hc)

theorem takeChar_cons (c : Nat) (r : PyStr) : takeChar c (c :: r) = some r := by
  simp [takeChar]

/-- The date and time without fraction and zone. -/
def dateText (v : DateFields) : PyStr :=
  padDigits 4 v.year ++ 45 :: padDigits 2 v.month ++ 45 :: padDigits 2 v.day ++ 84 :: padDigits 2 v.hour ++
    58 :: padDigits 2 v.minute ++ 58 :: padDigits 2 v.second

theorem dateText_length (v : DateFields) : (dateText v).length = 19 := by
  simp [dateText, padDigits_length]

theorem years_before : ∀ n : Nat, ((List.range' 1 n).map yearDays).sum = n * 365 + n / 4 - n / 100 + n / 400
  | 0 => rfl
  | n + 1 => by
    rw [List.range'_concat, List.map_append, List.sum_append, years_before n]
    simp only [List.map_cons, List.map_nil, List.sum_cons, List.sum_nil, yearDays]
    have a : 1 + 1 * n = n + 1 := by omega
    rw [a]
    split <;> omega

theorem months_before (y : Nat) : ∀ m : Nat, ((List.range' 1 m).map (monthDays y)).sum =
    ([31, 28, 31, 30, 31, 30, 31, 31, 30, 31, 30, 31].take m).sum + (if m > 1 ∧ daysInMonth y 2 = 29 then 1 else 0) := by
  have h2 : monthDays y 2 = 28 + (if daysInMonth y 2 = 29 then 1 else 0) := by
    show (if 400 ∣ y ∨ (4 ∣ y ∧ ¬ 100 ∣ y) then 29 else 28) = _
    have hd : daysInMonth y 2 = if y % 4 = 0 ∧ (y % 100 ≠ 0 ∨ y % 400 = 0) then 29 else 28 := rfl
    rw [hd]
    by_cases h : y % 4 = 0 ∧ (y % 100 ≠ 0 ∨ y % 400 = 0)
    · rw [if_pos h, if_pos (by omega)]; rfl
    · rw [if_neg h, if_neg (by omega)]; rfl
  have long : ∀ k : Nat, ((List.range' 1 (12 + k)).map (monthDays y)).sum = 337 + monthDays y 2 := by
    intro k
    induction k with
    | zero =>
      show 31 + (monthDays y 2 + (31 + (30 + (31 + (30 + (31 + (31 + (30 + (31 + (30 + (31 + 0))))))))))) = _
      generalize monthDays y 2 = a
      omega
    | succ k ih =>
      rw [show 12 + (k + 1) = (12 + k) + 1 by omega, List.range'_concat, List.map_append, List.sum_append, ih]
      have : monthDays y (1 + 1 * (12 + k)) = 0 := by
        rw [show 1 + 1 * (12 + k) = k + 13 by omega]; rfl
      simp only [List.map_cons, List.map_nil, List.sum_cons, List.sum_nil, this, Nat.add_zero]
  intro m
  by_cases h : m < 12
  · have hm : m = 0 ∨ m = 1 ∨ m = 2 ∨ m = 3 ∨ m = 4 ∨ m = 5 ∨ m = 6 ∨ m = 7 ∨ m = 8 ∨ m = 9 ∨ m = 10 ∨ m = 11 := by omega
    clear long
    by_cases hl : daysInMonth y 2 = 29
    · rw [if_pos hl] at h2
      simp only [monthDays] at h2
      rcases hm with rfl | rfl | rfl | rfl | rfl | rfl | rfl | rfl | rfl | rfl | rfl | rfl <;>
        simp [List.range', h2, hl, monthDays]
    · rw [if_neg hl] at h2
      simp only [monthDays] at h2
      rcases hm with rfl | rfl | rfl | rfl | rfl | rfl | rfl | rfl | rfl | rfl | rfl | rfl <;>
        simp [List.range', h2, hl, monthDays]
  · obtain ⟨k, rfl⟩ : ∃ k, m = 12 + k := ⟨m - 12, by omega⟩
    rw [long, h2, List.take_of_length_le (by simp)]
    simp only [List.sum_cons, List.sum_nil]
    have : 12 + k > 1 := by omega
    simp only [this, true_and]
    split <;> omega

theorem toOrdinal_eq (y m d : Nat) : toOrdinal y m d = dayNumber y m d := by
  unfold toOrdinal dayNumber
  rw [years_before, months_before]
  dsimp only
  congr 3
  by_cases h : m > 2
  · simp only [h, show m - 1 > 1 by omega]
  · simp only [h, show ¬ (m - 1 > 1) by omega]

theorem micros_eq (v : DateFields) : v.micros = v.instantMicros := by
  unfold DateFields.micros DateFields.instantMicros
  rw [toOrdinal_eq]
  cases v.offset <;> simp only [Option.getD] <;> omega

theorem dayOfMonth_iff (y m d : Nat) : DayOfMonth y m d ↔ 1 ≤ d ∧ d ≤ daysInMonth y m := by
  unfold DayOfMonth LeapYear daysInMonth
  simp only [Nat.dvd_iff_mod_eq_zero]
  split
  · split <;> omega
  · split <;> omega

theorem scanDate_text (v : DateFields) (h : v.Valid) (r : PyStr) :
    scanDate (dateText v ++ r) =
      some (⟨v.year, v.month, v.day, v.hour, v.minute, v.second, 0, 0, none⟩, r) := by
  obtain ⟨h1, h2, h3, h4, h5, h6, _⟩ := h
  rw [dayOfMonth_iff] at h3
  have hdim : daysInMonth v.year v.month ≤ 31 := by
    unfold daysInMonth; split <;> split <;> omega
  have hok : dateOk v.year v.month v.day v.hour v.minute v.second = true := by
    simp only [dateOk, Bool.and_eq_true, decide_eq_true_eq]
    omega
  unfold dateText
  simp only [List.append_assoc, List.cons_append]
  unfold scanDate
  simp only [takeNum_pad 4 v.year _ (by omega), takeChar_cons, takeNum_pad 2 v.month _ (by omega),
    takeNum_pad 2 v.day _ (by omega), takeNum_pad 2 v.hour _ (by omega),
    takeNum_pad 2 v.minute _ (by omega), takeNum_pad 2 v.second _ (by omega), Option.bind_eq_bind,
    Option.bind_some, hok, ↓reduceIte]

theorem digitRun_append (ds r : PyStr) (h : ∀ c ∈ ds, 48 ≤ c ∧ c ≤ 57)
    (hr : ∀ c s, r = c :: s → ¬ (48 ≤ c ∧ c ≤ 57)) : digitRun (ds ++ r) = ds := by
  unfold digitRun
  rw [List.takeWhile_append_of_pos]
  · cases r with
    | nil => simp
    | cons c s =>
      have : (asciiDigit c).isSome = false := by
        have := hr c s rfl
        rw [← isSome_asciiDigit] at this
        simpa using this
      simp [this]
  · intro c hc
    exact isSome_asciiDigit.mpr (h c hc)

theorem digitRun_spec (s : PyStr) : s = digitRun s ++ s.drop (digitRun s).length ∧
    ∀ c ∈ digitRun s, 48 ≤ c ∧ c ≤ 57 := by
  constructor
  · unfold digitRun
    induction s with
    | nil => rfl
    | cons c cs ih =>
      rw [List.takeWhile_cons]
      split
      · simp only [List.length_cons, List.drop_succ_cons, List.cons_append]
        rw [← ih]
      · simp
  · intro c hc
    unfold digitRun at hc
    refine isSome_asciiDigit.mp ?_
    induction s with
    | nil => simp at hc
    | cons x xs ih =>
      rw [List.takeWhile_cons] at hc
      split at hc
      · rcases List.mem_cons.mp hc with rfl | hc
        · assumption
        · exact ih hc
      · cases hc

/-- What the offset pattern matches. -/
theorem matchOffset_shape {s : PyStr} {sg h m : Nat} (hm : matchOffset s = some (sg, h, m)) :
    ∃ hs ms, s = sg :: (hs ++ 58 :: ms) ∧ (sg = 43 ∨ sg = 45) ∧ hs.length ≤ 2 ∧ ms.length ≤ 2 ∧
      (∀ c ∈ hs, 48 ≤ c ∧ c ≤ 57) ∧ (∀ c ∈ ms, 48 ≤ c ∧ c ≤ 57) := by
  unfold matchOffset at hm
  dsimp only at hm
  split at hm
  · rename_i hc
    obtain ⟨c1, c2, c3, c4, c5, c6, c7⟩ := hc
    cases s with
    | nil => simp at c1
    | cons c cs =>
      simp only [List.headD_cons, List.drop_succ_cons, List.drop_zero, Option.some.injEq,
        Prod.mk.injEq] at *
      obtain ⟨rfl, _⟩ := hm
      have d1 := digitRun_spec cs
      generalize digitRun cs = hs at *
      cases hr : cs.drop hs.length with
      | nil => rw [hr] at c4; simp at c4
      | cons x rest =>
        rw [hr] at c4 c5 c6 c7 d1
        simp only [List.head?_cons, Option.some.injEq, List.drop_succ_cons, List.drop_zero] at c4 c5 c6 c7
        have d2 := digitRun_spec rest
        generalize digitRun rest = ms at *
        rw [c7, List.append_nil] at d2
        refine ⟨hs, ms, ?_, c1, c3, c6, d1.2, d2.2⟩
        rw [← c4, ← d2.1, ← d1.1]
  · cases hm

theorem searchOffset_cons {c : Nat} {cs : PyStr} (h : matchOffset (c :: cs) = none) :
    searchOffset (c :: cs) = (searchOffset cs).map (fun r => (c :: r.1, r.2)) := by
  rw [searchOffset, h]

theorem searchOffset_append (t s : PyStr) (h : ∀ u v, t = u ++ v → v ≠ [] → matchOffset (v ++ s) = none) :
    searchOffset (t ++ s) = (searchOffset s).map (fun r => (t ++ r.1, r.2)) := by
  induction t with
  | nil => cases h : searchOffset s <;> simp [h]
  | cons c t ih =>
    rw [List.cons_append, searchOffset_cons, ih]
    · cases searchOffset s <;> simp
    · intro u v e hv
      exact h (c :: u) v (by rw [e]; rfl) hv
    · have := h [] (c :: t) rfl (by simp)
      simpa using this

theorem matchOffset_long {s : PyStr} (h : 7 ≤ s.length) : matchOffset s = none := by
  cases hm : matchOffset s with
  | none => rfl
  | some r =>
    obtain ⟨sg, x, y⟩ := r
    obtain ⟨hs, ms, rfl, _, h1, h2, _⟩ := matchOffset_shape hm
    simp at h
    omega

theorem matchOffset_sign {s : PyStr} (h : ∀ c r, s = c :: r → c ≠ 43 ∧ c ≠ 45) :
    matchOffset s = none := by
  cases hm : matchOffset s with
  | none => rfl
  | some r =>
    obtain ⟨sg, x, y⟩ := r
    obtain ⟨hs, ms, rfl, h1, _⟩ := matchOffset_shape hm
    have := h sg _ rfl
    omega

theorem matchOffset_z {s : PyStr} (h : 90 ∈ s) : matchOffset s = none := by
  cases hm : matchOffset s with
  | none => rfl
  | some r =>
    obtain ⟨sg, x, y⟩ := r
    obtain ⟨hs, ms, rfl, h1, _, _, h2, h3⟩ := matchOffset_shape hm
    simp only [List.mem_cons, List.mem_append] at h
    rcases h with h | h | h | h
    · omega
    · have := h2 _ h; omega
    · omega
    · have := h3 _ h; omega

/-- No offset is found in a text without signs in its last part. -/
theorem searchOffset_none (a b : PyStr) (hl : 6 ≤ b.length) (hb : ∀ c ∈ b, c ≠ 43 ∧ c ≠ 45) :
    searchOffset (a ++ b) = none := by
  rw [searchOffset_append]
  · have : searchOffset b = none := by
      clear hl
      induction b with
      | nil => rfl
      | cons c cs ih =>
        rw [searchOffset_cons, ih (fun x hx => hb x (by simp [hx]))]
        · rfl
        · apply matchOffset_sign
          intro x r e
          cases e
          exact hb _ (by simp)
    rw [this]; rfl
  · intro u v _ hv
    apply matchOffset_long
    have : 0 < v.length := List.length_pos_iff.mpr hv
    simp; omega

theorem searchOffset_z (t : PyStr) : searchOffset (t ++ [90]) = none := by
  rw [searchOffset_append]
  · have : searchOffset [90] = none := by decide
    rw [this]; rfl
  · intro u v _ _
    exact matchOffset_z (by simp)

/-- An offset text is found where it is. -/
theorem searchOffset_found (t : PyStr) (sg h m : Nat) (hs : sg = 43 ∨ sg = 45) (hh : h < 100)
    (hm : m < 100) : searchOffset (t ++ sg :: (padDigits 2 h ++ 58 :: padDigits 2 m)) =
      some (t, sg, h, m) := by
  rw [searchOffset_append]
  · have : matchOffset (sg :: (padDigits 2 h ++ 58 :: padDigits 2 m)) = some (sg, h, m) := by
      unfold matchOffset
      have e1 : digitRun (padDigits 2 h ++ 58 :: padDigits 2 m) = padDigits 2 h :=
        digitRun_append _ _ (padDigits_ascii 2 h) (by intro c s e; cases e; omega)
      have e2 : digitRun (padDigits 2 m) = padDigits 2 m := by
        have := digitRun_append (padDigits 2 m) [] (padDigits_ascii 2 m) (by simp)
        simpa using this
      have e3 : (padDigits 2 h ++ 58 :: padDigits 2 m).drop (padDigits 2 h).length =
          58 :: padDigits 2 m := by simp
      rw [padDigits_length] at e3
      have e4 : (padDigits 2 m).drop 2 = [] :=
        List.drop_of_length_le (by rw [padDigits_length]; exact Nat.le_refl _)
      simp only [List.headD_cons, List.drop_succ_cons, List.drop_zero, e1, e3, e2, List.head?_cons,
        padDigits_length, padDigits_val 2 h (by omega), padDigits_val 2 m (by omega), e4]
      rw [if_pos (by simpa using hs)]
    rw [searchOffset, this]
    simp
  · intro u v _ hv
    apply matchOffset_long
    have : 0 < v.length := List.length_pos_iff.mpr hv
    simp [padDigits_length]; omega

/-- The fraction with at most six digits. -/
def microText (v : DateFields) : PyStr :=
  if v.microsecond ≠ 0 ∨ v.nanosecond ≠ 0 then 46 :: padDigits 6 v.microsecond else []

theorem natStr_digit (k : Nat) (h : k < 10) : natStr k = [48 + k] := by
  unfold natStr natDigitsAux
  rw [if_pos h]

/-- What may follow the seconds or the fraction: not a digit, not a point, no newline. -/
def ZoneLike (z : PyStr) : Prop :=
  (∀ c s, z = c :: s → ¬ (48 ≤ c ∧ c ≤ 57) ∧ c ≠ 46) ∧ ∀ c ∈ z, c ≠ 10

theorem splitFraction_text (v : DateFields) (hn : v.nanosecond < 1000) (z : PyStr) (hz : ZoneLike z) :
    splitFraction (dateText v ++ fractionText v ++ z) =
      (dateText v ++ microText v ++ z, v.nanosecond / 100 * 100) := by
  have ht : (dateText v ++ fractionText v ++ z).take 19 = dateText v := by
    rw [List.append_assoc, List.take_append_of_le_length (by rw [dateText_length]; omega),
      List.take_of_length_le (by rw [dateText_length]; omega)]
  have hd : (dateText v ++ fractionText v ++ z).drop 19 = fractionText v ++ z := by
    rw [List.append_assoc, List.drop_append_of_le_length (by rw [dateText_length]; omega),
      List.drop_of_length_le (by rw [dateText_length]; omega), List.nil_append]
  have hw : z.takeWhile (fun c => decide (c ≠ 10)) = z := by
    have := List.takeWhile_append_of_pos (l₁ := z) (l₂ := []) (p := fun c => decide (c ≠ 10))
      (fun c hc => by simpa using hz.2 c hc)
    simpa using this
  unfold splitFraction
  rw [hd, ht]
  by_cases h0 : v.microsecond ≠ 0 ∨ v.nanosecond ≠ 0
  · by_cases h1 : v.nanosecond ≠ 0
    · have ef : fractionText v = 46 :: (padDigits 6 v.microsecond ++ [48 + v.nanosecond / 100]) := by
        unfold fractionText
        rw [if_pos h0, if_pos h1, natStr_digit _ (by omega)]
      have er : digitRun (padDigits 6 v.microsecond ++ [48 + v.nanosecond / 100] ++ z) =
          padDigits 6 v.microsecond ++ [48 + v.nanosecond / 100] := by
        refine digitRun_append _ _ ?_ (fun c s e => (hz.1 c s e).1)
        intro c hc
        rcases List.mem_append.mp hc with hc | hc
        · exact padDigits_ascii _ _ c hc
        · simp at hc; omega
      simp only [ef, List.cons_append, List.head?_cons, List.drop_succ_cons, List.drop_zero, er]
      have el : (padDigits 6 v.microsecond ++ [48 + v.nanosecond / 100]).length = 7 := by
        simp [padDigits_length]
      have ed : (padDigits 6 v.microsecond ++ [48 + v.nanosecond / 100] ++ z).drop 7 = z := by
        rw [← el]; simp
      have e6 : (padDigits 6 v.microsecond ++ [48 + v.nanosecond / 100]).drop 6 =
          [48 + v.nanosecond / 100] := by
        have := padDigits_length 6 v.microsecond
        rw [List.drop_append_of_le_length (by omega), List.drop_of_length_le (by omega), List.nil_append]
      rw [el, ed, hw]
      simp only [Nat.reduceLeDiff, and_self, ↓reduceIte, Nat.reduceGT, Nat.reduceSub, e6,
        List.dropLast_concat]
      simp [microText, h0, digitsVal]
    · have ef : fractionText v = 46 :: padDigits 6 v.microsecond := by
        unfold fractionText
        rw [if_pos h0, if_neg h1]; simp
      have er : digitRun (padDigits 6 v.microsecond ++ z) = padDigits 6 v.microsecond :=
        digitRun_append _ _ (padDigits_ascii _ _) (fun c s e => (hz.1 c s e).1)
      have ed : (padDigits 6 v.microsecond ++ z).drop 6 = z := by
        have : (padDigits 6 v.microsecond ++ z).drop (padDigits 6 v.microsecond).length = z := by simp
        rwa [padDigits_length] at this
      simp only [ef, List.cons_append, List.head?_cons, List.drop_succ_cons, List.drop_zero, er,
        padDigits_length, ed, hw]
      have h2 : v.nanosecond = 0 := by omega
      have em : microText v = 46 :: padDigits 6 v.microsecond := by unfold microText; rw [if_pos h0]
      rw [em, h2]
      simp
  · have ef : fractionText v = [] := by
      unfold fractionText
      rw [if_neg h0]
    have em : microText v = [] := by
      unfold microText
      rw [if_neg h0]
    have hh : z.head? ≠ some 46 := by
      intro e
      cases z with
      | nil => simp at e
      | cons c s =>
        simp at e
        exact (hz.1 c s rfl).2 e
    have : v.nanosecond = 0 := by omega
    simp [ef, em, hh, this]

theorem scanMicro_text (v : DateFields) (hu : v.microsecond < 1000000) (z : PyStr)
    (hz : ∀ c s, z = c :: s → ¬ (48 ≤ c ∧ c ≤ 57) ∧ c ≠ 46) :
    (scanMicro (microText v ++ z) = some (v.microsecond, z) ∨
      (v.microsecond = 0 ∧ microText v = [] ∧ scanMicro (microText v ++ z) = none)) := by
  unfold microText
  split
  · left
    have er : digitRun (padDigits 6 v.microsecond ++ z) = padDigits 6 v.microsecond :=
      digitRun_append _ _ (padDigits_ascii _ _) (fun c s e => (hz c s e).1)
    have ed : (padDigits 6 v.microsecond ++ z).drop 6 = z := by
      have : (padDigits 6 v.microsecond ++ z).drop (padDigits 6 v.microsecond).length = z := by simp
      rwa [padDigits_length] at this
    unfold scanMicro
    simp only [List.cons_append, List.head?_cons, List.drop_succ_cons, List.drop_zero, er,
      padDigits_length, ed]
    simp [padDigits_val 6 v.microsecond (by omega)]
  · right
    rename_i h
    refine ⟨by omega, rfl, ?_⟩
    have hh : z.head? ≠ some 46 := by
      intro e
      cases z with
      | nil => simp at e
      | cons c s =>
        simp at e
        exact (hz c s rfl).2 e
    unfold scanMicro
    simp [hh]

/-- What `strptime` makes of a fraction. -/
def ScansTo (M : PyStr) (us : Nat) : Prop := ∀ z : PyStr, (∀ c s, z = c :: s → ¬ (48 ≤ c ∧ c ≤ 57) ∧ c ≠ 46) →
  (scanMicro (M ++ z) = some (us, z) ∨ (us = 0 ∧ M = [] ∧ scanMicro (M ++ z) = none))

theorem strptime_text (v : DateFields) (h : v.Valid) (M : PyStr) (us : Nat) (hM : ScansTo M us) (zoned : Bool)
    (z : PyStr) (o : Option Int)
    (hz : ∀ c s, z = c :: s → ¬ (48 ≤ c ∧ c ≤ 57) ∧ c ≠ 46) (ho : scanZone zoned z = some o) :
    strptime zoned (dateText v ++ M ++ z) = some { v with microsecond := us, nanosecond := 0, offset := o } := by
  unfold strptime
  rw [List.append_assoc, scanDate_text v h]
  dsimp only
  rcases hM z hz with e | ⟨e1, e2, e3⟩
  · rw [e]
    simp [ho]
  · rw [e3]
    dsimp only
    rw [e2, List.nil_append, ho]
    simp [e1]

theorem scanZone_offset (sg h m : Nat) (hs : sg = 43 ∨ sg = 45) (hh : h ≤ 23) (hm : m ≤ 59) :
    scanZone true (sg :: (padDigits 2 h ++ padDigits 2 m)) =
      some (some (if sg = 43 then ((h * 3600 + m * 60 : Nat) : Int)
        else -((h * 3600 + m * 60 : Nat) : Int))) := by
  unfold scanZone
  have e : takeNum 2 (padDigits 2 m) = some (m, []) := by
    have := takeNum_pad 2 m [] (by omega)
    simpa using this
  simp only [↓reduceIte, List.drop_succ_cons, List.drop_zero, takeNum_pad 2 h _ (by omega), e,
    true_and, List.head?_cons, Option.some.injEq]
  rw [if_pos ⟨hm, hh⟩]
  rcases hs with rfl | rfl <;> simp

theorem zoneText_offset (o : Int) (h0 : o ≠ 0) (h : o % 60 = 0) :
    zoneText (some o) = (if o < 0 then 45 else 43) ::
      (padDigits 2 (o.natAbs / 3600) ++ 58 :: padDigits 2 (o.natAbs / 60 % 60)) := by
  have h60 : o.natAbs % 60 = 0 := by omega
  have hl := padDigits_length 2 (o.natAbs / 3600)
  unfold zoneText offsetText
  simp only [h0, ↓reduceIte, h60, List.append_nil]
  simp only [List.take_succ_cons, List.drop_succ_cons, List.cons_append]
  rw [List.take_append_of_le_length (by omega), List.take_of_length_le (by omega),
    List.drop_append_of_le_length (by omega), List.drop_of_length_le (by omega), List.nil_append]

theorem dateText_split (v : DateFields) : ∃ a b, dateText v = a ++ b ∧ b.length = 8 ∧
    ∀ c ∈ b, c ≠ 43 ∧ c ≠ 45 := by
  refine ⟨padDigits 4 v.year ++ 45 :: padDigits 2 v.month ++ 45 :: padDigits 2 v.day ++ [84],
    padDigits 2 v.hour ++ 58 :: padDigits 2 v.minute ++ 58 :: padDigits 2 v.second, ?_, ?_, ?_⟩
  · simp [dateText]
  · simp [padDigits_length]
  · intro c hc
    simp only [List.mem_append, List.mem_cons] at hc
    rcases hc with (hc | hc | hc) | hc | hc
    · have := padDigits_ascii _ _ c hc; omega
    · omega
    · have := padDigits_ascii _ _ c hc; omega
    · omega
    · have := padDigits_ascii _ _ c hc; omega

theorem deserialize_fraction (v : DateFields) (h : v.Valid) (hm : v.MinuteZone) (F M : PyStr) (us ns : Nat)
    (hs : ∀ z, ZoneLike z → splitFraction (dateText v ++ F ++ z) = (dateText v ++ M ++ z, ns))
    (hM : ScansTo M us) (hd : ∀ c ∈ M, c = 46 ∨ 48 ≤ c ∧ c ≤ 57) :
    deserializeDateTime (dateText v ++ F ++ zoneText v.offset) =
      .ok { v with microsecond := us, nanosecond := ns } := by
  unfold deserializeDateTime
  cases ho : v.offset with
  | none =>
    have hz : ZoneLike (zoneText none) := by simp [zoneText, ZoneLike]
    rw [hs _ hz]
    dsimp only
    have hso : searchOffset (dateText v ++ M ++ zoneText none) = none := by
      obtain ⟨a, b, e, hl, hb⟩ := dateText_split v
      have : dateText v ++ M ++ zoneText none = a ++ (b ++ M) := by
        rw [e]; simp [zoneText]
      rw [this]
      refine searchOffset_none _ _ (by simp; omega) ?_
      intro c hc
      rcases List.mem_append.mp hc with hc | hc
      · exact hb c hc
      · have := hd c hc; omega
    rw [hso]
    dsimp only
    have hl : (dateText v ++ M ++ zoneText none).getLast? ≠ some 90 := by
      intro e
      have hmem := List.mem_of_getLast? e
      simp only [zoneText, List.append_nil, List.mem_append] at hmem
      have hp : ∀ n x, 90 ∉ padDigits n x := fun n x hx => by
        have := padDigits_ascii n x 90 hx; omega
      rcases hmem with hmem | hmem
      · simp [dateText, hp] at hmem
      · have := hd 90 hmem; omega
    rw [if_neg hl]
    have := strptime_text v h M us hM false (zoneText none) none (by simp [zoneText]) (by simp [scanZone, zoneText])
    rw [this]
  | some o =>
    have hmo := hm o ho
    have hro := h.2.2.2.2.2.2.2.2 o ho
    by_cases h0 : o = 0
    · subst h0
      have e : zoneText (some 0) = [90] := by decide
      have hz : ZoneLike [90] := by
        refine ⟨?_, by simp⟩
        intro c s e
        cases e
        omega
      rw [e, hs _ hz]
      dsimp only
      rw [searchOffset_z]
      dsimp only
      rw [if_pos (by simp), List.dropLast_concat]
      have := strptime_text v h M us hM true (lit "+0000") (some 0)
        (by intro c s e; have : c = 43 := by { have := congrArg List.head? e; simpa [lit] using this.symm }
            omega) (by decide +kernel)
      rw [this]
    · rw [zoneText_offset o h0 hmo]
      have hsg : (if o < 0 then (45 : Nat) else 43) = 43 ∨ (if o < 0 then (45 : Nat) else 43) = 45 := by
        split <;> omega
      have hsv : (o < 0 → (if o < 0 then (45 : Nat) else 43) = 45) ∧
          (¬ o < 0 → (if o < 0 then (45 : Nat) else 43) = 43) := by
        constructor <;> intro hx <;> simp [hx]
      generalize (if o < 0 then (45 : Nat) else 43) = sg at *
      have hz : ZoneLike (sg :: (padDigits 2 (o.natAbs / 3600) ++ 58 :: padDigits 2 (o.natAbs / 60 % 60))) := by
        refine ⟨?_, ?_⟩
        · intro c s e
          cases e
          omega
        · intro c hc
          simp only [List.mem_append, List.mem_cons] at hc
          rcases hc with hc | hc | hc | hc
          · omega
          · have := padDigits_ascii _ _ c hc; omega
          · omega
          · have := padDigits_ascii _ _ c hc; omega
      rw [hs _ hz]
      dsimp only
      rw [searchOffset_found _ _ _ _ hsg (by omega) (by omega)]
      dsimp only
      rw [strptime_text v h M us hM true _ _ (by intro c s e; cases e; omega)
        (scanZone_offset sg _ _ hsg (by omega) (by omega))]
      dsimp only
      have : (if sg = 43 then ((o.natAbs / 3600 * 3600 + o.natAbs / 60 % 60 * 60 : Nat) : Int)
          else -((o.natAbs / 3600 * 3600 + o.natAbs / 60 % 60 * 60 : Nat) : Int)) = o := by
        by_cases hn : o < 0
        · rw [hsv.1 hn]; simp only [Nat.reduceEqDiff, ↓reduceIte]; omega
        · rw [hsv.2 hn]; simp only [↓reduceIte]; omega
      rw [this]

theorem deserialize_text (v : DateFields) (h : v.Valid) (hm : v.MinuteZone) :
    deserializeDateTime (dateText v ++ fractionText v ++ zoneText v.offset) =
      .ok { v with nanosecond := v.nanosecond / 100 * 100 } := by
  refine deserialize_fraction v h hm (fractionText v) (microText v) v.microsecond _
    (fun z hz => splitFraction_text v h.2.2.2.2.2.2.2.1 z hz) (fun z hz => scanMicro_text v h.2.2.2.2.2.2.1 z hz) ?_
  intro c hc
  unfold microText at hc
  split at hc
  · rcases List.mem_cons.mp hc with hc | hc
    · exact .inl hc
    · exact .inr (padDigits_ascii _ _ c hc)
  · cases hc

theorem digitsVal_zeros (a : List Nat) (n : Nat) : digitsVal (a ++ List.replicate n 0) = digitsVal a * 10 ^ n := by
  induction n with
  | zero => simp
  | succ n ih =>
    rw [List.replicate_succ', ← List.append_assoc]
    have : ∀ l : List Nat, digitsVal (l ++ [0]) = digitsVal l * 10 := by intro l; simp [digitsVal]
    rw [this, ih, Nat.pow_succ, Nat.mul_assoc]

theorem scansTo_digits (k f : Nat) (h1 : 1 ≤ k) (h6 : k ≤ 6) (hf : f < 10 ^ k) :
    ScansTo (46 :: padDigits k f) (f * 10 ^ (6 - k)) := by
  intro z hz
  left
  have er : digitRun (padDigits k f ++ z) = padDigits k f :=
    digitRun_append _ _ (padDigits_ascii _ _) (fun c s e => (hz c s e).1)
  have ed : (padDigits k f ++ z).drop k = z := by
    have : (padDigits k f ++ z).drop (padDigits k f).length = z := by simp
    rwa [padDigits_length] at this
  unfold scanMicro
  simp only [List.cons_append, List.head?_cons, List.drop_succ_cons, List.drop_zero, er, padDigits_length, ed,
    digitsVal_zeros, padDigits_val k f hf]
  rw [if_pos ⟨trivial, h1, h6⟩]

theorem split_head (v : DateFields) (F z : PyStr) : (dateText v ++ F ++ z).take 19 = dateText v ∧
    (dateText v ++ F ++ z).drop 19 = F ++ z := by
  constructor
  · rw [List.append_assoc, List.take_append_of_le_length (by rw [dateText_length]; omega),
      List.take_of_length_le (by rw [dateText_length]; omega)]
  · rw [List.append_assoc, List.drop_append_of_le_length (by rw [dateText_length]; omega),
      List.drop_of_length_le (by rw [dateText_length]; omega), List.nil_append]

theorem takeWhile_zone (z : PyStr) (hz : ZoneLike z) : z.takeWhile (fun c => decide (c ≠ 10)) = z := by
  have := List.takeWhile_append_of_pos (l₁ := z) (l₂ := []) (p := fun c => decide (c ≠ 10))
    (fun c hc => by simpa using hz.2 c hc)
  simpa using this

theorem split_digits (v : DateFields) (k f : Nat) (h1 : 1 ≤ k) (h6 : k ≤ 6) (z : PyStr) (hz : ZoneLike z) :
    splitFraction (dateText v ++ 46 :: padDigits k f ++ z) = (dateText v ++ 46 :: padDigits k f ++ z, 0) := by
  obtain ⟨ht, hd⟩ := split_head v (46 :: padDigits k f) z
  have er : digitRun (padDigits k f ++ z) = padDigits k f :=
    digitRun_append _ _ (padDigits_ascii _ _) (fun c s e => (hz.1 c s e).1)
  have ed : (padDigits k f ++ z).drop k = z := by
    have : (padDigits k f ++ z).drop (padDigits k f).length = z := by simp
    rwa [padDigits_length] at this
  unfold splitFraction
  rw [hd, ht]
  simp only [List.cons_append, List.head?_cons, List.drop_succ_cons, List.drop_zero, er, padDigits_length, ed,
    takeWhile_zone z hz]
  rw [if_pos ⟨trivial, h1⟩, if_neg (by omega)]
  simp

theorem pad_snoc (f : Nat) : padDigits 7 f = padDigits 6 (f / 10) ++ [48 + f % 10] := by
  simp [padDigits]

theorem split_seven (v : DateFields) (f : Nat) (z : PyStr) (hz : ZoneLike z) :
    splitFraction (dateText v ++ 46 :: padDigits 7 f ++ z) =
      (dateText v ++ 46 :: padDigits 6 (f / 10) ++ z, f % 10 * 100) := by
  obtain ⟨ht, hd⟩ := split_head v (46 :: padDigits 7 f) z
  have er : digitRun (padDigits 7 f ++ z) = padDigits 7 f :=
    digitRun_append _ _ (padDigits_ascii _ _) (fun c s e => (hz.1 c s e).1)
  have ed : (padDigits 7 f ++ z).drop 7 = z := by
    have : (padDigits 7 f ++ z).drop (padDigits 7 f).length = z := by simp
    rwa [padDigits_length] at this
  unfold splitFraction
  rw [hd, ht]
  simp only [List.cons_append, List.head?_cons, List.drop_succ_cons, List.drop_zero, er, padDigits_length, ed,
    takeWhile_zone z hz]
  have e6 : (padDigits 7 f).drop 6 = [48 + f % 10] := by
    rw [pad_snoc, List.drop_append_of_le_length (by rw [padDigits_length]; omega),
      List.drop_of_length_le (by rw [padDigits_length]; omega), List.nil_append]
  have el : (padDigits 7 f).dropLast = padDigits 6 (f / 10) := by rw [pad_snoc, List.dropLast_concat]
  rw [if_pos ⟨trivial, by omega⟩, if_pos (by omega), e6, el]
  simp [digitsVal]

/-- A fraction of one to seven digits. -/
theorem deserialize_digits (v : DateFields) (h : v.Valid) (hm : v.MinuteZone) (k f : Nat) (h1 : 1 ≤ k) (h7 : k ≤ 7)
    (hf : f < 10 ^ k) : deserializeDateTime (dateText v ++ 46 :: padDigits k f ++ zoneText v.offset) =
      .ok { v with microsecond := f * 10 ^ (7 - k) / 10, nanosecond := f * 10 ^ (7 - k) % 10 * 100 } := by
  have dig : ∀ k f, ∀ c ∈ 46 :: padDigits k f, c = 46 ∨ 48 ≤ c ∧ c ≤ 57 := by
    intro k f c hc
    rcases List.mem_cons.mp hc with hc | hc
    · exact .inl hc
    · exact .inr (padDigits_ascii _ _ c hc)
  by_cases e : k = 7
  · subst e
    have hlt : f / 10 < 10 ^ 6 := by omega
    have := deserialize_fraction v h hm (46 :: padDigits 7 f) (46 :: padDigits 6 (f / 10)) (f / 10 * 10 ^ (6 - 6))
      (f % 10 * 100) (fun z hz => split_seven v f z hz) (scansTo_digits 6 (f / 10) (by omega) (by omega) hlt) (dig _ _)
    rw [this]
    simp
  · have h6 : k ≤ 6 := by omega
    rw [deserialize_fraction v h hm _ _ _ 0 (fun z hz => split_digits v k f h1 h6 z hz) (scansTo_digits k f h1 h6 hf) (dig _ _)]
    have : 7 - k = (6 - k) + 1 := by omega
    rw [this, Nat.pow_succ, ← Nat.mul_assoc, Nat.mul_div_cancel _ (by omega), Nat.mul_mod_left]

end Verif
