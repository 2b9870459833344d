import Verif.Proof.Numbers

/-! # Floats in texts: lemmas for C83 -/

namespace Verif

/-! ## The nearest double -/

theorem find_congr {α : Type} {p q : α → Bool} {l : List α} (h : ∀ x ∈ l, p x = q x) : l.find? p = l.find? q := by
  induction l with
  | nil => rfl
  | cons a l ih =>
    rw [List.find?_cons, List.find?_cons, h a (by simp), ih fun x hx => h x (by simp [hx])]

theorem option_bind_congr {o : Option Nat} {f g : Nat → Option Nat} (h : ∀ i, f i = g i) : o.bind f = o.bind g := by
  rw [funext h]

theorem roundedQuot_scale (a b : Nat) {k : Nat} (hk : 0 < k) : roundedQuot (a * k) (b * k) = roundedQuot a b := by
  have h1 : 2 * (a % b * k) > b * k ↔ 2 * (a % b) > b := by
    rw [← Nat.mul_assoc]; exact Nat.mul_lt_mul_right hk
  have h2 : 2 * (a % b * k) = b * k ↔ 2 * (a % b) = b := by
    rw [← Nat.mul_assoc]; exact Nat.mul_left_inj (by omega)
  unfold roundedQuot
  rw [Nat.mul_div_mul_right _ _ hk, Nat.mul_mod_mul_right]
  simp only [h1, h2]

theorem shiftFor_scale (n d : Nat) {k : Nat} (hk : 0 < k) : shiftFor (n * k) (d * k) = shiftFor n d := by
  unfold shiftFor
  apply find_congr
  intro i _
  rw [decide_eq_decide, Nat.mul_right_comm d k, Nat.mul_lt_mul_right hk]

theorem roundedAt_scale (n d i : Nat) {k : Nat} (hk : 0 < k) : roundedAt (n * k) (d * k) i = roundedAt n d i := by
  unfold roundedAt
  rw [Nat.mul_right_comm d k, roundedQuot_scale _ _ hk]

theorem nearestUnits_scale (a b : Nat) {k : Nat} (hk : 0 < k) : nearestUnits (a * k) (b * k) = nearestUnits a b := by
  unfold nearestUnits
  rw [Nat.mul_right_comm a k, shiftFor_scale _ _ hk]
  exact option_bind_congr fun i => roundedAt_scale _ _ i hk

theorem nearestDecimal_scale (c : Nat) (q : Int) (z : Nat) : nearestDecimal (c * 10 ^ z) q = nearestDecimal c (q + z) := by
  unfold nearestDecimal
  by_cases h : 0 ≤ q
  · rw [if_pos h, if_pos (by omega), Nat.mul_assoc, ← Nat.pow_add, show z + q.toNat = (q + z).toNat by omega]
  · rw [if_neg h]
    by_cases h2 : 0 ≤ q + z
    · rw [if_pos h2]
      have := nearestUnits_scale (c * 10 ^ (q + z).toNat) 1 (k := 10 ^ (-q).toNat) (Nat.pow_pos (by omega))
      rw [Nat.mul_assoc, ← Nat.pow_add, Nat.one_mul, show (q + z).toNat + (-q).toNat = z by omega] at this
      exact this
    · rw [if_neg h2]
      have := nearestUnits_scale c (10 ^ (-(q + z)).toNat) (k := 10 ^ z) (Nat.pow_pos (by omega))
      rw [← Nat.pow_add, show (-(q + z)).toNat + z = (-q).toNat by omega] at this
      exact this

/-- What the shift found is. -/
theorem find_least {p : Nat → Bool} {n i : Nat} (h : (List.range n).find? p = some i) :
    p i = true ∧ i < n ∧ ∀ j < i, p j = false := by
  refine ⟨List.find?_some h, List.mem_range.mp (List.mem_of_find?_eq_some h), ?_⟩
  intro j hj
  rw [List.find?_eq_some_iff_append] at h
  obtain ⟨_, as, bs, hab, ha⟩ := h
  have hi : i < n := by
    have : i ∈ List.range n := by rw [hab]; simp
    exact List.mem_range.mp this
  have hlen : as.length = i := by
    have h1 : (List.range n)[as.length]? = some i := by rw [hab]; simp
    rw [List.getElem?_eq_some_iff] at h1
    obtain ⟨h1, h2⟩ := h1
    simpa using h2
  have hjm : j ∈ as := by
    have h1 : (List.range n)[j]? = some j := by rw [List.getElem?_range (by omega)]
    rw [hab, List.getElem?_append_left (by omega)] at h1
    exact List.mem_of_getElem? h1
  simpa using ha j hjm

theorem shiftFor_some {n d i : Nat} (h : shiftFor n d = some i) : n < d * 2 ^ (53 + i) ∧ i < 2046 ∧ ∀ j < i, d * 2 ^ (53 + j) ≤ n := by
  unfold shiftFor at h
  obtain ⟨h1, h2, h3⟩ := find_least h
  exact ⟨by simpa using h1, h2, fun j hj => by simpa using h3 j hj⟩

theorem shiftFor_exists {n d j : Nat} (hj : j < 2046) (h : n < d * 2 ^ (53 + j)) : ∃ i ≤ j, shiftFor n d = some i := by
  cases hs : shiftFor n d with
  | none =>
    unfold shiftFor at hs
    rw [List.find?_eq_none] at hs
    exact absurd (decide_eq_true h) (hs j (List.mem_range.mpr hj))
  | some i =>
    refine ⟨i, Nat.le_of_not_lt fun hlt => ?_, rfl⟩
    have := (shiftFor_some hs).2.2 j hlt
    omega

theorem roundedQuot_mul (m : Nat) {d : Nat} (hd : 0 < d) : roundedQuot (m * d) d = m := by
  unfold roundedQuot
  rw [Nat.mul_div_cancel _ hd, Nat.mul_mod_left, if_neg (by omega), if_neg (by omega)]

theorem two_pow_pos (n : Nat) : 0 < 2 ^ n := Nat.pow_pos (by omega)

theorem unitsPerOne_pos : 0 < unitsPerOne := by
  unfold unitsPerOne; exact two_pow_pos 1074

theorem limit_pos : 0 < unitsLimit := by
  unfold unitsLimit; exact two_pow_pos 2098

theorem below_limit {a e : Nat} (h : a < 2 ^ e) (he : e ≤ 2098) : a < unitsLimit := by
  unfold unitsLimit
  exact Nat.lt_of_lt_of_le h (Nat.pow_le_pow_right (n := 2) (j := 2098) (by omega) he)

theorem nearestUnits_self {u : Nat} (h : IsDouble u) : nearestUnits u unitsPerOne = some u := by
  obtain ⟨m, e, hm, he, rfl⟩ := h
  have hmax : m * 2 ^ e < 2 ^ (53 + e) := by
    rw [Nat.pow_add]; exact Nat.mul_lt_mul_of_pos_right hm (two_pow_pos e)
  have hlt : m * 2 ^ e * unitsPerOne < unitsPerOne * 2 ^ (53 + e) := by
    rw [Nat.mul_comm unitsPerOne]
    exact Nat.mul_lt_mul_of_pos_right hmax unitsPerOne_pos
  obtain ⟨i, hie, hs⟩ := shiftFor_exists (by omega) hlt
  have hq : roundedQuot (m * 2 ^ e * unitsPerOne) (unitsPerOne * 2 ^ i) * 2 ^ i = m * 2 ^ e := by
    have hx : m * 2 ^ e * unitsPerOne = m * 2 ^ (e - i) * (unitsPerOne * 2 ^ i) := by
      rw [Nat.mul_comm unitsPerOne, ← Nat.mul_assoc, Nat.mul_assoc m (2 ^ (e - i)), ← Nat.pow_add, Nat.sub_add_cancel hie]
    rw [hx, roundedQuot_mul _ (Nat.mul_pos unitsPerOne_pos (two_pow_pos i)), Nat.mul_assoc, ← Nat.pow_add, Nat.sub_add_cancel hie]
  unfold nearestUnits
  rw [hs, Option.bind_some]
  unfold roundedAt
  rw [hq, if_pos (below_limit hmax (by omega))]

theorem ten_pow (n : Nat) : 10 ^ n = 2 ^ n * 5 ^ n := by
  rw [← Nat.mul_pow]

theorem ten_units : 10 ^ 1074 = unitsPerOne * 5 ^ 1074 := by
  unfold unitsPerOne; exact ten_pow 1074

theorem nearestDecimal_neg (c n : Nat) (hn : 0 < n) : nearestDecimal c (-(n : Int)) = nearestUnits c (10 ^ n) := by
  unfold nearestDecimal
  rw [if_neg (by omega), Int.neg_neg, Int.toNat_natCast]

theorem five_pow_pos (n : Nat) : 0 < 5 ^ n := Nat.pow_pos (by omega)

theorem allDigits_back {u : Nat} (h : IsDouble u) : nearestDecimal (allDigits u).1 (allDigits u).2 = some u := by
  unfold allDigits
  have := nearestDecimal_neg (u * 5 ^ 1074) 1074 (by omega)
  rw [ten_units, nearestUnits_scale u unitsPerOne (five_pow_pos 1074), nearestUnits_self h] at this
  exact this

theorem find_getD {α : Type} (p : α → Bool) (l : List α) (d : α) (hd : p d = true) : p ((l.find? p).getD d) = true := by
  cases h : l.find? p with
  | none => exact hd
  | some x => exact List.find?_some h

theorem shortestDigits_back {u : Nat} (h : IsDouble u) :
    nearestDecimal (shortestDigits u).1 (shortestDigits u).2 = some u := by
  have := find_getD (fun x : Nat × Int => decide (nearestDecimal x.1 x.2 = some u)) (shortDigits u) (allDigits u)
    (decide_eq_true (allDigits_back h))
  exact of_decide_eq_true this

theorem nearestUnits_zero {d : Nat} (h : 0 < d) : nearestUnits 0 d = some 0 := by
  obtain ⟨i, hi, hs⟩ := shiftFor_exists (n := 0) (d := d) (j := 0) (by omega) (Nat.mul_pos h (two_pow_pos _))
  have hq := roundedQuot_mul 0 (Nat.mul_pos h (two_pow_pos i))
  rw [Nat.zero_mul] at hq
  unfold nearestUnits
  rw [Nat.zero_mul, hs, Option.bind_some]
  unfold roundedAt
  rw [hq, Nat.zero_mul, if_pos limit_pos]

theorem nearestDecimal_zero (q : Int) : nearestDecimal 0 q = some 0 := by
  unfold nearestDecimal
  split
  · rw [Nat.zero_mul]; exact nearestUnits_zero (by omega)
  · exact nearestUnits_zero (Nat.pow_pos (by omega))

/-! ## The digits of a float -/

theorem takeWhile_zeros (s : PyStr) : s.takeWhile (· == 48) = List.replicate (s.takeWhile (· == 48)).length 48 := by
  rw [List.eq_replicate_iff]
  refine ⟨rfl, fun c hc => ?_⟩
  induction s with
  | nil => cases hc
  | cons d s ih =>
    rw [List.takeWhile_cons] at hc
    split at hc
    · rename_i h
      rcases List.mem_cons.mp hc with rfl | hc
      · simpa using h
      · exact ih hc
    · cases hc

theorem dropZeros_split (s : PyStr) : ∃ z, s = dropZeros s ++ List.replicate z 48 := by
  refine ⟨(s.reverse.takeWhile (· == 48)).length, ?_⟩
  unfold dropZeros
  rw [← List.reverse_replicate, ← takeWhile_zeros, ← List.reverse_append, List.takeWhile_append_dropWhile, List.reverse_reverse]

/-- A number in a text of a float: its digits and where the point and the exponent are. -/
inductive FloatParts (v : Option Nat) : PyStr → Prop
  | plain {w f : PyStr} (hw : AllDigits w) (hf : AllDigits f) (hne : w ≠ []) (hf1 : f ≠ [])
      (hv : nearestDecimal (numOf (w ++ f)) (-(f.length : Int)) = v) : FloatParts v (w ++ 46 :: f)
  | whole {w x : PyStr} {sg : Nat} {e : Int} (hw : AllDigits w) (hne : w ≠ []) (hs : sg = 43 ∨ sg = 45) (hx : AllDigits x)
      (hx1 : x ≠ []) (he : ExpText e (101 :: sg :: x)) (hv : nearestDecimal (numOf w) e = v) : FloatParts v (w ++ 101 :: sg :: x)
  | point {w f x : PyStr} {sg : Nat} {e : Int} (hw : AllDigits w) (hf : AllDigits f) (hne : w ≠ []) (hf1 : f ≠ [])
      (hs : sg = 43 ∨ sg = 45) (hx : AllDigits x) (hx1 : x ≠ []) (he : ExpText e (101 :: sg :: x))
      (hv : nearestDecimal (numOf (w ++ f)) (e - (f.length : Int)) = v) : FloatParts v (w ++ 46 :: (f ++ 101 :: sg :: x))

theorem exp_float (n : Int) : ∃ sg x, (sg = 43 ∨ sg = 45) ∧ AllDigits x ∧ x ≠ [] ∧ ExpText n (101 :: sg :: x) ∧
    (101 :: (if n < 0 then 45 else 43) :: (if (natStr n.natAbs).length < 2 then 48 :: natStr n.natAbs else natStr n.natAbs) :
      PyStr) = 101 :: sg :: x := by
  have hx : AllDigits (if (natStr n.natAbs).length < 2 then 48 :: natStr n.natAbs else natStr n.natAbs) := by
    split
    · intro c hc
      rcases List.mem_cons.mp hc with rfl | hc
      · omega
      · exact natStr_allDigits _ c hc
    · exact natStr_allDigits _
  have hne : (if (natStr n.natAbs).length < 2 then 48 :: natStr n.natAbs else natStr n.natAbs) ≠ [] := by
    split
    · simp
    · exact natStr_ne_nil _
  have hv : numOf (if (natStr n.natAbs).length < 2 then 48 :: natStr n.natAbs else natStr n.natAbs) = n.natAbs := by
    split
    · rw [show 48 :: natStr n.natAbs = [48] ++ natStr n.natAbs from rfl, numOf_append, numOf_natStr]
      simp [numOf, digitsVal]
    · exact numOf_natStr _
  refine ⟨_, _, ?_, hx, hne, ?_, rfl⟩
  · split
    · exact .inr rfl
    · exact .inl rfl
  · split
    · have := ExpText.minus hx hne
      rw [hv] at this
      rwa [show -(n.natAbs : Int) = n by omega] at this
    · have := ExpText.plus hx hne
      rw [hv] at this
      rwa [show (n.natAbs : Int) = n by omega] at this

theorem floatDigits_parts {ds : PyStr} (hd : AllDigits ds) (hne : ds ≠ []) (place : Int) :
    FloatParts (nearestDecimal (numOf ds) (place - (ds.length : Int))) (floatDigits ds place) := by
  have hl : 0 < ds.length := List.length_pos_iff.mpr hne
  unfold floatDigits
  by_cases hp : -4 < place ∧ place ≤ 16
  · rw [if_pos hp]
    by_cases h0 : place ≤ 0
    · rw [if_pos h0]
      have hn : numOf ([48] ++ (List.replicate (-place).toNat 48 ++ ds)) = numOf ds := by
        rw [← List.append_assoc, numOf_append, numOf_append, numOf_zeros]; simp [numOf, digitsVal]
      have := FloatParts.plain (v := nearestDecimal (numOf ds) (place - (ds.length : Int))) (w := [48])
        (f := List.replicate (-place).toNat 48 ++ ds) (by intro c hc; simp at hc; omega) ((allDigits_zeros _).append hd) (by simp)
        (by simp [hne]) (by
          rw [hn]; congr 1; simp only [List.length_append, List.length_replicate]; omega)
      simpa using this
    · rw [if_neg h0]
      by_cases h1 : place ≥ ds.length
      · rw [if_pos h1]
        have := FloatParts.plain (v := nearestDecimal (numOf ds) (place - (ds.length : Int)))
          (w := ds ++ List.replicate (place - ds.length).toNat 48) (f := [48]) (hd.append (allDigits_zeros _))
          (by intro c hc; simp at hc; omega) (by simp [hne]) (by simp) (by
            rw [numOf_append, numOf_append, numOf_zeros, show numOf [48] = 0 from rfl, Nat.add_zero, Nat.add_zero, Nat.mul_assoc,
              ← Nat.pow_add, nearestDecimal_scale]
            congr 1
            simp only [List.length_replicate, List.length_singleton]
            omega)
        simpa using this
      · rw [if_neg h1]
        exact .plain (hd.take place.toNat) (hd.drop place.toNat) (by simp [hne]; omega)
          (fun h => by have := congrArg List.length h; rw [List.length_drop, List.length_nil] at this; omega) (by
            rw [List.take_append_drop, List.length_drop]; congr 1; omega)
  · rw [if_neg hp]
    dsimp only
    obtain ⟨sg, x, hs, hx, hx1, he, ht⟩ := exp_float (place - 1)
    rw [ht]
    by_cases h1 : ds.length > 1
    · rw [if_pos h1]
      have := FloatParts.point (v := nearestDecimal (numOf ds) (place - (ds.length : Int))) (hd.take 1) (hd.drop 1) (by simp [hne])
        (fun h => by have := congrArg List.length h; rw [List.length_drop, List.length_nil] at this; omega) hs hx hx1 he (by
            rw [List.take_append_drop, List.length_drop]; congr 1; omega)
      simpa using this
    · rw [if_neg h1]
      have hl1 : ds.length = 1 := by omega
      have := FloatParts.whole (v := nearestDecimal (numOf ds) (place - (ds.length : Int))) hd hne hs hx hx1 he (by
        congr 1; omega)
      rw [List.append_nil, List.take_of_length_le (by omega)]
      exact this

theorem FloatParts.scan {v : Option Nat} {s : PyStr} (h : FloatParts v s) :
    lowerAscii s = s ∧ (∀ c ∈ s, NumChar c) ∧ (∃ c, s.head? = some c ∧ 48 ≤ c ∧ c ≤ 57) ∧
    ∃ c q, scanNumber s = some (c, q) ∧ nearestDecimal c q = v := by
  have head : ∀ {w t : PyStr}, AllDigits w → w ≠ [] → ∃ c, (w ++ t).head? = some c ∧ 48 ≤ c ∧ c ≤ 57 := by
    intro w t hw hne
    obtain ⟨c, cs, rfl⟩ := List.exists_cons_of_ne_nil hne
    exact ⟨c, rfl, hw c (by simp)⟩
  have sign : ∀ {sg : Nat} {x : PyStr}, sg = 43 ∨ sg = 45 → AllDigits x → lowerAscii (101 :: sg :: x) = 101 :: sg :: x := by
    intro sg x hs hx
    show 101 :: (if _ then _ else _) :: lowerAscii x = _
    rw [hx.lower, if_neg (by omega)]
  cases h with
  | @plain w f hw hf hne hf1 hv =>
    refine ⟨?_, ?_, head hw hne, _, _, ?_, hv⟩
    · rw [lower_append, hw.lower, show lowerAscii (46 :: f) = 46 :: lowerAscii f from rfl, hf.lower]
    · intro c hc
      simp only [List.mem_append, List.mem_cons] at hc
      rcases hc with hc | rfl | hc
      · exact hw.num c hc
      · unfold NumChar; omega
      · exact hf.num c hc
    · have := scan_point hw hf (by simp [hne]) .none
      rw [List.append_nil] at this
      rw [this, Int.zero_sub]
  | @whole w x sg e hw hne hs hx hx1 he hv =>
    refine ⟨?_, ?_, head hw hne, _, _, scan_whole hw hne he, hv⟩
    · rw [lower_append, hw.lower, sign hs hx]
    · intro c hc
      simp only [List.mem_append, List.mem_cons] at hc
      rcases hc with hc | rfl | rfl | hc
      · exact hw.num c hc
      · unfold NumChar; omega
      · unfold NumChar; omega
      · exact hx.num c hc
  | @point w f x sg e hw hf hne hf1 hs hx hx1 he hv =>
    refine ⟨?_, ?_, head hw hne, _, _, scan_point hw hf (by simp [hne]) he, hv⟩
    · rw [lower_append, hw.lower, show lowerAscii (46 :: (f ++ 101 :: sg :: x)) = 46 :: lowerAscii (f ++ 101 :: sg :: x) from rfl,
        lower_append, hf.lower, sign hs hx]
    · intro c hc
      simp only [List.mem_append, List.mem_cons] at hc
      rcases hc with hc | rfl | hc | rfl | rfl | hc
      · exact hw.num c hc
      · unfold NumChar; omega
      · exact hf.num c hc
      · unfold NumChar; omega
      · unfold NumChar; omega
      · exact hx.num c hc

theorem AllDigits.digits {s : PyStr} (h : AllDigits s) : Digits (numOf s) s := digits_of_ascii s h

theorem FloatParts.form {v : Option Nat} {s : PyStr} (h : FloatParts v s) : FloatNumber (upperAscii s) := by
  have sign : ∀ {sg : Nat} {x : PyStr}, sg = 43 ∨ sg = 45 → AllDigits x → upperAscii (101 :: sg :: x) = 69 :: sg :: x := by
    intro sg x hs hx
    show 69 :: (if _ then _ else _) :: upperAscii x = _
    rw [hx.upper, if_neg (by omega)]
  cases h with
  | @plain w f hw hf hne hf1 hv =>
    rw [upper_append, hw.upper, show upperAscii (46 :: f) = 46 :: upperAscii f from rfl, hf.upper]
    exact .plain (hw.append hf).digits hne hf1
  | @whole w x sg e hw hne hs hx hx1 he hv =>
    rw [upper_append, hw.upper, sign hs hx]
    exact .whole hw.digits hne hs hx.digits hx1
  | @point w f x sg e hw hf hne hf1 hs hx hx1 he hv =>
    rw [upper_append, hw.upper, show upperAscii (46 :: (f ++ 101 :: sg :: x)) = 46 :: upperAscii (f ++ 101 :: sg :: x) from rfl,
        upper_append, hf.upper, sign hs hx]
    have := FloatNumber.point (hw.append hf).digits hne hf1 hs hx.digits hx1
    simpa using this

theorem dropUnderscores_none {s : PyStr} (h : ∀ c ∈ s, c ≠ 95) : ∀ prev, prev ≠ 95 → dropUnderscores prev s = some s := by
  induction s with
  | nil => intro prev hp; rw [dropUnderscores, if_neg hp]
  | cons c s ih =>
    intro prev hp
    have hc := h c (by simp)
    rw [dropUnderscores, if_neg hc, if_neg (by simp [hp]), ih (fun c hc => h c (by simp [hc])) c hc]
    rfl

theorem float_text {s b : PyStr} {neg : Bool} (hs : s = signText neg b) (hn : ∀ c ∈ b, NumChar c)
    (hb : ∀ c, (lowerAscii b).head? = some c → c ≠ 45 ∧ c ≠ 43) :
    floatOfText (upperAscii s) = match floatOfLower neg (lowerAscii b) with
      | some x => .ok x
      | none => .error .valueError := by
  have hu := upper_num (signText_num (neg := neg) hn)
  rw [← hs] at hu
  have h1 : stripBy numSpace (upperAscii s) = upperAscii s := stripBy_id _ _
    (fun c hc => (numChar_space (hu c (List.mem_of_head? hc))).1) (fun c hc => (numChar_space (hu c (List.mem_of_getLast? hc))).1)
  have hl : ∀ c ∈ lowerAscii (upperAscii s), c ≠ 95 := by
    intro c hc
    obtain ⟨d, hd, rfl⟩ := List.mem_map.mp hc
    have := hu d hd
    unfold NumChar at this
    split <;> omega
  unfold floatOfText
  rw [map_ascii hu, h1, dropUnderscores_none hl 0 (by omega), lower_upper, hs, lower_sign]
  dsimp only
  rw [split_sign neg _ hb]
  rfl

theorem units_parts {u : Nat} (h : IsDouble u) (h0 : u ≠ 0) : FloatParts (some u)
    (floatDigits (dropZeros (natStr (shortestDigits u).1)) ((shortestDigits u).2 + (natStr (shortestDigits u).1).length)) := by
  have hb := shortestDigits_back h
  generalize shortestDigits u = x at hb
  obtain ⟨c, q⟩ := x
  dsimp only at hb ⊢
  have hd := natStr_allDigits c
  have hv := numOf_natStr c
  generalize natStr c = ds at hd hv
  obtain ⟨z, hz⟩ := dropZeros_split ds
  generalize dropZeros ds = dz at hz
  subst hz
  have hdz : AllDigits dz := fun c hc => hd c (by simp [hc])
  have hne : dz ≠ [] := by
    intro h
    rw [h, List.nil_append, numOf_zeros] at hv
    rw [← hv, nearestDecimal_zero] at hb
    exact h0 (by simpa using hb.symm)
  have := floatDigits_parts hdz hne (q + ((dz ++ List.replicate z 48).length : Int))
  rw [numOf_append, numOf_zeros, Nat.add_zero, List.length_replicate] at hv
  rw [← hv, nearestDecimal_scale] at hb
  have hq : q + (List.length (dz ++ List.replicate z 48) : Int) - (List.length dz : Int) = q + (z : Int) := by
    rw [List.length_append, List.length_replicate]; omega
  rw [hq, hb] at this
  exact this

theorem unitsText_parts {u : Nat} (h : IsDouble u) : FloatParts (some u) (unitsText u) := by
  unfold unitsText
  by_cases h0 : u = 0
  · rw [if_pos h0]
    subst h0
    exact .plain (w := [48]) (f := [48]) (by intro c hc; simp at hc; omega) (by intro c hc; simp at hc; omega) (by simp) (by simp)
      (nearestDecimal_zero _)
  · rw [if_neg h0]; exact units_parts h h0

theorem float_finite (neg : Bool) {u : Nat} (h : IsDouble u) :
    floatOfText (PyFloat.text (.finite neg u)) = .ok (.finite neg u) := by
  obtain ⟨hl, hn, hh, c, q, hsc, hv⟩ := (unitsText_parts h).scan
  show floatOfText (upperAscii (signText neg (unitsText u))) = _
  rw [float_text rfl hn (by rw [hl]; intro c hc; obtain ⟨d, hd, hr⟩ := hh; rw [hd] at hc; cases hc; omega), hl,
    digitsHead_float hh, hsc]
  simp only [Option.map_some, hv]

theorem float_back {x : PyFloat} (h : x.Ok) : floatOfText x.text = .ok x := by
  cases x with
  | finite neg u => exact float_finite neg h
  | infinity neg => cases neg <;> decide +kernel
  | nan => decide +kernel

theorem float_form {x : PyFloat} (h : x.Ok) (hn : x ≠ .nan) : FloatForm x x.text := by
  cases x with
  | infinity neg =>
    cases neg with
    | true => exact .minusInfinity
    | false => exact .infinity
  | nan => exact absurd rfl hn
  | finite neg u =>
    have hf := (unitsText_parts (u := u) h).form
    unfold PyFloat.text PyFloat.str
    cases neg with
    | false =>
      simp only [signText, Bool.false_eq_true, ↓reduceIte]
      exact .positive hf
    | true =>
      simp only [signText, ↓reduceIte]
      rw [show ∀ s : PyStr, upperAscii (45 :: s) = 45 :: upperAscii s from fun _ => rfl]
      exact .negative hf

end Verif
