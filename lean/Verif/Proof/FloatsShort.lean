import Verif.Proof.FloatsRead
import Mathlib.Tactic.Linarith
import Mathlib.Algebra.Order.Field.Rat
import Mathlib.Algebra.Order.Field.Power

/-! # The shortest digits of a float (lemmas for C83) -/

namespace Verif

theorem decimalValue_frac (c : Nat) (q : Int) : decimalValue false c q = (numerator c q : Rat) / (denominator q : Rat) := by
  unfold decimalValue numerator denominator
  simp only [Bool.false_eq_true, ↓reduceIte]
  push_cast
  rcases Int.le_total 0 q with h | h
  · obtain ⟨n, rfl⟩ := Int.eq_ofNat_of_zero_le h
    simp
  · obtain ⟨n, hn⟩ := Int.eq_ofNat_of_zero_le (a := -q) (by omega)
    obtain rfl : q = -(n:Int) := by omega
    simp [div_eq_mul_inv]

theorem denominator_pos (q : Int) : 0 < denominator q := Nat.pow_pos (by omega)

theorem cast_apart (a b : Nat) : ((apart a b : Nat) : Rat) = |(a : Rat) - b| := by
  unfold apart
  rcases Nat.le_total a b with h | h
  · rw [Nat.sub_eq_zero_of_le h, Nat.zero_add, Nat.cast_sub h, abs_sub_comm, abs_of_nonneg]
    have : (a : Rat) ≤ b := by exact_mod_cast h
    linarith
  · rw [Nat.sub_eq_zero_of_le h, Nat.add_zero, Nat.cast_sub h, abs_of_nonneg]
    have : (b : Rat) ≤ a := by exact_mod_cast h
    linarith

/-- A fraction in units of the smallest double. -/
def inUnits (a b : Nat) : Rat := (a : Rat) * (unitsPerOne : Rat) / (b : Rat)

theorem unitsPerOne_cast : 0 < (unitsPerOne : Rat) := by exact_mod_cast unitsPerOne_pos

set_option exponentiation.threshold 3000 in
theorem two_units : 2 ^ 1074 = unitsPerOne := by
  unfold unitsPerOne; rfl

theorem apart_units {a b v : Nat} (hb : 0 < b) :
    ((apart (a * unitsPerOne) (v * b) : Nat) : Rat) = |inUnits a b - v| * b := by
  have hb' : 0 < (b : Rat) := by exact_mod_cast hb
  rw [cast_apart]
  push_cast
  rw [show (a : Rat) * (unitsPerOne : Rat) - v * b = (inUnits a b - v) * b by
    unfold inUnits; rw [sub_mul, div_mul_cancel₀ _ (ne_of_gt hb')], abs_mul, abs_of_pos hb']

theorem nearest_le {a b u v : Nat} (hb : 0 < b) (h : nearestUnits a b = some u) (hv : IsDouble v) :
    |inUnits a b - u| ≤ |inUnits a b - v| := by
  by_cases he : v = u
  · rw [he]
  have hb' : 0 < (b : Rat) := by exact_mod_cast hb
  have := (nearestUnits_nearest hb h).2 v hv he
  simp only [two_units] at this
  have : apart (a * unitsPerOne) (u * b) ≤ apart (a * unitsPerOne) (v * b) := by
    rcases this with h | h
    · exact Nat.le_of_lt h
    · exact Nat.le_of_eq h.1
  have : ((apart (a * unitsPerOne) (u * b) : Nat) : Rat) ≤ (apart (a * unitsPerOne) (v * b) : Nat) := by exact_mod_cast this
  rw [apart_units hb, apart_units hb] at this
  exact le_of_mul_le_mul_right this hb'

theorem inUnits_le {a b a' b' : Nat} (hb : 0 < b) (hb' : 0 < b') : inUnits a b ≤ inUnits a' b' ↔ a * b' ≤ a' * b := by
  have h1 : 0 < (b : Rat) := by exact_mod_cast hb
  have h2 : 0 < (b' : Rat) := by exact_mod_cast hb'
  unfold inUnits
  rw [div_le_div_iff₀ h1 h2, mul_right_comm, mul_right_comm (a' : Rat), mul_le_mul_iff_left₀ unitsPerOne_cast]
  exact_mod_cast Iff.rfl

theorem nearest_eq {a b a' b' : Nat} (hb : 0 < b) (hb' : 0 < b') (h : inUnits a b = inUnits a' b') :
    nearestUnits a b = nearestUnits a' b' := by
  have h1 := (inUnits_le hb hb').mp (le_of_eq h)
  have h2 := (inUnits_le hb' hb).mp (le_of_eq h.symm)
  rw [← nearestUnits_scale a b hb', ← nearestUnits_scale a' b' hb, Nat.le_antisymm h1 h2, Nat.mul_comm b]

/-- The middle between the largest double and the next number that would be one. -/
@[irreducible] def halfLimit : Nat := (2 ^ 54 - 1) * 2 ^ (2045 - 1)

set_option exponentiation.threshold 3000 in
theorem large_half {a b : Nat} : TooLarge a b ↔ b * halfLimit ≤ a * unitsPerOne := by
  unfold halfLimit
  exact large_units

theorem below_half {m e f : Nat} (hm : m < 2 ^ 53) (he : e ≤ f + 1) :
    m * 2 ^ e * 2 ^ 54 + m * 2 ^ e < (2 ^ 54 - 1) * 2 ^ f * 2 ^ 54 := by
  have h1 : m * 2 ^ e ≤ (2 ^ 53 - 1) * (2 ^ f * 2) :=
    Nat.mul_le_mul (by omega) (by rw [← Nat.pow_succ]; exact Nat.pow_le_pow_right (by omega) he)
  have hpos : 0 < 2 ^ f := two_pow_pos _
  generalize m * 2 ^ e = x at *
  generalize 2 ^ f = y at *
  omega

theorem none_units {a b : Nat} (hb : 0 < b) : nearestUnits a b = none ↔ (halfLimit : Rat) ≤ inUnits a b := by
  have hb' : 0 < (b : Rat) := by exact_mod_cast hb
  rw [nearestUnits_none hb, large_half]
  unfold inUnits
  rw [le_div_iff₀ hb', Nat.mul_comm]
  exact_mod_cast Iff.rfl

theorem IsDouble.below {u : Nat} (h : IsDouble u) : u * 2 ^ 54 + u < halfLimit * 2 ^ 54 := by
  obtain ⟨m, e, hm, he, rfl⟩ := h
  unfold halfLimit
  exact below_half hm he

theorem nearest_double {a b u : Nat} (hb : 0 < b) (h : nearestUnits a b = some u) : IsDouble u :=
  (nearestUnits_nearest hb h).1

theorem between_eq {x y u w : Rat} (h1 : |x - u| ≤ |x - w|) (h2 : |y - w| ≤ |y - u|) (hne : w ≠ u)
    (hh : (x ≤ y ∧ y ≤ u) ∨ (u ≤ y ∧ y ≤ x)) : x = y := by
  rcases hh with ⟨h3, h4⟩ | ⟨h3, h4⟩
  · rw [abs_of_nonpos (show x - u ≤ 0 by linarith)] at h1
    rw [abs_of_nonpos (show y - u ≤ 0 by linarith)] at h2
    rcases lt_or_gt_of_ne hne with h | h
    · rcases abs_cases (x - w) with ⟨h5, h7⟩ | ⟨h5, h7⟩ <;> rcases abs_cases (y - w) with ⟨h6, h8⟩ | ⟨h6, h8⟩ <;> linarith
    · rw [abs_of_nonpos (show y - w ≤ 0 by linarith)] at h2
      linarith
  · rw [abs_of_nonneg (show 0 ≤ x - u by linarith)] at h1
    rw [abs_of_nonneg (show 0 ≤ y - u by linarith)] at h2
    rcases lt_or_gt_of_ne hne with h | h
    · rw [abs_of_nonneg (show 0 ≤ y - w by linarith)] at h2
      linarith
    · rcases abs_cases (x - w) with ⟨h5, h7⟩ | ⟨h5, h7⟩ <;> rcases abs_cases (y - w) with ⟨h6, h8⟩ | ⟨h6, h8⟩ <;> linarith

/-- What is between a double and a number that is read as it is read as it. -/
theorem nearest_between {a b a' b' u : Nat} (hb : 0 < b) (hb' : 0 < b') (h : nearestUnits a b = some u)
    (hh : (inUnits a b ≤ inUnits a' b' ∧ inUnits a' b' ≤ u) ∨ (u ≤ inUnits a' b' ∧ inUnits a' b' ≤ inUnits a b)) :
    nearestUnits a' b' = some u := by
  have hd := nearest_double hb h
  cases hn : nearestUnits a' b' with
  | none =>
    have h1 := (none_units hb').mp hn
    rcases hh with hh | hh
    · have h2 : halfLimit ≤ u := Nat.cast_le.mp (le_trans h1 hh.2)
      have := Nat.lt_of_mul_lt_mul_right (Nat.lt_of_le_of_lt (Nat.le_add_right _ _) hd.below)
      exact absurd this (Nat.not_lt.mpr h2)
    · rw [(none_units hb).mpr (le_trans h1 hh.2)] at h
      cases h
  | some w =>
    by_cases he : w = u
    · rw [he]
    · have hw := nearest_double hb' hn
      have h1 := nearest_le hb h hw
      have h2 := nearest_le hb' hn hd
      have hne : (w : Rat) ≠ u := by exact_mod_cast he
      rw [nearest_eq hb hb' (between_eq h1 h2 hne hh), hn] at h
      exact h

/-- Two doubles are apart by a part of 2^53 at least. -/
theorem doubles_apart {u v : Nat} (hu : IsDouble u) (hv : IsDouble v) (h : v ≠ u) : u ≤ apart u v * 2 ^ 53 := by
  obtain ⟨m, e, hm, he, rfl⟩ := hu
  obtain ⟨n, f, hn, hf, rfl⟩ := hv
  have key : ∀ {g x y : Nat}, x * 2 ^ g ≠ y * 2 ^ g → 2 ^ g ≤ apart (x * 2 ^ g) (y * 2 ^ g) := by
    intro g x y hxy
    rw [apart_mul]
    apply Nat.le_mul_of_pos_left
    unfold apart
    have : x ≠ y := fun h => hxy (by rw [h])
    omega
  rcases Nat.le_total e f with hef | hef
  · have hx : n * 2 ^ f = n * 2 ^ (f - e) * 2 ^ e := by rw [Nat.mul_assoc, ← Nat.pow_add, Nat.sub_add_cancel hef]
    rw [hx] at h ⊢
    have h1 := key (Ne.symm h)
    have h2 : m * 2 ^ e ≤ 2 ^ 53 * 2 ^ e := Nat.mul_le_mul_right _ (by omega)
    rw [Nat.mul_comm _ (2 ^ 53)]
    exact Nat.le_trans h2 (Nat.mul_le_mul_left _ h1)
  · have hx : m * 2 ^ e = m * 2 ^ (e - f) * 2 ^ f := by rw [Nat.mul_assoc, ← Nat.pow_add, Nat.sub_add_cancel hef]
    rw [hx] at h ⊢
    have h1 := key (Ne.symm h)
    generalize m * 2 ^ (e - f) = x at *
    rw [apart_mul]
    by_cases hc : x ≤ 2 ^ 53
    · have hxn : x ≠ n := fun hh => h (by rw [hh])
      have : 1 ≤ apart x n := by unfold apart; omega
      rw [Nat.mul_right_comm]
      exact Nat.mul_le_mul_right _ (by omega)
    · rw [Nat.mul_right_comm]
      apply Nat.mul_le_mul_right
      unfold apart
      omega

/-- A number close to a double is read as it. -/
theorem nearest_close {a b u : Nat} (hb : 0 < b) (hu : IsDouble u) (h : |inUnits a b - u| * 2 ^ 54 < u) :
    nearestUnits a b = some u := by
  have hlt := abs_lt.mp (show |inUnits a b - u| < (u : Rat) / 2 ^ 54 by rw [lt_div_iff₀ (by norm_num)]; exact h)
  cases hn : nearestUnits a b with
  | none =>
    have h1 := (none_units hb).mp hn
    have h2 := hu.below
    have h3 : (u : Rat) * 2 ^ 54 + u < halfLimit * 2 ^ 54 := by exact_mod_cast h2
    have h4 := hlt.2
    rw [lt_div_iff₀ (by norm_num)] at h4
    linarith
  | some w =>
    by_cases he : w = u
    · rw [he]
    · have hw := nearest_double hb hn
      have h1 := nearest_le hb hn hu
      have h2 : (u : Rat) ≤ |(u : Rat) - w| * 2 ^ 53 := by
        rw [← cast_apart]; exact_mod_cast doubles_apart hu hw he
      have h3 : |(u : Rat) - w| ≤ |inUnits a b - u| + |inUnits a b - w| := by
        rw [abs_sub_comm (inUnits a b) u]
        exact abs_sub_le _ _ _
      linarith

/-! ## Decimal numbers next to a double -/

theorem inUnits_value (c : Nat) (q : Int) :
    inUnits (numerator c q) (denominator q) = decimalValue false c q * (unitsPerOne : Rat) := by
  rw [decimalValue_frac]
  unfold inUnits
  rw [div_mul_eq_mul_div]

/-- The number a double is. -/
def valueOf (u : Nat) : Rat := (u : Rat) / (unitsPerOne : Rat)

theorem valueOf_units (u : Nat) : (u : Rat) = valueOf u * (unitsPerOne : Rat) := by
  unfold valueOf
  rw [div_mul_cancel₀ _ (ne_of_gt unitsPerOne_cast)]

theorem reads_between {c c' u : Nat} {q q' : Int} (h : nearestDecimal c q = some u)
    (hh : (decimalValue false c q ≤ decimalValue false c' q' ∧ decimalValue false c' q' ≤ valueOf u) ∨
      (valueOf u ≤ decimalValue false c' q' ∧ decimalValue false c' q' ≤ decimalValue false c q)) :
    nearestDecimal c' q' = some u := by
  rw [nearestDecimal_units] at h ⊢
  apply nearest_between (denominator_pos q) (denominator_pos q') h
  rw [inUnits_value, inUnits_value, valueOf_units u]
  rcases hh with hh | hh
  · exact .inl ⟨mul_le_mul_of_nonneg_right hh.1 (le_of_lt unitsPerOne_cast),
      mul_le_mul_of_nonneg_right hh.2 (le_of_lt unitsPerOne_cast)⟩
  · exact .inr ⟨mul_le_mul_of_nonneg_right hh.1 (le_of_lt unitsPerOne_cast),
      mul_le_mul_of_nonneg_right hh.2 (le_of_lt unitsPerOne_cast)⟩

theorem reads_close {c u : Nat} {q : Int} (hu : IsDouble u) (h : |decimalValue false c q - valueOf u| * 2 ^ 54 < valueOf u) :
    nearestDecimal c q = some u := by
  rw [nearestDecimal_units]
  apply nearest_close (denominator_pos q) hu
  rw [inUnits_value, valueOf_units u, ← sub_mul, abs_mul, abs_of_pos unitsPerOne_cast, mul_right_comm]
  exact mul_lt_mul_of_pos_right h unitsPerOne_cast

theorem value_eq (c : Nat) (q : Int) : decimalValue false c q = (c : Rat) * (10 : Rat) ^ q := rfl

theorem ten_pos (q : Int) : 0 < (10 : Rat) ^ q := zpow_pos (by norm_num) q

theorem ten_add (p q : Int) : (10 : Rat) ^ (p + q) = (10 : Rat) ^ p * (10 : Rat) ^ q := zpow_add₀ (by norm_num) p q

theorem ten_nat (n : Nat) : (10 : Rat) ^ (n : Int) = ((10 ^ n : Nat) : Rat) := by
  rw [zpow_natCast]; push_cast; rfl

/-- Numbers of `n` digits are on one side of the two of that many digits around a double. -/
theorem grid {x : Rat} {k q : Int} {n c d : Nat} (hn : 1 ≤ n) (hk : (10 : Rat) ^ (k - 1) ≤ x) (hc : c < 10 ^ n)
    (h1 : decimalValue false d (k - n) ≤ x) (h2 : x < decimalValue false (d + 1) (k - n)) :
    (decimalValue false c q ≤ x → decimalValue false c q ≤ decimalValue false d (k - n)) ∧
    (x < decimalValue false c q → decimalValue false (d + 1) (k - n) ≤ decimalValue false c q) := by
  have hp := ten_pos (k - n)
  by_cases hq : k - n ≤ q
  · obtain ⟨j, hj⟩ := Int.eq_ofNat_of_zero_le (a := q - (k - n)) (by omega)
    have hv : decimalValue false c q = ((c * 10 ^ j : Nat) : Rat) * (10 : Rat) ^ (k - (n : Int)) := by
      rw [value_eq, show q = (j : Int) + (k - n) by omega, ten_add, ten_nat]; push_cast; rw [mul_assoc]
    rw [hv]
    rw [value_eq] at h1 h2 ⊢
    rw [value_eq]
    constructor
    · intro h
      have := lt_of_mul_lt_mul_right (lt_of_le_of_lt h h2) (le_of_lt hp)
      have : c * 10 ^ j < d + 1 := by exact_mod_cast this
      have : ((c * 10 ^ j : Nat) : Rat) ≤ (d : Rat) := by exact_mod_cast Nat.le_of_lt_succ this
      exact mul_le_mul_of_nonneg_right this (le_of_lt hp)
    · intro h
      have := lt_of_mul_lt_mul_right (lt_of_le_of_lt h1 h) (le_of_lt hp)
      have : d < c * 10 ^ j := by exact_mod_cast this
      have : ((d + 1 : Nat) : Rat) ≤ ((c * 10 ^ j : Nat) : Rat) := by exact_mod_cast this
      exact mul_le_mul_of_nonneg_right this (le_of_lt hp)
  · have hlt : decimalValue false c q < (10 : Rat) ^ (k - 1) := by
      rw [value_eq]
      have h3 : (c : Rat) < (10 : Rat) ^ (n : Int) := by rw [ten_nat]; exact_mod_cast hc
      have h4 : (c : Rat) * (10 : Rat) ^ q < (10 : Rat) ^ ((n : Int) + q) := by
        rw [ten_add]; exact mul_lt_mul_of_pos_right h3 (ten_pos q)
      exact lt_of_lt_of_le h4 (zpow_le_zpow_right₀ (by norm_num) (by omega))
    refine ⟨fun _ => ?_, fun h => absurd h (not_lt.mpr (le_of_lt (lt_of_lt_of_le hlt hk)))⟩
    have h5 : (10 : Rat) ^ (k - 1) = ((10 ^ (n - 1) : Nat) : Rat) * (10 : Rat) ^ (k - (n : Int)) := by
      rw [← ten_nat, ← ten_add]; congr 1; omega
    rw [value_eq] at h2
    have h6 := lt_of_le_of_lt hk h2
    rw [h5] at h6
    have h7 := lt_of_mul_lt_mul_right h6 (le_of_lt hp)
    have h8 : 10 ^ (n - 1) < d + 1 := by exact_mod_cast h7
    have h9 : ((10 ^ (n - 1) : Nat) : Rat) ≤ (d : Rat) := by exact_mod_cast Nat.le_of_lt_succ h8
    refine le_of_lt (lt_of_lt_of_le hlt ?_)
    rw [h5, value_eq]
    exact mul_le_mul_of_nonneg_right h9 (le_of_lt hp)

/-! ## The place of the point -/

set_option exponentiation.threshold 3000 in
theorem limit_ten : unitsLimit ≤ unitsPerOne * 10 ^ 309 := by
  have h : 2 ^ 1024 ≤ 10 ^ 309 := by decide +kernel
  have h2 : unitsLimit = unitsPerOne * 2 ^ 1024 := by
    unfold unitsLimit unitsPerOne
    exact Nat.pow_add 2 1074 1024
  rw [h2]
  exact Nat.mul_le_mul_left _ h

theorem units_ten : unitsPerOne ≤ 10 ^ 330 := by
  unfold unitsPerOne
  decide +kernel

theorem IsDouble.limit {u : Nat} (h : IsDouble u) : u < unitsLimit := by
  obtain ⟨m, e, hm, he, rfl⟩ := h
  have hmax : m * 2 ^ e < 2 ^ (53 + e) := by
    rw [Nat.pow_add]; exact Nat.mul_lt_mul_of_pos_right hm (two_pow_pos e)
  exact below_limit hmax (by omega)

theorem scaled_lt {u l p a b : Nat} (h : u < l) (hl : l ≤ p * 10 ^ a) : u * 10 ^ b < p * 10 ^ (a + b) := by
  rw [Nat.pow_add, ← Nat.mul_assoc]
  exact Nat.mul_lt_mul_of_pos_right (Nat.lt_of_lt_of_le h hl) (Nat.pow_pos (by omega))

set_option exponentiation.threshold 3000 in
theorem place_find {u : Nat} (h : IsDouble u) (h0 : u ≠ 0) : ∃ i : Nat, pointPlace u = (i : Int) - 330 ∧ 0 < i ∧
    u * 10 ^ 330 < unitsPerOne * 10 ^ i ∧ unitsPerOne * 10 ^ (i - 1) ≤ u * 10 ^ 330 := by
  have he : u * 10 ^ 330 < unitsPerOne * 10 ^ (309 + 330) := scaled_lt h.limit limit_ten
  cases hs : (List.range 700).find? fun i => decide (u * 10 ^ 330 < unitsPerOne * 10 ^ i) with
  | none =>
    rw [List.find?_eq_none] at hs
    exact absurd (decide_eq_true he) (hs (309 + 330) (List.mem_range.mpr (by omega)))
  | some i =>
    obtain ⟨h1, _, h3⟩ := find_least hs
    have hi : 0 < i := by
      rcases Nat.eq_zero_or_pos i with rfl | hi
      · have h1 := of_decide_eq_true h1
        rw [Nat.pow_zero, Nat.mul_one] at h1
        have h4 := Nat.lt_of_lt_of_le h1 units_ten
        have h5 : 1 * 10 ^ 330 ≤ u * 10 ^ 330 := Nat.mul_le_mul_right _ (Nat.pos_of_ne_zero h0)
        rw [Nat.one_mul] at h5
        exact absurd h4 (Nat.not_lt.mpr h5)
      · exact hi
    refine ⟨i, ?_, hi, of_decide_eq_true h1, Nat.not_lt.mp (of_decide_eq_false (h3 (i - 1) (by omega)))⟩
    unfold pointPlace
    rw [hs]
    rfl

theorem place_bounds {u : Nat} (h : IsDouble u) (h0 : u ≠ 0) :
    (10 : Rat) ^ (pointPlace u - 1) ≤ valueOf u ∧ valueOf u < (10 : Rat) ^ pointPlace u := by
  obtain ⟨i, hp, hi, h1, h2⟩ := place_find h h0
  have h1' : (u : Rat) * (10 : Rat) ^ (330 : Int) < (unitsPerOne : Rat) * (10 : Rat) ^ (i : Int) := by
    rw [show (330 : Int) = ((330 : Nat) : Int) from rfl, ten_nat, ten_nat]; exact_mod_cast h1
  have h2' : (unitsPerOne : Rat) * (10 : Rat) ^ ((i - 1 : Nat) : Int) ≤ (u : Rat) * (10 : Rat) ^ (330 : Int) := by
    rw [show (330 : Int) = ((330 : Nat) : Int) from rfl, ten_nat, ten_nat]; exact_mod_cast h2
  have hU := unitsPerOne_cast
  have ht := ten_pos 330
  unfold valueOf
  rw [hp]
  constructor
  · rw [le_div_iff₀ hU, ← mul_le_mul_iff_left₀ ht]
    refine le_trans (le_of_eq ?_) h2'
    rw [mul_right_comm, ← ten_add, mul_comm, show (i : Int) - 330 - 1 + 330 = ((i - 1 : Nat) : Int) by omega]
  · rw [div_lt_iff₀ hU, ← mul_lt_mul_iff_left₀ ht]
    refine lt_of_lt_of_le h1' (le_of_eq ?_)
    rw [mul_right_comm, ← ten_add, mul_comm, show (i : Int) - 330 + 330 = (i : Int) by omega]

/-! ## The two numbers around a double -/

theorem around {u : Nat} (k : Int) (n : Nat) : ∃ d, decimalValue false d (k - n) ≤ valueOf u ∧
    valueOf u < decimalValue false (d + 1) (k - n) ∧
    ((digitsAround u k n = [d, d + 1] ∧
        valueOf u - decimalValue false d (k - n) ≤ decimalValue false (d + 1) (k - n) - valueOf u) ∨
      (digitsAround u k n = [d + 1, d] ∧
        decimalValue false (d + 1) (k - n) - valueOf u ≤ valueOf u - decimalValue false d (k - n))) := by
  have hU := unitsPerOne_cast
  have hp := ten_pos (k - n)
  have main : ∀ a b : Nat, 0 < b → (a : Rat) = valueOf u * (10 : Rat) ^ ((n : Int) - k) * b →
      decimalValue false (a / b) (k - n) ≤ valueOf u ∧ valueOf u < decimalValue false (a / b + 1) (k - n) ∧
      ((2 * (a % b) ≤ b → valueOf u - decimalValue false (a / b) (k - n) ≤ decimalValue false (a / b + 1) (k - n) - valueOf u) ∧
       (b ≤ 2 * (a % b) → decimalValue false (a / b + 1) (k - n) - valueOf u ≤ valueOf u - decimalValue false (a / b) (k - n))) := by
    intro a b hb hab
    have hb' : 0 < (b : Rat) := by exact_mod_cast hb
    have hdm : (b : Rat) * (a / b : Nat) + (a % b : Nat) = a := by exact_mod_cast Nat.div_add_mod a b
    have hx : valueOf u = (a : Rat) / b * (10 : Rat) ^ (k - (n : Int)) := by
      rw [hab, mul_div_assoc, div_self (ne_of_gt hb'), mul_one, mul_assoc, ← ten_add, show (n : Int) - k + (k - n) = 0 by omega,
        zpow_zero, mul_one]
    have hr : (a % b : Nat) < b := Nat.mod_lt _ hb
    have hr' : ((a % b : Nat) : Rat) < b := by exact_mod_cast hr
    have hr0 : (0 : Rat) ≤ ((a % b : Nat) : Rat) := by exact_mod_cast Nat.zero_le _
    have hq : (a : Rat) / b = (a / b : Nat) + ((a % b : Nat) : Rat) / b := by
      rw [← hdm, add_div, mul_div_cancel_left₀ _ (ne_of_gt hb')]
    have hf0 : 0 ≤ ((a % b : Nat) : Rat) / b := div_nonneg hr0 (le_of_lt hb')
    have hf1 : ((a % b : Nat) : Rat) / b < 1 := by rw [div_lt_iff₀ hb', one_mul]; exact hr'
    rw [hx, hq]
    simp only [value_eq]
    push_cast
    generalize hF : ((a % b : Nat) : Rat) / b = F at *
    generalize ((a / b : Nat) : Rat) = D at *
    generalize (10 : Rat) ^ (k - (n : Int)) = P at *
    refine ⟨mul_le_mul_of_nonneg_right (by linarith) (le_of_lt hp), mul_lt_mul_of_pos_right (by linarith) hp, fun hc => ?_, fun hc => ?_⟩
    · have hc' : 2 * ((a % b : Nat) : Rat) ≤ b := by exact_mod_cast hc
      have : F ≤ 1 / 2 := by rw [← hF, div_le_iff₀ hb']; linarith
      have := mul_le_mul_of_nonneg_right this (le_of_lt hp)
      linarith
    · have hc' : (b : Rat) ≤ 2 * ((a % b : Nat) : Rat) := by exact_mod_cast hc
      have : 1 / 2 ≤ F := by rw [← hF, le_div_iff₀ hb']; linarith
      have := mul_le_mul_of_nonneg_right this (le_of_lt hp)
      linarith
  have fin : ∀ a b : Nat, 0 < b → (a : Rat) = valueOf u * (10 : Rat) ^ ((n : Int) - k) * b →
      digitsAround u k n = (if 2 * (a % b) < b ∨ (2 * (a % b) = b ∧ a / b % 2 = 0) then [a / b, a / b + 1] else [a / b + 1, a / b]) →
      ∃ d, decimalValue false d (k - n) ≤ valueOf u ∧ valueOf u < decimalValue false (d + 1) (k - n) ∧
    ((digitsAround u k n = [d, d + 1] ∧
        valueOf u - decimalValue false d (k - n) ≤ decimalValue false (d + 1) (k - n) - valueOf u) ∨
      (digitsAround u k n = [d + 1, d] ∧
        decimalValue false (d + 1) (k - n) - valueOf u ≤ valueOf u - decimalValue false d (k - n))) := by
    intro a b hb hab hd
    obtain ⟨h1, h2, h3, h4⟩ := main a b hb hab
    refine ⟨a / b, h1, h2, ?_⟩
    rw [hd]
    split
    · rename_i h; exact .inl ⟨rfl, h3 (by omega)⟩
    · rename_i h; exact .inr ⟨rfl, h4 (by omega)⟩
  by_cases hs : 0 ≤ (n : Int) - k
  · refine fin (u * 10 ^ ((n : Int) - k).toNat) unitsPerOne unitsPerOne_pos ?_ ?_
    · obtain ⟨j, hj⟩ := Int.eq_ofNat_of_zero_le hs
      rw [hj, Int.toNat_natCast, ten_nat, mul_right_comm, ← valueOf_units]
      push_cast
      rfl
    · unfold digitsAround
      simp only [if_pos hs]
  · refine fin u (unitsPerOne * 10 ^ (-((n : Int) - k)).toNat) (Nat.mul_pos unitsPerOne_pos (Nat.pow_pos (by omega))) ?_ ?_
    · obtain ⟨j, hj⟩ := Int.eq_ofNat_of_zero_le (a := -((n : Int) - k)) (by omega)
      rw [hj, Int.toNat_natCast, show (n : Int) - k = -(j : Int) by omega]
      push_cast
      rw [valueOf_units u, mul_assoc (valueOf _), mul_left_comm ((10 : Rat) ^ (-(j : Int))), zpow_neg, zpow_natCast,
        inv_mul_cancel₀ (pow_ne_zero _ (by norm_num)), mul_one, ← valueOf_units]
    · unfold digitsAround
      simp only [if_neg hs]

/-! ## The digits found -/

/-- 17 digits are enough. -/
theorem around_enough {u : Nat} (h : IsDouble u) (h0 : u ≠ 0) :
    ∃ c ∈ digitsAround u (pointPlace u) 17, nearestDecimal c (pointPlace u - (17 : Nat)) = some u := by
  obtain ⟨d, h1, h2, h3⟩ := around (u := u) (pointPlace u) 17
  obtain ⟨hk, _⟩ := place_bounds h h0
  have hx : (10 : Rat) ^ (16 : Int) * (10 : Rat) ^ (pointPlace u - (17 : Nat)) ≤ valueOf u := by
    rw [← ten_add, show (16 : Int) + (pointPlace u - (17 : Nat)) = pointPlace u - 1 by omega]; exact hk
  have h16 : (10 : Rat) ^ (16 : Int) = 10000000000000000 := by norm_num
  rw [h16] at hx
  have hp := ten_pos (pointPlace u - (17 : Nat))
  have h54 : (2 : Rat) ^ 54 = 18014398509481984 := by norm_num
  rcases h3 with ⟨h3, h4⟩ | ⟨h3, h4⟩
  · refine ⟨d, by rw [h3]; simp, reads_close h ?_⟩
    rw [abs_sub_comm, abs_of_nonneg (by linarith), h54]
    simp only [value_eq] at *
    push_cast at *
    generalize (10 : Rat) ^ (pointPlace u - 17) = P at *
    linarith
  · refine ⟨d + 1, by rw [h3]; simp, reads_close h ?_⟩
    rw [abs_of_nonneg (by linarith), h54]
    simp only [value_eq] at *
    push_cast at *
    generalize (10 : Rat) ^ (pointPlace u - 17) = P at *
    linarith

/-- One of the two numbers of `n` digits around a double is read as it if any number of `n` digits is. -/
theorem around_reads {u n c : Nat} {q : Int} (hn : 1 ≤ n) (h : IsDouble u) (h0 : u ≠ 0) (hc : c < 10 ^ n)
    (hr : nearestDecimal c q = some u) :
    ∃ c' ∈ digitsAround u (pointPlace u) n, nearestDecimal c' (pointPlace u - n) = some u := by
  obtain ⟨d, h1, h2, h3⟩ := around (u := u) (pointPlace u) n
  obtain ⟨hk, _⟩ := place_bounds h h0
  obtain ⟨g1, g2⟩ := grid (q := q) hn hk hc h1 h2
  have hmem : d ∈ digitsAround u (pointPlace u) n ∧ d + 1 ∈ digitsAround u (pointPlace u) n := by
    rcases h3 with ⟨h3, _⟩ | ⟨h3, _⟩ <;> rw [h3] <;> simp
  rcases le_or_gt (decimalValue false c q) (valueOf u) with hle | hlt
  · exact ⟨d, hmem.1, reads_between hr (.inl ⟨g1 hle, h1⟩)⟩
  · exact ⟨d + 1, hmem.2, reads_between hr (.inr ⟨le_of_lt h2, g2 hlt⟩)⟩

theorem find_rows {D : Nat → List Nat} {Q : Nat → Int} {p : Nat × Int → Bool} {N i : Nat} (hi : i < N) {c0 : Nat} (hc : c0 ∈ D i)
    (hp : p (c0, Q i) = true) (x0 : Nat × Int) : ∃ n c : Nat, n < N ∧
    (((List.range N).flatMap fun n => (D n).map fun d => (d, Q n)).find? p).getD x0 = (c, Q n) ∧
    (D n).find? (fun c => p (c, Q n)) = some c ∧ ∀ j < n, ∀ c' ∈ D j, p (c', Q j) = false := by
  have hs : ((List.range N).flatMap fun n => (D n).map fun d => (d, Q n)).find? p =
      (List.range N).findSome? fun j => ((D j).find? (fun c => p (c, Q j))).map fun d => (d, Q j) := by
    rw [List.find?_flatMap]
    congr 1
    funext j
    rw [List.find?_map]
    rfl
  have hnone : ∀ j, ((D j).find? (fun c => p (c, Q j))).map (fun d => (d, Q j)) = none → ∀ c' ∈ D j, p (c', Q j) = false := by
    intro j hj c' hc'
    rw [Option.map_eq_none_iff, List.find?_eq_none] at hj
    simpa using hj c' hc'
  rw [hs]
  cases hfs : (List.range N).findSome? fun j => ((D j).find? (fun c => p (c, Q j))).map fun d => (d, Q j) with
  | none =>
    rw [List.findSome?_eq_none_iff] at hfs
    rw [hnone i (hfs i (List.mem_range.mpr hi)) c0 hc] at hp
    cases hp
  | some x =>
    rw [List.findSome?_eq_some_iff] at hfs
    obtain ⟨l1, n, l2, hl, hx, hbefore⟩ := hfs
    have hlen : l1 = List.range n ∧ n < N := by
      have h1 : (List.range N)[l1.length]? = some n := by rw [hl]; simp
      rw [List.getElem?_eq_some_iff] at h1
      obtain ⟨h1, h2⟩ := h1
      simp only [List.getElem_range, List.length_range] at h1 h2
      have h3 : l1 = (List.range N).take l1.length := by rw [hl]; simp
      rw [List.take_range] at h3
      refine ⟨?_, by omega⟩
      rw [h3, h2]
      congr 1
      omega
    obtain ⟨rfl, hn⟩ := hlen
    rw [Option.map_eq_some_iff] at hx
    obtain ⟨c, hc, rfl⟩ := hx
    exact ⟨n, c, hn, rfl, hc, fun j hj => hnone j (hbefore j (List.mem_range.mpr hj))⟩

/-- What is found. -/
theorem shortest_found {u : Nat} (h : IsDouble u) (h0 : u ≠ 0) : ∃ n c : Nat, n < 17 ∧
    shortestDigits u = (c, pointPlace u - ((n : Int) + 1)) ∧
    (digitsAround u (pointPlace u) (n + 1)).find? (fun c => decide (nearestDecimal c (pointPlace u - ((n : Int) + 1)) = some u)) = some c ∧
    ∀ j : Nat, j < n → ∀ c' ∈ digitsAround u (pointPlace u) (j + 1), nearestDecimal c' (pointPlace u - ((j : Int) + 1)) ≠ some u := by
  obtain ⟨c0, hc, hr⟩ := around_enough h h0
  have hr' : nearestDecimal c0 (pointPlace u - (((16 : Nat) : Int) + 1)) = some u := by
    rw [show ((16 : Nat) : Int) + 1 = ((17 : Nat) : Int) by omega]; exact hr
  obtain ⟨n, c, hn, h1, h2, h3⟩ := find_rows (D := fun n => digitsAround u (pointPlace u) (n + 1))
    (Q := fun n => pointPlace u - ((n : Int) + 1)) (p := fun x : Nat × Int => decide (nearestDecimal x.1 x.2 = some u))
    (N := 17) (i := 16) (by omega) hc (decide_eq_true hr') (allDigits u)
  exact ⟨n, c, hn, h1, h2, fun j hj c' hc' => of_decide_eq_false (h3 j hj c' hc')⟩

theorem find_two {a b c : Nat} {p : Nat → Bool} (hh : [a, b].find? p = some c) :
    (c = a ∧ p a = true) ∨ (c = b ∧ p a = false ∧ p b = true) := by
  rw [List.find?_cons] at hh
  split at hh
  · rename_i hp; exact .inl ⟨by simpa using hh.symm, hp⟩
  · rename_i hp
    rw [List.find?_cons] at hh
    split at hh
    · rename_i hp2; exact .inr ⟨by simpa using hh.symm, hp, hp2⟩
    · simp at hh

/-- The digits found are close, few, and as close as any that few. -/
theorem shortest_spec {u : Nat} (h : IsDouble u) (h0 : u ≠ 0) : ∃ n c : Nat, n < 17 ∧
    shortestDigits u = (c, pointPlace u - ((n : Int) + 1)) ∧ nearestDecimal c (pointPlace u - ((n : Int) + 1)) = some u ∧
    c ≤ 10 ^ (n + 1) ∧
    (∀ c' q', nearestDecimal c' q' = some u → 10 ^ n ≤ c') ∧
    ∀ c' q', nearestDecimal c' q' = some u → c' < 10 ^ (n + 1) →
      |decimalValue false c (pointPlace u - ((n : Int) + 1)) - valueOf u| ≤ |decimalValue false c' q' - valueOf u| := by
  obtain ⟨n, c, hn, he, hf, hb⟩ := shortest_found h h0
  have hread : nearestDecimal c (pointPlace u - ((n : Int) + 1)) = some u := by
    have := List.find?_some hf
    simpa only [decide_eq_true_eq] using this
  refine ⟨n, c, hn, he, hread, ?_, ?_, ?_⟩
  · obtain ⟨d, h1, h2, h3⟩ := around (u := u) (pointPlace u) (n + 1)
    have hd : d < 10 ^ (n + 1) := by
      have hx := lt_of_le_of_lt h1 (place_bounds h h0).2
      rw [value_eq, show pointPlace u = ((n + 1 : Nat) : Int) + (pointPlace u - ((n + 1 : Nat) : Int)) by omega, ten_add] at hx
      rw [show ((n + 1 : Nat) : Int) + (pointPlace u - ((n + 1 : Nat) : Int)) - ((n + 1 : Nat) : Int) =
        pointPlace u - ((n + 1 : Nat) : Int) by omega] at hx
      have := lt_of_mul_lt_mul_right hx (le_of_lt (ten_pos _))
      rw [ten_nat] at this
      exact_mod_cast this
    have hm := List.mem_of_find?_eq_some hf
    rcases h3 with ⟨h3, _⟩ | ⟨h3, _⟩ <;> rw [h3] at hm <;> simp at hm <;> omega
  · intro c' q' hr
    by_cases hn0 : n = 0
    · rcases Nat.eq_zero_or_pos c' with rfl | hp
      · rw [nearestDecimal_zero] at hr
        exact absurd (Option.some.inj hr).symm h0
      · rw [hn0]; exact hp
    · by_contra hlt
      obtain ⟨c2, hm, hr2⟩ := around_reads (n := n) (by omega) h h0 (by omega) hr
      have := hb (n - 1) (by omega) c2 (by rw [Nat.sub_add_cancel (by omega)]; exact hm)
      rw [show (((n - 1 : Nat) : Int) + 1) = (n : Int) by omega] at this
      exact this hr2
  · intro c' q' hr hc'
    obtain ⟨d, h1, h2, h3⟩ := around (u := u) (pointPlace u) (n + 1)
    obtain ⟨hk, _⟩ := place_bounds h h0
    obtain ⟨g1, g2⟩ := grid (q := q') (by omega) hk hc' h1 h2
    have hq : pointPlace u - ((n : Int) + 1) = pointPlace u - ((n + 1 : Nat) : Int) := by omega
    rw [hq] at hf ⊢
    have e1 : |decimalValue false d (pointPlace u - ((n + 1 : Nat) : Int)) - valueOf u| =
        valueOf u - decimalValue false d (pointPlace u - ((n + 1 : Nat) : Int)) := by
      rw [abs_sub_comm, abs_of_nonneg (by linarith)]
    have e2 : |decimalValue false (d + 1) (pointPlace u - ((n + 1 : Nat) : Int)) - valueOf u| =
        decimalValue false (d + 1) (pointPlace u - ((n + 1 : Nat) : Int)) - valueOf u := abs_of_nonneg (by linarith)
    rcases le_or_gt (decimalValue false c' q') (valueOf u) with hle | hlt
    · have hrd := reads_between hr (.inl ⟨g1 hle, h1⟩)
      have hfar : valueOf u - decimalValue false d (pointPlace u - ((n + 1 : Nat) : Int)) ≤ |decimalValue false c' q' - valueOf u| := by
        rw [abs_sub_comm, abs_of_nonneg (by linarith)]
        have := g1 hle
        linarith
      refine le_trans ?_ hfar
      rcases h3 with ⟨h3, h4⟩ | ⟨h3, h4⟩
      · rw [h3] at hf
        rcases find_two hf with ⟨rfl, _⟩ | ⟨_, hp, _⟩
        · exact le_of_eq e1
        · exact absurd hrd (of_decide_eq_false hp)
      · rw [h3] at hf
        rcases find_two hf with ⟨rfl, _⟩ | ⟨rfl, _, _⟩
        · rw [e2]; exact h4
        · exact le_of_eq e1
    · have hrd := reads_between hr (.inr ⟨le_of_lt h2, g2 hlt⟩)
      have hfar : decimalValue false (d + 1) (pointPlace u - ((n + 1 : Nat) : Int)) - valueOf u ≤ |decimalValue false c' q' - valueOf u| := by
        rw [abs_of_nonneg (by linarith)]
        have := g2 hlt
        linarith
      refine le_trans ?_ hfar
      rcases h3 with ⟨h3, h4⟩ | ⟨h3, h4⟩
      · rw [h3] at hf
        rcases find_two hf with ⟨rfl, _⟩ | ⟨rfl, _, _⟩
        · rw [e1]; exact h4
        · exact le_of_eq e2
      · rw [h3] at hf
        rcases find_two hf with ⟨rfl, _⟩ | ⟨_, hp, _⟩
        · exact le_of_eq e2
        · exact absurd hrd (of_decide_eq_false hp)

/-! ## The text -/

theorem numOf_lead {d : Nat} {s : PyStr} (h1 : 49 ≤ d) : 10 ^ s.length ≤ numOf (d :: s) := by
  rw [show d :: s = [d] ++ s from rfl, numOf_append]
  have : 1 ≤ numOf [d] := by simp [numOf, digitsVal]; omega
  calc 10 ^ s.length = 1 * 10 ^ s.length := (Nat.one_mul _).symm
    _ ≤ numOf [d] * 10 ^ s.length := Nat.mul_le_mul_right _ this
    _ ≤ _ := Nat.le_add_right _ _

theorem numOf_last {s : PyStr} {d : Nat} : numOf (s ++ [d]) % 10 = (d - 48) % 10 := by
  rw [numOf_append]
  simp [numOf, digitsVal]

/-- The digits of a number without the zeros at the end. -/
theorem stripped {c n : Nat} (h0 : c ≠ 0) (hc : c ≤ 10 ^ (n + 1)) : ∃ z, natStr c = dropZeros (natStr c) ++ List.replicate z 48 ∧
    numOf (dropZeros (natStr c)) * 10 ^ z = c ∧ Decimal (numOf (dropZeros (natStr c))) (dropZeros (natStr c)) ∧
    (dropZeros (natStr c)).getLast? ≠ some 48 ∧ (dropZeros (natStr c)).length ≤ n + 1 := by
  obtain ⟨z, hz⟩ := dropZeros_split (natStr c)
  have hd := natStr_allDigits c
  have hv := numOf_natStr c
  have hlast : (dropZeros (natStr c)).getLast? ≠ some 48 := by
    unfold dropZeros
    rw [List.getLast?_reverse]
    intro h
    have := List.head?_dropWhile_not (· == 48) (natStr c).reverse
    rw [h] at this
    simp at this
  obtain ⟨a, as, hn, ha, ha2⟩ := natStr_pos c h0
  generalize hds : dropZeros (natStr c) = ds at *
  have hvz : numOf ds * 10 ^ z = c := by
    rw [hz, numOf_append, numOf_zeros, Nat.add_zero, List.length_replicate] at hv; exact hv
  have hne : ds ≠ [] := by
    rintro rfl
    rw [show numOf [] = 0 from rfl, Nat.zero_mul] at hvz
    exact h0 hvz.symm
  obtain ⟨b, bs, rfl⟩ := List.exists_cons_of_ne_nil hne
  have hb : b = a := by
    rw [hn] at hz
    simpa using (congrArg List.head? hz).symm
  have hds2 : AllDigits (b :: bs) := fun x hx => hd x (by rw [hz]; exact List.mem_append_left _ hx)
  have hlead := numOf_lead (d := b) (s := bs) (by omega)
  have hle : numOf (b :: bs) ≤ c := by
    rw [← hvz]; exact Nat.le_mul_of_pos_right _ (Nat.pow_pos (by omega))
  refine ⟨z, hz, hvz, ⟨digits_of_ascii _ hds2, by simp, fun h => ?_⟩, hlast, ?_⟩
  · have : b = 48 := by simpa using h
    omega
  · by_contra hgt
    have hl : n + 1 ≤ bs.length := by simp at hgt; omega
    have h3 : 10 ^ (n + 1) ≤ 10 ^ bs.length := Nat.pow_le_pow_right (by omega) hl
    have h4 : numOf (b :: bs) = 10 ^ (n + 1) := by omega
    rcases List.eq_nil_or_concat (b :: bs) with he | ⟨l, e, he⟩
    · cases he
    · rw [List.concat_eq_append] at he
      rw [he] at h4 hlast hds2
      have h5 : numOf (l ++ [e]) % 10 = 0 := by rw [h4, Nat.pow_succ]; exact Nat.mul_mod_left _ _
      rw [numOf_last] at h5
      have := hds2 e (by simp)
      simp at hlast
      omega

theorem exponent_digits (n : Nat) :
    ExponentDigits n (if (natStr n).length < 2 then 48 :: natStr n else natStr n) := by
  have hd := natStr_allDigits n
  have hv := numOf_natStr n
  have hne := natStr_ne_nil n
  by_cases h0 : n = 0
  · subst h0
    exact .inr ⟨⟨Digits.snoc (Digits.snoc .nil 0 (by omega)) 0 (by omega), by decide⟩, by omega⟩
  obtain ⟨a, as, hn, ha, ha2⟩ := natStr_pos n h0
  by_cases hl : (natStr n).length < 2
  · rw [if_pos hl]
    have has : as = [] := List.length_eq_zero_iff.mp (by rw [hn, List.length_cons] at hl; omega)
    refine .inr ⟨⟨?_, by rw [hn, has]; rfl⟩, ?_⟩
    · have := digits_of_ascii (48 :: natStr n) (fun x hx => by
        rcases List.mem_cons.mp hx with rfl | hx
        · omega
        · exact hd x hx)
      have hv2 : numOf (48 :: natStr n) = n := by
        rw [show 48 :: natStr n = [48] ++ natStr n from rfl, numOf_append, hv]; simp [numOf, digitsVal]
      rw [show digitsVal ((48 :: natStr n).map (· - 48)) = n from hv2] at this
      exact this
    · rw [hn, has] at hv
      simp [numOf, digitsVal] at hv
      omega
  · rw [if_neg hl]
    refine .inl ⟨decimal_natStr n, ?_⟩
    rw [hn] at hv hl
    have h1 := numOf_lead (d := a) (s := as) ha
    have h2 : 10 ^ 1 ≤ 10 ^ as.length := Nat.pow_le_pow_right (by omega) (by simp at hl; omega)
    omega

theorem layout {ds : PyStr} (hd : AllDigits ds) (hne : ds ≠ []) (p : Int) : FloatLayout ds p (upperAscii (floatDigits ds p)) := by
  obtain ⟨a, as, rfl⟩ := List.exists_cons_of_ne_nil hne
  have hup : ∀ {s : PyStr}, AllDigits s → upperAscii s = s := fun h => h.upper
  unfold floatDigits
  by_cases hp : -4 < p ∧ p ≤ 16
  · rw [if_pos hp]
    by_cases h0 : p ≤ 0
    · rw [if_pos h0, upper_append, upper_append, hup hd, hup (allDigits_zeros _), show upperAscii (txt! "0.") = txt! "0." from rfl]
      exact .small hp.1 h0
    · rw [if_neg h0]
      by_cases h1 : p ≥ (a :: as).length
      · rw [if_pos h1, upper_append, upper_append, hup hd, hup (allDigits_zeros _), show upperAscii (txt! ".0") = txt! ".0" from rfl]
        exact .whole h1 hp.2
      · rw [if_neg h1, upper_append, hup (hd.take _), show ∀ s : PyStr, upperAscii (46 :: s) = 46 :: upperAscii s from fun _ => rfl,
          hup (hd.drop _)]
        refine .point (List.take_append_drop p.toNat _).symm ?_ (by omega) ?_ hp.2
        · rw [List.length_take]; omega
        · intro h
          have := congrArg List.length h
          rw [List.length_drop, List.length_nil] at this
          omega
  · rw [if_neg hp]
    dsimp only
    have hx := exponent_digits (p - 1).natAbs
    have hxd : AllDigits (if (natStr (p - 1).natAbs).length < 2 then 48 :: natStr (p - 1).natAbs else natStr (p - 1).natAbs) := by
      split
      · intro c hc
        rcases List.mem_cons.mp hc with rfl | hc
        · omega
        · exact natStr_allDigits _ c hc
      · exact natStr_allDigits _
    generalize (if (natStr (p - 1).natAbs).length < 2 then 48 :: natStr (p - 1).natAbs else natStr (p - 1).natAbs) = x at hx hxd
    have hbody : upperAscii (List.take 1 (a :: as) ++ (if (a :: as).length > 1 then 46 :: List.drop 1 (a :: as) else [])) =
        a :: (if as = [] then [] else 46 :: as) := by
      have has : AllDigits as := fun c hc => hd c (by simp [hc])
      rw [show List.take 1 (a :: as) = [a] from rfl, show List.drop 1 (a :: as) = as from rfl, upper_append,
        hup (s := [a]) (fun c hc => hd c (by simp at hc; simp [hc]))]
      cases as with
      | nil => rfl
      | cons b bs =>
        rw [if_pos (by simp), if_neg (by simp), show ∀ s : PyStr, upperAscii (46 :: s) = 46 :: upperAscii s from fun _ => rfl, hup has]
        rfl
    rw [upper_append, hbody]
    by_cases hneg : p - 1 < 0
    · rw [if_pos hneg, show upperAscii (101 :: 45 :: x) = 69 :: 45 :: upperAscii x from rfl, hup hxd]
      have := FloatLayout.tiny (ds := a :: as) (p := p) (x := x) rfl (by omega) (by rwa [show (1 - p).toNat = (p - 1).natAbs by omega])
      simpa using this
    · rw [if_neg hneg, show upperAscii (101 :: 43 :: x) = 69 :: 43 :: upperAscii x from rfl, hup hxd]
      have := FloatLayout.large (ds := a :: as) (p := p) (x := x) rfl (by omega) (by rwa [show (p - 1).toNat = (p - 1).natAbs by omega])
      simpa using this

set_option exponentiation.threshold 3000 in
theorem valueOf_float (u : Nat) : floatValue false u = valueOf u := by
  unfold floatValue valueOf unitsPerOne
  simp only [Bool.false_eq_true, ↓reduceIte]
  rw [Nat.cast_pow]
  rfl

theorem read_nearest {n u : Nat} {e : Int} {t : PyStr} (h : NumberText n e t) (hr : floatOfText t = .ok (.finite false u)) :
    nearestDecimal n e = some u := by
  rw [float_read h (.inl ⟨rfl, rfl⟩)] at hr
  cases hn : nearestDecimal n e with
  | some v =>
    rw [hn] at hr
    simp only [Except.ok.injEq, PyFloat.finite.injEq, true_and] at hr
    rw [hr]
  | none =>
    rw [hn] at hr
    simp at hr

theorem sign_upper (s : PyStr) : upperAscii (signText true s) = 45 :: upperAscii (signText false s) := by
  simp [signText, upperAscii]

theorem negative_text (u : Nat) : PyFloat.text (.finite true u) = 45 :: PyFloat.text (.finite false u) := by
  unfold PyFloat.text PyFloat.str
  exact sign_upper (unitsText u)

theorem float_shortest {u : Nat} (h : IsDouble u) (h0 : u ≠ 0) : ∃ m ds p, Decimal m ds ∧ ds.getLast? ≠ some 48 ∧ ds.length ≤ 17 ∧
    FloatLayout ds p (PyFloat.text (.finite false u)) ∧
    ∀ n e t, NumberText n e t → floatOfText t = .ok (.finite false u) → 10 ^ (ds.length - 1) ≤ n ∧
      (n < 10 ^ ds.length → |decimalValue false m (p - ds.length) - floatValue false u| ≤
        |decimalValue false n e - floatValue false u|) := by
  obtain ⟨n, c, hn, he, hr, hc, hfew, hclose⟩ := shortest_spec h h0
  have hc0 : c ≠ 0 := by
    rintro rfl
    rw [nearestDecimal_zero] at hr
    exact h0 (Option.some.inj hr).symm
  obtain ⟨z, hz, hvz, hdec, hlast, hlen⟩ := stripped hc0 hc
  have hall : AllDigits (dropZeros (natStr c)) := fun x hx => natStr_allDigits c x (by rw [hz]; exact List.mem_append_left _ hx)
  refine ⟨_, _, pointPlace u - ((n : Int) + 1) + (natStr c).length, hdec, hlast, by omega, ?_, ?_⟩
  · have ht : PyFloat.text (.finite false u) =
        upperAscii (floatDigits (dropZeros (natStr c)) (pointPlace u - ((n : Int) + 1) + ((natStr c).length : Int))) := by
      unfold PyFloat.text PyFloat.str unitsText
      simp only [signText, Bool.false_eq_true, ↓reduceIte, if_neg h0, he]
    rw [ht]
    exact layout hall hdec.2.1 _
  · intro n' e' t' ht' hr'
    have hrd := read_nearest ht' hr'
    refine ⟨Nat.le_trans (Nat.pow_le_pow_right (by omega) (by omega)) (hfew n' e' hrd), fun hlt => ?_⟩
    have := hclose n' e' hrd (Nat.lt_of_lt_of_le hlt (Nat.pow_le_pow_right (by omega) hlen))
    rw [valueOf_float]
    have hsame : decimalValue false (numOf (dropZeros (natStr c)))
        (pointPlace u - ((n : Int) + 1) + ((natStr c).length : Int) - ((dropZeros (natStr c)).length : Int)) =
        decimalValue false c (pointPlace u - ((n : Int) + 1)) := by
      have hl := congrArg List.length hz
      rw [List.length_append, List.length_replicate] at hl
      rw [show pointPlace u - ((n : Int) + 1) + ((natStr c).length : Int) - ((dropZeros (natStr c)).length : Int) =
        (z : Int) + (pointPlace u - ((n : Int) + 1)) by omega, value_eq, value_eq, ten_add, ten_nat, ← mul_assoc, ← Nat.cast_mul, hvz]
    rw [hsame]
    exact this

end Verif
