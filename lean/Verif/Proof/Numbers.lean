import Verif.Spec.Numbers
import Verif.Proof.Ints

/-! # Decimals and floats in texts: lemmas for C82 and C83 -/

namespace Verif

/-! ## Numbers with a point or an exponent -/

/-- All characters are digits. -/
def AllDigits (s : PyStr) : Prop := ∀ c ∈ s, 48 ≤ c ∧ c ≤ 57

/-- The number of a row of digits. -/
def numOf (s : PyStr) : Nat := digitsVal (s.map (· - 48))

theorem isDigit_iff (c : Nat) : isDigit c = true ↔ 48 ≤ c ∧ c ≤ 57 := by
  unfold isDigit; simp

theorem AllDigits.append {s t : PyStr} (hs : AllDigits s) (ht : AllDigits t) : AllDigits (s ++ t) := fun c hc => by
  rcases List.mem_append.mp hc with h | h
  · exact hs c h
  · exact ht c h

theorem allDigits_zeros (k : Nat) : AllDigits (List.replicate k 48) := fun c hc => by
  rw [(List.mem_replicate.mp hc).2]; omega

theorem natStr_allDigits (n : Nat) : AllDigits (natStr n) := natStr_ascii n

theorem AllDigits.take {s : PyStr} (h : AllDigits s) (k : Nat) : AllDigits (s.take k) := fun c hc => h c (List.mem_of_mem_take hc)
theorem AllDigits.drop {s : PyStr} (h : AllDigits s) (k : Nat) : AllDigits (s.drop k) := fun c hc => h c (List.mem_of_mem_drop hc)

theorem AllDigits.all {s : PyStr} (h : AllDigits s) : s.all isDigit = true := by
  rw [List.all_eq_true]; exact fun c hc => (isDigit_iff c).mpr (h c hc)

theorem takeWhile_digits {s t : PyStr} (h : AllDigits s) (ht : ∀ c, t.head? = some c → isDigit c = false) :
    (s ++ t).takeWhile isDigit = s ∧ (s ++ t).dropWhile isDigit = t := by
  induction s with
  | nil =>
    cases t with
    | nil => exact ⟨rfl, rfl⟩
    | cons c t => simp [ht c rfl]
  | cons c s ih =>
    have hc := (isDigit_iff c).mpr (h c (by simp))
    have := ih fun c hc => h c (by simp [hc])
    simp [hc, this]

theorem numOf_append (s t : PyStr) : numOf (s ++ t) = numOf s * 10 ^ t.length + numOf t := by
  generalize hn : t.length = n
  induction n generalizing t with
  | zero => rw [List.length_eq_zero_iff.mp hn]; simp [numOf, digitsVal]
  | succ n ih =>
    rcases List.eq_nil_or_concat t with rfl | ⟨u, c, rfl⟩
    · simp at hn
    · rw [List.concat_eq_append] at hn ⊢
      have := ih u (by simpa using hn)
      unfold numOf at this ⊢
      rw [← List.append_assoc, List.map_append, List.map_cons, List.map_nil, digitsVal_snoc, this, List.map_append, List.map_cons,
        List.map_nil, digitsVal_snoc, Nat.pow_succ, Nat.mul_add, Nat.mul_left_comm, Nat.mul_comm 10 (10 ^ n)]
      omega

theorem numOf_zeros (k : Nat) : numOf (List.replicate k 48) = 0 := by
  induction k with
  | zero => rfl
  | succ k ih =>
    rw [show List.replicate (k + 1) 48 = [48] ++ List.replicate k 48 from rfl, numOf_append, ih]
    simp [numOf, digitsVal]

theorem numOf_natStr (n : Nat) : numOf (natStr n) = n := natStr_val n

/-- The exponent behind a number: nothing, or `e`, a sign and digits. -/
inductive ExpText : Int → PyStr → Prop
  | none : ExpText 0 []
  | plain {x : PyStr} (h : AllDigits x) (hx : x ≠ []) : ExpText (numOf x) (101 :: x)
  | plus {x : PyStr} (h : AllDigits x) (hx : x ≠ []) : ExpText (numOf x) (101 :: 43 :: x)
  | minus {x : PyStr} (h : AllDigits x) (hx : x ≠ []) : ExpText (-(numOf x : Int)) (101 :: 45 :: x)

theorem ExpText.scan {e : Int} {x : PyStr} (h : ExpText e x) : scanExponent x = some e := by
  cases h with
  | none => rfl
  | @plain x h hx =>
    simp only [scanExponent, true_or, ↓reduceIte]
    have h43 : ∀ u, x ≠ 43 :: u := fun u hu => by have := h 43 (by rw [hu]; simp); omega
    have h45 : ∀ u, x ≠ 45 :: u := fun u hu => by have := h 45 (by rw [hu]; simp); omega
    rw [signedOf.eq_3 _ _ (fun u hu => h45 u hu) (fun u hu => h43 u hu)]
    rw [if_pos ⟨hx, h.all⟩]; rfl
  | plus h hx =>
    simp only [scanExponent, true_or, ↓reduceIte]
    show Option.map _ (if _ then _ else _) = _
    rw [if_pos ⟨hx, h.all⟩]; rfl
  | minus h hx =>
    simp only [scanExponent, true_or, ↓reduceIte]
    show Option.map _ (if _ then _ else _) = _
    rw [if_pos ⟨hx, h.all⟩]; rfl

theorem ExpText.head {e : Int} {x : PyStr} (h : ExpText e x) : ∀ c, x.head? = some c → c = 101 := by
  cases h <;> simp

theorem scan_whole {w x : PyStr} {e : Int} (hw : AllDigits w) (hne : w ≠ []) (hx : ExpText e x) :
    scanNumber (w ++ x) = some (numOf w, e) := by
  have hd := takeWhile_digits (t := x) hw fun c hc => by rw [hx.head c hc]; decide
  have hp : x.head? ≠ some 46 := fun hc => by have := hx.head _ hc; omega
  unfold scanNumber
  rw [hd.1, hd.2]
  simp only [if_neg hp, List.append_nil, if_neg hne]
  rw [hx.scan]
  simp [numOf]

theorem scan_point {w f x : PyStr} {e : Int} (hw : AllDigits w) (hf : AllDigits f) (hne : w ++ f ≠ []) (hx : ExpText e x) :
    scanNumber (w ++ 46 :: (f ++ x)) = some (numOf (w ++ f), e - (f.length : Int)) := by
  have hd := takeWhile_digits (t := 46 :: (f ++ x)) hw fun c hc => by cases hc; decide
  have hf' := takeWhile_digits (t := x) hf fun c hc => by rw [hx.head c hc]; decide
  unfold scanNumber
  rw [hd.1, hd.2]
  simp only [List.head?_cons, ↓reduceIte, List.drop_succ_cons, List.drop_zero]
  rw [hf'.1, hf'.2, if_neg hne, hx.scan]
  rfl

/-! ## Letters and signs -/

theorem lower_upper (s : PyStr) : lowerAscii (upperAscii s) = lowerAscii s := by
  unfold lowerAscii upperAscii
  rw [List.map_map]
  apply List.map_congr_left
  intro c _
  simp only [Function.comp]
  split
  · rw [if_pos (by omega), if_neg (by omega)]; omega
  · rfl

/-- The characters in the texts of numbers. -/
def NumChar (c : Nat) : Prop := 43 ≤ c ∧ c < 127 ∧ c ≠ 95

theorem asciiOf_num {c : Nat} (h : NumChar c) : asciiOf c = c := by
  unfold asciiOf; rw [if_pos h.2.1]

theorem numChar_space {c : Nat} (h : NumChar c) : numSpace c = false ∧ strSpace c = false := by
  obtain ⟨h1, h2, _⟩ := h
  unfold strSpace numSpace
  simp only [Bool.or_eq_false_iff, Bool.and_eq_false_iff, decide_eq_false_iff_not, beq_eq_false_iff_ne, ne_eq]
  omega

theorem map_ascii {s : PyStr} (h : ∀ c ∈ s, NumChar c) : s.map asciiOf = s := by
  have : s.map asciiOf = s.map id := List.map_congr_left fun c hc => asciiOf_num (h c hc)
  rw [this, List.map_id]

theorem upper_num {s : PyStr} (h : ∀ c ∈ s, NumChar c) : ∀ c ∈ upperAscii s, NumChar c := by
  intro c hc
  obtain ⟨d, hd, rfl⟩ := List.mem_map.mp hc
  have := h d hd
  unfold NumChar at this ⊢
  split <;> omega

theorem AllDigits.num {s : PyStr} (h : AllDigits s) : ∀ c ∈ s, NumChar c := fun c hc => by
  have := h c hc; unfold NumChar; omega

theorem AllDigits.upper {s : PyStr} (h : AllDigits s) : upperAscii s = s := by
  unfold upperAscii
  conv => rhs; rw [← List.map_id s]
  exact List.map_congr_left fun c hc => by have := h c hc; rw [if_neg (by omega)]; rfl

theorem AllDigits.lower {s : PyStr} (h : AllDigits s) : lowerAscii s = s := by
  unfold lowerAscii
  conv => rhs; rw [← List.map_id s]
  exact List.map_congr_left fun c hc => by have := h c hc; rw [if_neg (by omega)]; rfl

theorem lower_append (s t : PyStr) : lowerAscii (s ++ t) = lowerAscii s ++ lowerAscii t := List.map_append
theorem upper_append (s t : PyStr) : upperAscii (s ++ t) = upperAscii s ++ upperAscii t := List.map_append

theorem split_sign (neg : Bool) (b : PyStr) (h : ∀ c, b.head? = some c → c ≠ 45 ∧ c ≠ 43) : splitSign (signText neg b) = (neg, b) := by
  cases neg with
  | true => rfl
  | false =>
    show splitSign b = _
    unfold splitSign
    split
    · exact absurd rfl (h 45 rfl).1
    · exact absurd rfl (h 43 rfl).2
    · rfl

theorem lower_sign (neg : Bool) (b : PyStr) : lowerAscii (signText neg b) = signText neg (lowerAscii b) := by
  cases neg <;> rfl

theorem signText_num {neg : Bool} {b : PyStr} (h : ∀ c ∈ b, NumChar c) : ∀ c ∈ signText neg b, NumChar c := by
  cases neg with
  | false => exact h
  | true =>
    intro c hc
    rcases List.mem_cons.mp hc with rfl | hc
    · unfold NumChar; omega
    · exact h c hc

/-! ## Decimals -/

theorem decimal_text {s b : PyStr} {neg : Bool} (hs : s = signText neg b) (hn : ∀ c ∈ b, NumChar c)
    (hb : ∀ c, (lowerAscii b).head? = some c → c ≠ 45 ∧ c ≠ 43) :
    decimalOfText (upperAscii s) = match decimalOfLower neg (lowerAscii b) with
      | some d => .ok d
      | none => .error .decimalError := by
  have hu := upper_num (signText_num (neg := neg) hn)
  rw [← hs] at hu
  have h1 : stripBy strSpace (upperAscii s) = upperAscii s := stripBy_id _ _
    (fun c hc => (numChar_space (hu c (List.mem_of_head? hc))).2) (fun c hc => (numChar_space (hu c (List.mem_of_getLast? hc))).2)
  have h2 : (upperAscii s).filter (· ≠ 95) = upperAscii s := by
    rw [List.filter_eq_self]
    intro c hc
    have := hu c hc
    unfold NumChar at this
    simpa using this.2.2
  unfold decimalOfText
  rw [h1, map_ascii hu, h2, lower_upper, hs, lower_sign]
  dsimp only
  rw [split_sign neg _ hb]
  rfl

theorem digitsHead_special {neg : Bool} {s : PyStr} (h : ∃ c, s.head? = some c ∧ 48 ≤ c ∧ c ≤ 57) : decimalOfLower neg s =
    (scanNumber s).map fun x : Nat × Int => .finite neg x.1 x.2 := by
  obtain ⟨c, hc, h1⟩ := h
  cases s with
  | nil => cases hc
  | cons d s =>
    have hd : d = c := by simpa using hc
    subst hd
    unfold decimalOfLower
    rw [if_neg (by simp only [List.cons.injEq, not_or, not_and]; omega), if_neg (by simp [List.isPrefixOf]; omega),
      if_neg (by simp [List.isPrefixOf]; omega)]

theorem digitsHead_float {neg : Bool} {s : PyStr} (h : ∃ c, s.head? = some c ∧ 48 ≤ c ∧ c ≤ 57) : floatOfLower neg s =
    (scanNumber s).map fun x : Nat × Int =>
    match nearestDecimal x.1 x.2 with
    | some u => .finite neg u
    | none => .infinity neg := by
  obtain ⟨c, hc, h1⟩ := h
  cases s with
  | nil => cases hc
  | cons d s =>
    have hd : d = c := by simpa using hc
    subst hd
    unfold floatOfLower
    rw [if_neg (by simp only [List.cons.injEq, not_or, not_and]; omega), if_neg (by simp; omega)]
    rfl

/-- The exponent of a decimal. -/
theorem exp_signed (n : Int) : ExpText n (lowerAscii (69 :: signedText n)) := by
  unfold signedText
  split
  · rename_i h
    cases n with
    | ofNat n => exact absurd h (by simp)
    | negSucc n =>
      have hd := natStr_allDigits (n + 1)
      show ExpText _ (101 :: 45 :: lowerAscii (natStr (n + 1)))
      rw [hd.lower]
      have := ExpText.minus hd (natStr_ne_nil _)
      rw [numOf_natStr] at this
      exact this
  · rename_i h
    cases n with
    | negSucc n => omega
    | ofNat n =>
      have hd := natStr_allDigits n
      show ExpText _ (101 :: 43 :: lowerAscii (natStr n))
      rw [hd.lower]
      have := ExpText.plus hd (natStr_ne_nil _)
      rw [numOf_natStr] at this
      exact this

/-- The digits of a decimal, and where its point is. -/
inductive DecimalParts (coeff : Nat) (exp : Int) : PyStr → Prop
  | whole {x : PyStr} (h : ExpText exp (lowerAscii x)) (hx : ∀ c ∈ x, NumChar c) : DecimalParts coeff exp (natStr coeff ++ x)
  | point {w f x : PyStr} {e : Int} (hw : AllDigits w) (hf : AllDigits f) (hne : w ≠ []) (hf1 : f ≠ [])
      (hn : numOf (w ++ f) = coeff) (h : ExpText e (lowerAscii x)) (hx : ∀ c ∈ x, NumChar c) (he : e - (f.length : Int) = exp) :
      DecimalParts coeff exp (w ++ 46 :: (f ++ x))

theorem signedText_num (n : Int) : ∀ c ∈ 69 :: signedText n, NumChar c := by
  intro c hc
  rcases List.mem_cons.mp hc with rfl | hc
  · unfold NumChar; omega
  · unfold signedText at hc
    cases n with
    | ofNat n =>
      rw [if_neg (by simp)] at hc
      rcases List.mem_cons.mp hc with rfl | hc
      · unfold NumChar; omega
      · exact (natStr_allDigits n).num c hc
    | negSucc n =>
      rw [if_pos (by omega)] at hc
      rcases List.mem_cons.mp hc with rfl | hc
      · unfold NumChar; omega
      · exact (natStr_allDigits (n + 1)).num c hc

theorem decimalDigits_parts (coeff : Nat) (exp : Int) : DecimalParts coeff exp (decimalDigits coeff exp) := by
  have hd := natStr_allDigits coeff
  have hne := natStr_ne_nil coeff
  have hl : 0 < (natStr coeff).length := List.length_pos_iff.mpr hne
  have hv := numOf_natStr coeff
  generalize hds : natStr coeff = ds at hd hne hl hv
  unfold decimalDigits
  rw [hds]
  dsimp only
  by_cases hp : exp ≤ 0 ∧ exp + (ds.length : Int) > -6
  · simp only [if_pos hp]
    by_cases h0 : exp + (ds.length : Int) ≤ 0
    · rw [if_pos h0]
      refine cast ?_ (DecimalParts.point (coeff := coeff) (exp := exp) (w := [48]) (f := List.replicate (-(exp + (ds.length : Int))).toNat 48 ++ ds) (x := []) (e := 0) (by
        intro c hc; simp at hc; omega) ((allDigits_zeros _).append hd) (by simp) (by simp [hne]) ?_ .none (by simp) ?_)
      rotate_left
      · rw [← List.append_assoc, numOf_append, hv, numOf_append, numOf_zeros]; simp [numOf, digitsVal]
      · simp only [List.length_append, List.length_replicate]; omega
      · simp
    · rw [if_neg h0]
      by_cases h1 : exp + (ds.length : Int) ≥ ds.length
      · rw [if_pos h1]
        have : exp = 0 := by omega
        subst this
        rw [show (0 + (ds.length : Int) - ds.length).toNat = 0 by omega]
        have := DecimalParts.whole (coeff := coeff) (exp := 0) (x := []) .none (by simp)
        rw [hds] at this
        simpa using this
      · rw [if_neg h1]
        have := DecimalParts.point (coeff := coeff) (exp := exp) (x := []) (e := 0) (hd.take (exp + (ds.length : Int)).toNat)
          (hd.drop (exp + (ds.length : Int)).toNat) (by simp [hne]; omega) (by simp; omega)
          (by rw [List.take_append_drop]; exact hv) .none (by simp) (by simp; omega)
        simpa using this
  · simp only [if_neg hp]
    simp only [show ¬ ((1 : Int) ≤ 0) by omega, ↓reduceIte]
    have hx := exp_signed (exp + (ds.length : Int) - 1)
    have hxn := signedText_num (exp + (ds.length : Int) - 1)
    by_cases h1 : (1 : Int) ≥ ds.length
    · have hl1 : ds.length = 1 := by omega
      rw [if_pos h1, show ((1 : Int) - ds.length).toNat = 0 by omega]
      have he : exp + (ds.length : Int) - 1 = exp := by omega
      by_cases h2 : exp + (ds.length : Int) = 1
      · rw [if_pos h2]
        have : exp = 0 := by omega
        subst this
        have := DecimalParts.whole (coeff := coeff) (exp := 0) (x := []) .none (by simp)
        rw [hds] at this
        simpa using this
      · rw [if_neg h2]
        rw [he] at hx hxn ⊢
        have := DecimalParts.whole (coeff := coeff) hx hxn
        rw [hds] at this
        simpa using this
    · rw [if_neg h1]
      by_cases h2 : exp + (ds.length : Int) = 1
      · exfalso; apply hp; omega
      · rw [if_neg h2]
        have := DecimalParts.point (coeff := coeff) (exp := exp) (hd.take 1) (hd.drop 1) (by simp [hne])
          (fun h => by have := congrArg List.length h; rw [List.length_drop, List.length_nil] at this; omega)
          (by rw [List.take_append_drop]; exact hv) hx hxn (by simp; omega)
        simpa using this

theorem DecimalParts.num {coeff : Nat} {exp : Int} {s : PyStr} (h : DecimalParts coeff exp s) : ∀ c ∈ s, NumChar c := by
  intro c hc
  cases h with
  | whole h hx =>
    rcases List.mem_append.mp hc with hc | hc
    · exact (natStr_allDigits coeff).num c hc
    · exact hx c hc
  | point hw hf hne hf1 hn h hx he =>
    simp only [List.mem_append, List.mem_cons] at hc
    rcases hc with hc | rfl | hc | hc
    · exact hw.num c hc
    · unfold NumChar; omega
    · exact hf.num c hc
    · exact hx c hc

theorem DecimalParts.scan {coeff : Nat} {exp : Int} {s : PyStr} (h : DecimalParts coeff exp s) :
    scanNumber (lowerAscii s) = some (coeff, exp) ∧ ∃ c, (lowerAscii s).head? = some c ∧ 48 ≤ c ∧ c ≤ 57 := by
  cases h with
  | @whole x h hx =>
    rw [lower_append, (natStr_allDigits coeff).lower, scan_whole (natStr_allDigits coeff) (natStr_ne_nil coeff) h, numOf_natStr]
    refine ⟨rfl, ?_⟩
    have hd := natStr_allDigits coeff
    obtain ⟨c, cs, hc⟩ := List.exists_cons_of_ne_nil (natStr_ne_nil coeff)
    rw [hc] at hd ⊢
    exact ⟨c, rfl, hd c (by simp)⟩
  | @point w f x e hw hf hne hf1 hn h hx he =>
    have : lowerAscii (w ++ 46 :: (f ++ x)) = w ++ 46 :: (f ++ lowerAscii x) := by
      rw [lower_append, hw.lower, show lowerAscii (46 :: (f ++ x)) = 46 :: lowerAscii (f ++ x) from rfl, lower_append, hf.lower]
    rw [this, scan_point hw hf (by simp [hne]) h, hn, he]
    refine ⟨rfl, ?_⟩
    obtain ⟨c, cs, rfl⟩ := List.exists_cons_of_ne_nil hne
    exact ⟨c, rfl, hw c (by simp)⟩

theorem decimal_finite (neg : Bool) (coeff : Nat) (exp : Int) :
    decimalOfText (PyDecimal.text (.finite neg coeff exp)) = .ok (.finite neg coeff exp) := by
  have hp := decimalDigits_parts coeff exp
  obtain ⟨h1, h2⟩ := hp.scan
  unfold PyDecimal.text PyDecimal.str
  rw [decimal_text rfl hp.num (fun c hc => by obtain ⟨d, hd, hr⟩ := h2; rw [hd] at hc; cases hc; omega),
    digitsHead_special h2, h1]
  rfl

theorem payload_text (neg signaling : Bool) (p : Nat) :
    decimalOfText (PyDecimal.text (.nan neg signaling p)) = .ok (.nan neg signaling p) := by
  have hp : AllDigits (if p = 0 then [] else natStr p) := by
    split
    · intro c hc; cases hc
    · exact natStr_allDigits p
  have hv : numOf (if p = 0 then [] else natStr p) = p := by
    split
    · rename_i h; subst h; rfl
    · exact numOf_natStr p
  show decimalOfText (upperAscii (signText neg ((if signaling then txt! "sNaN" else txt! "NaN") ++
    (if p = 0 then ([] : PyStr) else natStr p)))) = _
  generalize (if p = 0 then ([] : PyStr) else natStr p) = x at hp hv
  cases signaling with
  | false =>
    simp only [Bool.false_eq_true, ↓reduceIte]
    have hl : lowerAscii (txt! "NaN" ++ x) = txt! "nan" ++ x := by rw [lower_append, hp.lower]; rfl
    rw [decimal_text rfl (fun c hc => by
        rcases List.mem_append.mp hc with hc | hc
        · simp at hc; unfold NumChar; omega
        · exact hp.num c hc) (by rw [hl]; simp), hl]
    have : decimalOfLower neg (txt! "nan" ++ x) = some (.nan neg false p) := by
      unfold decimalOfLower
      rw [if_neg (by simp), if_pos (by rw [List.isPrefixOf_iff_prefix]; exact ⟨x, rfl⟩),
        show (txt! "nan" ++ x).drop 3 = x from rfl, if_pos hp.all, ← hv]
      rfl
    rw [this]
  | true =>
    simp only [↓reduceIte]
    have hl : lowerAscii (txt! "sNaN" ++ x) = txt! "snan" ++ x := by rw [lower_append, hp.lower]; rfl
    rw [decimal_text rfl (fun c hc => by
        rcases List.mem_append.mp hc with hc | hc
        · simp at hc; unfold NumChar; omega
        · exact hp.num c hc) (by rw [hl]; simp), hl]
    have : decimalOfLower neg (txt! "snan" ++ x) = some (.nan neg true p) := by
      unfold decimalOfLower
      rw [if_neg (by simp), if_neg (by simp [List.isPrefixOf]), if_pos (by rw [List.isPrefixOf_iff_prefix]; exact ⟨x, rfl⟩),
        show (txt! "snan" ++ x).drop 4 = x from rfl, if_pos hp.all, ← hv]
      rfl
    rw [this]

theorem decimal_back (d : PyDecimal) : decimalOfText d.text = .ok d := by
  cases d with
  | finite neg coeff exp => exact decimal_finite neg coeff exp
  | infinity neg => cases neg <;> decide +kernel
  | nan neg signaling p => exact payload_text neg signaling p

end Verif
