import Verif.Proof.Guid
import Verif.Proof.Decimals
import Verif.Proof.FloatsRead

/-! # C81, C82, C83: GUIDs, decimals and floats in texts -/

namespace Verif

/-! ## C81: GUIDs -/

/-- C81, writing: every GUID is written in five groups of lower case digits, as the protocol has it. -/
theorem C81_form (n : Nat) (h : n < 2 ^ 128) : GuidGroups HexLow n (guidStr n) := guidStr_groups n h

/-- C81, round trip: the text of a GUID is read as the same GUID. -/
theorem C81_round_trip (n : Nat) (h : n < 2 ^ 128) : guidOfText (guidStr n) = .ok n := guid_back n h

/-- C81, reading: a GUID is read whatever case its digits are in, in groups or in a row, in braces, or as a name. -/
theorem C81_read (n : Nat) (t : PyStr) (h : GuidText n t) : guidOfText t = .ok n := read_guid h

example : guidStr 0x00112233445566778899aabbccddeeff = txt! "00112233-4455-6677-8899-aabbccddeeff" := by decide +kernel

example : guidOfText (txt! "{00112233-4455-6677-8899-AABBccddeeff}") = .ok 0x00112233445566778899aabbccddeeff := by decide +kernel

example : ∃ n, GuidText n (txt! "{00112233-4455-6677-8899-AABBccddeeff}") := by
  obtain ⟨n, hn⟩ := hexDigits_exists (txt! "00112233445566778899AABBccddeeff") (by decide)
  exact ⟨n, .braces (t := txt! "00112233-4455-6677-8899-AABBccddeeff") (.inl ⟨txt! "00112233", txt! "4455", txt! "6677", txt! "8899",
    txt! "AABBccddeeff", rfl, rfl, rfl, rfl, rfl, hn, rfl⟩)⟩

/-- C81, refusing (full statement: a text is read only if it is the text of a GUID; see `C81_read_violated`). A text of digits and
hyphens is read if and only if it has 32 digits; otherwise it is a `ValueError`. The number read is that of the digits. -/
theorem C81_refuse_partial (t : PyStr)
    (h : ∀ c ∈ t, (48 ≤ c ∧ c ≤ 57 ∨ 65 ≤ c ∧ c ≤ 70 ∨ 97 ≤ c ∧ c ≤ 102) ∨ c = 45) :
    ((t.filter (· ≠ 45)).length = 32 → ∃ n, HexDigits HexAny n (t.filter (· ≠ 45)) ∧ n < 2 ^ 128 ∧ guidOfText t = .ok n) ∧
    ((t.filter (· ≠ 45)).length ≠ 32 → guidOfText t = .error .valueError) := by
  have hr := guidRest_chars t (fun c hc => h c hc)
  refine ⟨fun hl => ?_, fun hl => ?_⟩
  · obtain ⟨n, hn⟩ := hexDigits_exists (t.filter (· ≠ 45)) (fun c hc => by
      rw [List.mem_filter] at hc
      rcases h c hc.1 with h | h
      · exact h
      · simp [h] at hc)
    have := hn.lt
    rw [hl] at this
    exact ⟨n, hn, by rwa [show (2 : Nat) ^ 128 = 16 ^ 32 from rfl], guid_of_rest hr hn hl⟩
  · rw [guidOfText_eq, hr, if_pos hl]

example : guidOfText (txt! "00112233-4455-6677-8899-aabbccddeef") = .error .valueError := by decide +kernel

/-- What is not the text of a GUID is read nevertheless: hyphens anywhere, and texts of fewer digits whose rest is what
`int` skips: a prefix, a sign, white space, an underscore. -/
theorem C81_read_violated :
    guidOfText (txt! "0-0-112233445566778899aabbccddeeff") = .ok 0x112233445566778899aabbccddeeff ∧
    guidOfText (txt! "0x112233445566778899aabbccddeeff") = .ok 0x112233445566778899aabbccddeeff ∧
    guidOfText (txt! "+112233445566778899aabbccddeeff1") = .ok 0x0112233445566778899aabbccddeeff1 ∧
    guidOfText (txt! " 112233445566778899aabbccddeeff ") = .ok 0x00112233445566778899aabbccddeeff ∧
    guidOfText (txt! "00112233-4455-6677-8899-aabb_ccddeef") = .ok 0x000112233445566778899aabbccddeef := by decide +kernel

/-! ## C82: decimals -/

/-- C82, round trip: the text of a decimal is read as the same decimal, with the same digits and the same number of them behind
the point, special values included. -/
theorem C82_round_trip (d : PyDecimal) : decimalOfText d.text = .ok d := decimal_back d

example : (PyDecimal.finite true 12300 (-2)).text = txt! "-123.00" := by decide +kernel
example : decimalOfText (txt! "-123.00") = .ok (.finite true 12300 (-2)) := by decide +kernel

/-- C82, reading: every number in plain notation is read as that number, with all its digits. -/
theorem C82_read (neg : Bool) (n k : Nat) (t : PyStr) (h : PlainDecimal neg n k t) :
    decimalOfText t = .ok (.finite neg n (-(k : Int))) := by
  obtain ⟨b, hb, hs⟩ := h.number
  exact decimal_read hb hs

example : PlainDecimal true 12300 2 (txt! "-123.00") :=
  .minus (.point (w := txt! "123") (f := txt! "00") ((natStr_digits 12300 : Digits 12300 (txt! "12300"))) (by simp) (by simp))

/-- C82, reading: numbers with an exponent are read as well, with a sign or without. -/
theorem C82_read_exponent (n : Nat) (e : Int) (t : PyStr) (h : NumberText n e t) :
    decimalOfText t = .ok (.finite false n e) ∧ decimalOfText (43 :: t) = .ok (.finite false n e) ∧
    decimalOfText (45 :: t) = .ok (.finite true n e) :=
  ⟨decimal_read h (.inl ⟨rfl, rfl⟩), decimal_read h (.inr (.inl ⟨rfl, rfl⟩)), decimal_read h (.inr (.inr ⟨rfl, rfl⟩))⟩

example : NumberText 125 (-4) (txt! "1.25e-2") :=
  .point (w := txt! "1") (f := txt! "25") (x := txt! "e-2") (e := -2) ((natStr_digits 125 : Digits 125 (txt! "125"))) (by simp)
    (.minus (.inl rfl) ((natStr_digits 2 : Digits 2 (txt! "2"))) (by simp))

/-- C82, writing (full statement: every decimal is written in plain notation, the only one the protocol has; see
`C82_form_violated`). A decimal is written in plain notation if and only if it is a number without a positive exponent, and not
of so many digits behind the point that the first one other than zero is behind the sixth. -/
theorem C82_form_partial (d : PyDecimal) : (∃ neg n k, PlainDecimal neg n k d.text) ↔
    ∃ neg coeff exp digits, d = .finite neg coeff exp ∧ Decimal coeff digits ∧ exp ≤ 0 ∧
      -6 ≤ exp + ((digits.length : Int) - 1) := by
  rw [decimal_plain_iff]
  constructor
  · rintro ⟨neg, coeff, exp, rfl, h1, h2⟩
    exact ⟨neg, coeff, exp, natStr coeff, rfl, decimal_natStr coeff, h1, by omega⟩
  · rintro ⟨neg, coeff, exp, digits, rfl, hd, h1, h2⟩
    refine ⟨neg, coeff, exp, rfl, h1, ?_⟩
    have : digits = natStr coeff := decimal_unique hd (decimal_natStr coeff)
    subst this
    omega

/-- The number written is the number itself. -/
theorem C82_form_number (neg : Bool) (coeff : Nat) (exp : Int) (n k : Nat) (neg' : Bool)
    (h : PlainDecimal neg' n k (PyDecimal.text (.finite neg coeff exp))) : neg' = neg ∧ n = coeff ∧ exp = -(k : Int) := by
  have h1 := C82_read neg' n k _ h
  rw [C82_round_trip] at h1
  simp only [Except.ok.injEq, PyDecimal.finite.injEq] at h1
  exact ⟨h1.1.symm, h1.2.1.symm, h1.2.2⟩

/-- Decimals that are written in no form the protocol has: a thousand with one digit, and a tenth of a millionth. -/
theorem C82_form_violated :
    (PyDecimal.finite false 1 3).text = txt! "1E+3" ∧ (PyDecimal.finite false 1 (-7)).text = txt! "1E-7" ∧
    (PyDecimal.infinity false).text = txt! "INFINITY" ∧ (PyDecimal.nan false false 0).text = txt! "NAN" ∧
    (∀ neg n k, ¬ PlainDecimal neg n k (txt! "1E+3")) ∧ (∀ neg n k, ¬ PlainDecimal neg n k (txt! "1E-7")) := by
  refine ⟨by decide +kernel, by decide +kernel, by decide +kernel, by decide +kernel, ?_, ?_⟩
  · intro neg n k h
    have := plain_chars h 69 (by simp)
    omega
  · intro neg n k h
    have := plain_chars h 69 (by simp)
    omega

/-- C82, spellings: white space around a decimal, and digits of other scripts in it, change nothing. -/
theorem C82_spelling (t u l r : PyStr) (h : OtherScripts t u) (hl : ∀ c ∈ l, White c) (hr : ∀ c ∈ r, White c) :
    decimalOfText (l ++ u ++ r) = decimalOfText t := decimal_spelling h hl hr

example : decimalOfText ([10] ++ [0x661, 46, 53] ++ [0x3000]) = .ok (.finite false 15 (-1)) := by decide +kernel

/-! ## C83: floats -/

/-- C83, round trip: the text of a float is read as the same float, the sign of zero included. -/
theorem C83_round_trip (x : PyFloat) (h : x.Ok) : floatOfText x.text = .ok x := float_back h

/-- A third, the smallest and the largest double, and the two zeros. -/
example : IsDouble (6004799503160661 * 2 ^ 1020) ∧ IsDouble 1 ∧ IsDouble ((2 ^ 53 - 1) * 2 ^ 2045) ∧ IsDouble 0 :=
  ⟨⟨_, 1020, by decide, by decide, rfl⟩, ⟨1, 0, by decide, by decide, rfl⟩, ⟨_, 2045, by decide, by decide, rfl⟩,
    ⟨0, 0, by decide, by decide, rfl⟩⟩

set_option exponentiation.threshold 3000 in
example : (PyFloat.finite true (6004799503160661 * 2 ^ 1020)).text = txt! "-0.3333333333333333" := by decide +kernel

example : (PyFloat.finite false 1).text = txt! "5E-324" := by decide +kernel

example : (PyFloat.finite true 0).text = txt! "-0.0" := by decide +kernel

/-- C83, writing (full statement: every float is written in the form the protocol has, that of XML schemas; see
`C83_form_violated`). All floats but the one that is no number are. -/
theorem C83_form_partial (x : PyFloat) (h : x.Ok) (hn : x ≠ .nan) : FloatForm x x.text := float_form h hn

/-- The float that is no number is written in upper case, which is not the form of the protocol. -/
theorem C83_form_violated : PyFloat.nan.text = txt! "NAN" ∧ ¬ FloatForm .nan PyFloat.nan.text := by
  refine ⟨rfl, fun h => ?_⟩
  have : ∀ t, FloatForm .nan t → t = txt! "NaN" := by
    intro t h
    cases h
    rfl
  have := this _ h
  revert this
  decide

/-- C83, reading: a number in a text is read as the double next to it, of two the even one; if it is too large for all doubles, as
infinity. The sign is kept. -/
theorem C83_read (n : Nat) (e : Int) (t : PyStr) (h : NumberText n e t) :
    (∃ u, NearestDouble (numerator n e) (denominator e) u ∧ ¬ TooLarge (numerator n e) (denominator e) ∧
      floatOfText t = .ok (.finite false u) ∧ floatOfText (43 :: t) = .ok (.finite false u) ∧
      floatOfText (45 :: t) = .ok (.finite true u)) ∨
    (TooLarge (numerator n e) (denominator e) ∧ floatOfText t = .ok (.infinity false) ∧
      floatOfText (43 :: t) = .ok (.infinity false) ∧ floatOfText (45 :: t) = .ok (.infinity true)) := by
  have h1 := float_read (neg := false) h (.inl ⟨rfl, rfl⟩)
  have h2 := float_read (neg := false) h (.inr (.inl ⟨rfl, rfl⟩))
  have h3 := float_read (neg := true) h (.inr (.inr ⟨rfl, rfl⟩))
  have hd : 0 < denominator e := Nat.pow_pos (by omega)
  rw [nearestDecimal_units] at h1 h2 h3
  cases hn : nearestUnits (numerator n e) (denominator e) with
  | some u =>
    rw [hn] at h1 h2 h3
    exact .inl ⟨u, nearestUnits_nearest hd hn,
      fun ht => by rw [(nearestUnits_none hd).mpr ht] at hn; exact absurd hn (by simp), h1, h2, h3⟩
  | none =>
    rw [hn] at h1 h2 h3
    exact .inr ⟨(nearestUnits_none hd).mp hn, h1, h2, h3⟩

/-- The specials, as other peers write them. -/
theorem C83_read_specials : floatOfText (txt! "NaN") = .ok .nan ∧ floatOfText (txt! "INF") = .ok (.infinity false) ∧
    floatOfText (txt! "-INF") = .ok (.infinity true) ∧ floatOfText (txt! "Infinity") = .ok (.infinity false) ∧
    floatOfText (txt! "-Infinity") = .ok (.infinity true) := by decide +kernel

/-- C83, spellings: white space around a float, and digits of other scripts in it, change nothing. -/
theorem C83_spelling (t u l r : PyStr) (h : OtherScripts t u) (hl : ∀ c ∈ l, White c) (hr : ∀ c ∈ r, White c) :
    floatOfText (l ++ u ++ r) = floatOfText t := float_spelling h hl hr

/-- `1.5` with an Arabic digit, between a no-break space and an ideographic one. -/
example : OtherScripts (txt! "1.5") [0x661, 46, 53] ∧ floatOfText ([0xA0] ++ [0x661, 46, 53] ++ [0x3000]) = floatOfText (txt! "1.5") ∧
    floatOfText (txt! "1.5") = .ok (.finite false (3 * 2 ^ 1073)) :=
  have h : OtherScripts (txt! "1.5") [0x661, 46, 53] := .digit (d := 1) ⟨by decide, 0x660, by decide +kernel, rfl⟩ (.same 46 (.same 53 .nil))
  ⟨h, C83_spelling _ _ _ _ h (by simp [White]) (by simp [White]), by decide +kernel⟩

set_option exponentiation.threshold 3000 in
/-- C83, singles: `PSSingle` is no single but a double, so values are written that the type of the protocol does not have, here
0.1, and a plain float of Python is written as a `PSSingle` too. -/
theorem C83_single_violated : ∃ u, IsDouble u ∧ ¬ IsSingle u ∧ floatOfText (txt! "0.1") = .ok (.finite false u) ∧
    (PyFloat.finite false u).text = txt! "0.1" := by
  refine ⟨7205759403792794 * 2 ^ 1018, ⟨_, 1018, by decide, by decide, rfl⟩, ?_, by decide +kernel, by decide +kernel⟩
  rintro ⟨m, e, hm, he, h⟩
  have := single_bound 7205759403792794 1018 (925 + e) m (by decide) (by decide) h
  omega

end Verif
