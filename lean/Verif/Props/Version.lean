import Verif.Proof.Version

/-! # C28: version order and text -/

namespace Verif

open PSVersion

/-- C28 (order): `<` is the component order in which a missing component comes first. -/
theorem C28_lt_is_component_order (a b : PSVersion) (ha : a.WellFormed) (hb : b.WellFormed) :
    a.lt b = true ↔ a.Before b := by
  rw [← cmp_lt_iff ha hb]; simp [lt]

/-- C28 (order): `==` is equality of all components. -/
theorem C28_eq_is_component_equality (a b : PSVersion) (ha : a.WellFormed) (hb : b.WellFormed) :
    a.eq b = true ↔ a = b := by
  constructor
  · intro h
    exact tuple_inj ha hb ((tupleCmp_eq _ _).mp (by simpa [eq, cmp] using h))
  · rintro rfl
    simpa [eq, cmp] using (tupleCmp_eq _ _).mpr rfl

/-- C28 (order): exactly one of `<`, `==`, `>` holds, `>` is the converse of `<`, and
`<=`, `>=` are the unions with `==`. -/
theorem C28_trichotomy (a b : PSVersion) :
    ((a.lt b = true ∧ a.eq b = false ∧ a.gt b = false) ∨
     (a.lt b = false ∧ a.eq b = true ∧ a.gt b = false) ∨
     (a.lt b = false ∧ a.eq b = false ∧ a.gt b = true)) ∧
    a.gt b = b.lt a ∧ a.le b = (a.lt b || a.eq b) ∧ a.ge b = (a.gt b || a.eq b) := by
  have hs : b.cmp a = (a.cmp b).swap := tupleCmp_swap _ _
  unfold lt eq gt le ge
  rw [hs]
  cases a.cmp b <;> decide

/-- C28 (order): `<` is transitive and irreflexive on constructed versions. -/
theorem C28_strict_order (a b c : PSVersion) (ha : a.WellFormed) (hb : b.WellFormed)
    (hc : c.WellFormed) :
    a.lt a = false ∧ (a.lt b = true → b.lt c = true → a.lt c = true) := by
  constructor
  · have h1 := (C28_trichotomy a a).1
    have h2 := (C28_eq_is_component_equality a a ha ha).mpr rfl
    rw [h2] at h1
    exact (by simpa using h1 : a.lt a = false ∧ a.gt a = false).1
  · rw [C28_lt_is_component_order a b ha hb, C28_lt_is_component_order b c hb hc,
      C28_lt_is_component_order a c ha hc]
    obtain ⟨a1, a2, a3, a4⟩ := a
    obtain ⟨b1, b2, b3, b4⟩ := b
    obtain ⟨c1, c2, c3, c4⟩ := c
    have key : ∀ x y z : Option Int, compBefore x y → compBefore y z → compBefore x z := by
      intro x y z
      cases x <;> cases y <;> cases z <;> simp [compBefore]
      omega
    unfold Before
    simp only
    have k3 := key a3 b3 c3
    have k4 := key a4 b4 c4
    rintro (h | ⟨rfl, h | ⟨rfl, h | ⟨rfl, h⟩⟩⟩) (g | ⟨rfl, g | ⟨rfl, g | ⟨rfl, g⟩⟩⟩) <;>
      first
        | exact Or.inl (by omega)
        | exact Or.inr ⟨rfl, Or.inl (by omega)⟩
        | exact Or.inr ⟨rfl, Or.inr ⟨rfl, Or.inl (k3 h g)⟩⟩
        | exact Or.inr ⟨rfl, Or.inr ⟨rfl, Or.inl h⟩⟩
        | exact Or.inr ⟨rfl, Or.inr ⟨rfl, Or.inl g⟩⟩
        | exact Or.inr ⟨rfl, Or.inr ⟨rfl, Or.inr ⟨rfl, k4 h g⟩⟩⟩
        | exact Or.inr ⟨rfl, Or.inl h⟩
        | exact Or.inr ⟨rfl, Or.inl g⟩
        | exact Or.inl h
        | exact Or.inl g

example : PSVersion.WellFormed ⟨2, 3, none, none⟩ ∧ PSVersion.WellFormed ⟨2, 3, some 0, none⟩ ∧
    PSVersion.lt ⟨2, 3, none, none⟩ ⟨2, 3, some 0, none⟩ = true ∧
    PSVersion.lt ⟨2, 3, some 0, none⟩ ⟨2, 10, none, none⟩ = true := by
  simp [WellFormed]; decide

/-- C28 (construction): the keyword constructor only builds well formed versions, and
builds every one of them. -/
theorem C28_constructor (v : PSVersion) :
    v.WellFormed ↔ ∃ ma mi bu re, PSVersion.ofParts ma mi bu re = .ok v := by
  obtain ⟨a1, a2, a3, a4⟩ := v
  constructor
  · intro h
    refine ⟨some a1, some a2, a3, a4, ?_⟩
    unfold WellFormed at h
    cases a3 <;> cases a4 <;> simp_all [ofParts]
  · rintro ⟨ma, mi, bu, re, h⟩
    unfold ofParts at h
    split at h
    · split at h
      · cases h
      · rename_i hne
        injection h with h; cases h
        intro hb
        cases a4 <;> simp_all
    · cases h

/-- C28 (text), partial: printing then parsing gives the version back when no component
is negative. Missing: negative components, which the keyword constructor admits; see
`C28_text_violated`. -/
theorem C28_text_partial (uni : Nat → Option Nat) (hu : ExtendsAscii uni) (v : PSVersion)
    (hw : v.WellFormed) (h1 : 0 ≤ v.major) (h2 : 0 ≤ v.minor)
    (h3 : ∀ b, v.build = some b → 0 ≤ b) (h4 : ∀ r, v.revision = some r → 0 ≤ r) :
    PSVersion.parse uni v.str = .ok v := by
  have key : DottedText uni v.str v := by
    obtain ⟨a1, a2, a3, a4⟩ := v
    simp only at h1 h2 h3 h4
    obtain ⟨n1, rfl⟩ := Int.eq_ofNat_of_zero_le h1
    obtain ⟨n2, rfl⟩ := Int.eq_ofNat_of_zero_le h2
    refine ⟨natStr n1, n1, natStr n2, n2, numeral_natStr uni hu _, numeral_natStr uni hu _, ?_⟩
    cases a3 with
    | none =>
      have : a4 = none := hw rfl
      subst this
      left; exact ⟨by simp [str, tuple, joinDots, intStr, lit], rfl⟩
    | some b =>
      obtain ⟨n3, rfl⟩ := Int.eq_ofNat_of_zero_le (h3 b rfl)
      right
      refine ⟨natStr n3, n3, numeral_natStr uni hu _, ?_⟩
      cases a4 with
      | none => left; exact ⟨by simp [str, tuple, joinDots, intStr, lit], rfl⟩
      | some r =>
        obtain ⟨n4, rfl⟩ := Int.eq_ofNat_of_zero_le (h4 r rfl)
        right
        exact ⟨natStr n4, n4, numeral_natStr uni hu _,
          by simp [str, tuple, joinDots, intStr, lit], rfl⟩
  unfold parse
  rw [if_neg (dottedText_ne_nil key),
    (scanVersion_iff uni hu _ _).mpr ⟨_, [], by simp, Or.inl rfl, key⟩]

/-- `asciiDigit` restricted to ASCII is an instance of `uni`. -/
example : ExtendsAscii asciiDigit := fun _ _ => rfl

example : PSVersion.str ⟨10, 0, some 19041, some 7⟩ = lit "10.0.19041.7" ∧
    PSVersion.parse asciiDigit (lit "10.0.19041.7") = .ok ⟨10, 0, some 19041, some 7⟩ := by
  decide +kernel

/-- C28 (text), violated: `PSVersion(major=-1, minor=0)` is accepted, and its text `-1.0`
is refused. -/
theorem C28_text_violated : ∃ v : PSVersion, v.WellFormed ∧
    PSVersion.ofParts (some (-1)) (some 0) none none = .ok v ∧
    PSVersion.parse asciiDigit v.str = .error .valueError :=
  ⟨⟨-1, 0, none, none⟩, fun _ => rfl, rfl, by decide +kernel⟩

/-- C28 (accepted texts): a text is accepted exactly when it is 2 to 4 dot separated
decimal numbers, optionally followed by one newline, and its components are then the
numbers written. -/
theorem C28_accepted_partial (uni : Nat → Option Nat) (hu : ExtendsAscii uni) (s : PyStr)
    (v : PSVersion) : PSVersion.parse uni s = .ok v ↔
      ∃ t, (s = t ∨ s = t ++ lit "\n") ∧ DottedText uni t v := by
  unfold parse
  constructor
  · intro h
    split at h
    · cases h
    · split at h
      · rename_i w hw
        injection h with h; subst h
        obtain ⟨t, e, rfl, he, ht⟩ := (scanVersion_iff uni hu _ _).mp hw
        rcases he with rfl | rfl
        · exact ⟨t, Or.inl (by simp), ht⟩
        · exact ⟨t, Or.inr rfl, ht⟩
      · cases h
  · rintro ⟨t, h, ht⟩
    have h0 := dottedText_ne_nil ht
    have hs : s ≠ [] := by rcases h with rfl | rfl <;> simp [h0]
    rw [if_neg hs, (scanVersion_iff uni hu s v).mpr]
    rcases h with rfl | rfl
    · exact ⟨s, [], by simp, Or.inl rfl, ht⟩
    · exact ⟨t, _, rfl, Or.inr rfl, ht⟩

/-- The claim "accepts exactly 2 to 4 dot separated numbers" itself is violated: the text
`2.3` followed by a newline is accepted too. -/
theorem C28_accepted_violated : ¬ ∀ s v, PSVersion.parse asciiDigit s = .ok v ↔
    DottedText asciiDigit s v := by
  intro h
  have h1 : PSVersion.parse asciiDigit (lit "2.3\n") = .ok ⟨2, 3, none, none⟩ := by
    decide +kernel
  have h2 := dottedText_chars asciiDigit (fun _ _ => rfl) ((h _ _).mp h1) 10 (by decide)
  exact absurd h2 (by decide)

/-- C28 (accepted texts): every refusal is a `ValueError`. -/
theorem C28_refused (uni : Nat → Option Nat) (s : PyStr) (e : Err)
    (h : PSVersion.parse uni s = .error e) : e = .valueError := by
  unfold parse at h
  split at h
  · cases h; rfl
  · split at h <;> cases h; rfl

example : PSVersion.parse asciiDigit (lit "2") = .error .valueError ∧
    PSVersion.parse asciiDigit (lit "02.3") = .error .valueError ∧
    PSVersion.parse asciiDigit (lit "2.3.4.5.6") = .error .valueError ∧
    PSVersion.parse asciiDigit [] = .error .valueError := by decide +kernel

end Verif
