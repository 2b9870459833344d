import Verif.Proof.Enum

/-! # Enums and flags (C44) -/

namespace Verif

/-- C44: the name shown is the name of the member; only `none` of a class for PowerShell is shown as
`None`. -/
theorem C44_shown (n : PyStr) : shownName false n = n ∧ (n ≠ txt! "none" → shownName true n = n) ∧
    shownName true (txt! "none") = txt! "None" :=
  ⟨by unfold shownName; rw [if_neg (by simp)], fun h => by unfold shownName; rw [if_neg fun e => h e.1], by decide⟩

/-- The text of a flag lists, in the order of definition, exactly the names of the members that are
set. Classes with an alias are excluded, see `C44_alias_violated`. -/
theorem C44_partial_names {ps : Bool} {ms : Members Nat} (hc : CleanClass ps ms) {v : Nat}
    (hex : ∃ m ∈ ms, m.2 ≠ 0 ∧ BitsIn m.2 v) :
    ∃ xs : Members Nat, xs.Sublist ms ∧ (∀ m, m ∈ xs ↔ m ∈ ms ∧ m.2 ≠ 0 ∧ BitsIn m.2 v) ∧
      splitComma (flagText ps ms v) = xs.map fun m => shownName ps m.1 := by
  refine ⟨listed ms v, listed_sublist ms v, fun m => mem_listed hex, ?_⟩
  rw [flagText_eq hc.values]
  apply split_join
  · obtain ⟨m, hm, h0, hb⟩ := hex
    have := (mem_listed ⟨m, hm, h0, hb⟩).mpr ⟨hm, h0, hb⟩
    intro h
    rw [List.map_eq_nil_iff] at h
    rw [h] at this
    cases this
  · intro n hn
    obtain ⟨m, hm, rfl⟩ := List.mem_map.mp hn
    exact shownName_comma (hc.comma m ((listed_sublist ms v).subset hm))

/-- The text of the zero value is the name of the zero member, and empty without one. -/
theorem C44_partial_zero {ps : Bool} {ms : Members Nat} (hc : CleanClass ps ms) :
    (∀ n, (n, 0) ∈ ms → flagText ps ms 0 = shownName ps n) ∧
    ((∀ m ∈ ms, m.2 ≠ 0) → flagText ps ms 0 = []) := by
  constructor
  · intro n hn
    rw [flagText_eq hc.values, listed_zero hc.values]
    have : ms.find? (·.2 = 0) = some (n, 0) := by
      have h1 := memberName_eq hc.values hn
      cases hf : ms.find? (·.2 = 0) with
      | none =>
        have := List.find?_eq_none.mp hf _ hn
        simp at this
      | some m =>
        have h2 := List.find?_some hf
        simp only [memberName, hf, Option.map_some, Option.getD_some] at h1
        simp only [decide_eq_true_eq] at h2
        rw [← h1, ← h2]
    rw [this]
    rfl
  · intro h
    rw [flagText_eq hc.values, listed_zero hc.values]
    have : ms.find? (·.2 = 0) = none := by
      rw [List.find?_eq_none]
      intro m hm
      simpa using h m hm
    rw [this]
    rfl

/-- The union of the listed members is the value, for every union of members. -/
theorem C44_partial_union {ps : Bool} {ms : Members Nat} (hc : CleanClass ps ms) {v : Nat} (hv : IsUnion ms v) :
    readFlags ps ms (flagText ps ms v) = some v := readFlags_text hc hv

/-- The same for a class of single bits and every value that Python accepts for it. -/
theorem C44_partial {ps : Bool} {ms : Members Nat} (hc : CleanClass ps ms)
    (h1 : ∀ m ∈ ms, m.2 = 0 ∨ ∃ k, m.2 = 2 ^ k) {n v : Nat} (hv : flagOf true ms n = .ok v) :
    v = n ∧ readFlags ps ms (flagText ps ms v) = some v := by
  unfold flagOf at hv
  split at hv
  · cases hv
  · rename_i h
    cases hv
    simp only [true_and, ne_eq, Decidable.not_not] at h
    exact ⟨rfl, readFlags_text hc (isUnion_of_mask h1 ((and_eq_iff _ _).mp h))⟩

/-- So two values of such a class never share a text. -/
theorem C44_partial_inj {ps : Bool} {ms : Members Nat} (hc : CleanClass ps ms) {v w : Nat} (hv : IsUnion ms v)
    (hw : IsUnion ms w) (h : flagText ps ms v = flagText ps ms w) : v = w := by
  have h1 := readFlags_text hc hv
  have h2 := readFlags_text hc hw
  rw [h, h2] at h1
  cases h1
  rfl

/-- The operators of flags stay inside the class, and never raise. -/
theorem C44_operators (strict : Bool) {ms : Members Nat} {m n a b : Nat} (ha : flagOf strict ms m = .ok a)
    (hb : flagOf strict ms n = .ok b) :
    flagOr strict ms a b = .ok (a ||| b) ∧ flagAnd strict ms a b = .ok (a &&& b) ∧
    flagXor strict ms a b = .ok (a ^^^ b) := by
  have key : ∀ {x y}, flagOf strict ms x = .ok y → strict = true → BitsIn y (flagMask ms) := by
    intro x y h hs
    unfold flagOf at h
    split at h
    · cases h
    · rename_i hh
      cases h
      simp only [hs, true_and, ne_eq, Decidable.not_not] at hh
      exact (and_eq_iff _ _).mp hh
  have make : ∀ x, (strict = true → BitsIn x (flagMask ms)) → flagOf strict ms x = .ok x := by
    intro x h
    unfold flagOf
    rw [if_neg]
    rintro ⟨hs, hx⟩
    exact hx ((and_eq_iff _ _).mpr (h hs))
  have pa := key ha
  have pb := key hb
  refine ⟨make _ fun hs i hi => ?_, make _ fun hs i hi => ?_, make _ fun hs i hi => ?_⟩
  · rw [Nat.testBit_or, Bool.or_eq_true] at hi
    exact hi.elim (pa hs i) (pb hs i)
  · rw [Nat.testBit_and, Bool.and_eq_true] at hi
    exact pa hs i hi.1
  · rw [Nat.testBit_xor] at hi
    cases h : a.testBit i with
    | true => exact pa hs i h
    | false => rw [h] at hi; exact pb hs i (by simpa using hi)

/-- The text of an enum value is the name of its member, zero included. -/
theorem C44_enum {ps : Bool} {ms : Members Int} (hc : CleanClass ps ms) {n : PyStr} {v : Int} (h : (n, v) ∈ ms) :
    enumText ps ms v = shownName ps n ∧ enumOf ms v = .ok v := by
  constructor
  · unfold enumText
    rw [memberName_eq hc.values h]
    rfl
  · unfold enumOf
    rw [if_pos]
    rw [List.any_eq_true]
    exact ⟨_, h, by simp⟩

/-- A number that no member has is refused. -/
theorem C44_enum_refused {ms : Members Int} {v : Int} (h : ∀ m ∈ ms, m.2 ≠ v) : enumOf ms v = .error .valueError := by
  unfold enumOf
  rw [if_neg]
  rw [List.any_eq_true]
  rintro ⟨m, hm, he⟩
  exact h m hm (by simpa using he)

/-- `ControlKeyStates` meets the hypotheses: every value is recovered from its text. -/
theorem controlKeyStates_clean : CleanClass true controlKeyStates :=
  ⟨by decide +kernel, by decide +kernel, by decide +kernel, by decide +kernel⟩

theorem controlKeyStates_bits : ∀ m ∈ controlKeyStates, m.2 = 0 ∨ ∃ k, m.2 = 2 ^ k := by
  intro m hm
  simp only [controlKeyStates, List.mem_cons, List.not_mem_nil, or_false] at hm
  rcases hm with rfl | rfl | rfl | rfl | rfl | rfl | rfl | rfl | rfl | rfl
  · exact .inl rfl
  · exact .inr ⟨0, rfl⟩
  · exact .inr ⟨1, rfl⟩
  · exact .inr ⟨2, rfl⟩
  · exact .inr ⟨3, rfl⟩
  · exact .inr ⟨4, rfl⟩
  · exact .inr ⟨5, rfl⟩
  · exact .inr ⟨6, rfl⟩
  · exact .inr ⟨7, rfl⟩
  · exact .inr ⟨8, rfl⟩

example : flagOf true controlKeyStates 17 = .ok 17 ∧
    flagText true controlKeyStates 17 = lit "RightAltPressed, ShiftPressed" ∧
    flagText true controlKeyStates 0 = lit "None" := by decide +kernel

example : readFlags true controlKeyStates (flagText true controlKeyStates 17) = some 17 :=
  (C44_partial controlKeyStates_clean controlKeyStates_bits (n := 17) (by decide +kernel)).2

example : IsUnion controlKeyStates 17 := ⟨[1, 16], by decide +kernel, by decide +kernel⟩

example : ∃ m ∈ controlKeyStates, m.2 ≠ 0 ∧ BitsIn m.2 17 :=
  ⟨(lit "ShiftPressed", 16), by decide +kernel, by decide, (and_eq_iff _ _).mp (by decide)⟩

example : enumText true [(lit "none", 0), (lit "Black", 1)] 0 = lit "None" := by decide +kernel

example : CleanClass true ([(lit "none", 0), (lit "Black", 1)] : Members Int) :=
  ⟨by decide +kernel, by decide +kernel, by decide +kernel, by decide +kernel⟩

/-- With an alias the name is listed twice: `PSCredentialUIOptions.Default` is another name for
`ValidateUserNameSyntax`. -/
theorem C44_alias_violated :
    ¬ ∀ v : Nat, (splitComma (flagText true credentialUIOptions v)).Nodup := by
  intro h
  have := h 1
  revert this
  decide +kernel

/-- Before Python 3.11 a value with unknown bits only is shown as the zero member. -/
theorem C44_unknown_violated :
    ¬ ∀ n v : Nat, flagOf false controlKeyStates n = .ok v →
      readFlags true controlKeyStates (flagText true controlKeyStates v) = some v := by
  intro h
  have := h 512 512 rfl
  revert this
  decide +kernel

/-- `PipelineResultTypes` numbers its members without leaving them single bits: the text of `Warning`
lists three members. -/
theorem C44_overlap_violated :
    ¬ ∀ n v, (n, v) ∈ pipelineResultTypes → flagText true pipelineResultTypes v = shownName true n := by
  intro h
  have := h (lit "Warning") 3 (by decide +kernel)
  revert this
  decide +kernel

end Verif
