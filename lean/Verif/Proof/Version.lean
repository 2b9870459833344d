import Verif.Spec.Version

/-! # Lemmas about numbers as text and about versions -/

namespace Verif

/-! ## decimal text -/

theorem digitsVal_append (a b : List Nat) :
    digitsVal (a ++ b) = b.foldl (fun acc d => acc * 10 + d) (digitsVal a) := by
  simp [digitsVal]

theorem natDigitsAux_ascii : ∀ fuel n, ∀ c ∈ natDigitsAux fuel n, 48 ≤ c ∧ c ≤ 57 := by
  intro fuel
  induction fuel with
  | zero => intro n c hc; simp [natDigitsAux] at hc
  | succ f ih =>
    intro n c hc
    unfold natDigitsAux at hc
    split at hc
    · simp at hc; omega
    · rcases List.mem_append.mp hc with h | h
      · exact ih _ _ h
      · simp at h; omega

theorem natDigitsAux_val : ∀ fuel n, n < fuel →
    digitsVal ((natDigitsAux fuel n).map (· - 48)) = n := by
  intro fuel
  induction fuel with
  | zero => intro n h; omega
  | succ f ih =>
    intro n h
    unfold natDigitsAux
    split
    · simp [digitsVal]
    · rw [List.map_append, digitsVal_append, ih _ (by omega)]
      simp; omega

theorem natDigitsAux_head : ∀ fuel n, n < fuel →
    ∃ c cs, natDigitsAux fuel n = c :: cs ∧ (n = 0 → c = 48 ∧ cs = []) ∧ (n ≠ 0 → 49 ≤ c) := by
  intro fuel
  induction fuel with
  | zero => intro n h; omega
  | succ f ih =>
    intro n h
    unfold natDigitsAux
    split
    · exact ⟨48 + n, [], rfl, by intro h; simp [h], by intro; omega⟩
    · obtain ⟨c, cs, e, _, h2⟩ := ih (n / 10) (by omega)
      exact ⟨c, cs ++ [48 + n % 10], by rw [e]; rfl, by intro h; omega, by
        intro _; exact h2 (by omega)⟩

theorem natStr_ascii (n : Nat) : ∀ c ∈ natStr n, 48 ≤ c ∧ c ≤ 57 := natDigitsAux_ascii _ _

theorem natStr_val (n : Nat) : digitsVal ((natStr n).map (· - 48)) = n :=
  natDigitsAux_val _ _ (by omega)

theorem natStr_zero : natStr 0 = lit "0" := by decide

theorem natStr_pos (n : Nat) (h : n ≠ 0) : ∃ c cs, natStr n = c :: cs ∧ 49 ≤ c ∧ c ≤ 57 := by
  obtain ⟨c, cs, e, _, h2⟩ := natDigitsAux_head (n + 1) n (by omega)
  exact ⟨c, cs, e, h2 h, (natStr_ascii n c (by unfold natStr; rw [e]; simp)).2⟩

theorem natStr_ne_nil (n : Nat) : natStr n ≠ [] := by
  obtain ⟨c, cs, e, _, _⟩ := natDigitsAux_head (n + 1) n (by omega)
  unfold natStr; rw [e]; simp

theorem numeral_natStr (uni : Nat → Option Nat) (hu : ExtendsAscii uni) (n : Nat) :
    Numeral uni (natStr n) n := by
  by_cases h : n = 0
  · left; subst h; exact ⟨natStr_zero, rfl⟩
  · right
    obtain ⟨c, cs, e, h1, h2⟩ := natStr_pos n h
    refine ⟨c, cs, cs.map (· - 48), e, h1, h2, ?_, ?_⟩
    · rw [List.map_map]
      apply List.map_congr_left
      intro x hx
      have := natStr_ascii n x (by rw [e]; simp [hx])
      rw [hu x (by omega)]
      simp [asciiDigit, this]
    · have := natStr_val n
      rw [e] at this; simpa using this.symm

/-! ## the scanners -/

namespace PSVersion

theorem scanDigits_spec (uni : Nat → Option Nat) (s : PyStr) :
    ∃ cs, s = cs ++ (scanDigits uni s).2 ∧ cs.map uni = (scanDigits uni s).1.map some ∧
      (∀ c r, (scanDigits uni s).2 = c :: r → uni c = none) := by
  induction s with
  | nil => exact ⟨[], by simp [scanDigits]⟩
  | cons c cs ih =>
    unfold scanDigits
    cases h : uni c with
    | none => exact ⟨[], by simp, by simp, by simp [h]⟩
    | some d =>
      obtain ⟨ds, h1, h2, h3⟩ := ih
      refine ⟨c :: ds, ?_, ?_, ?_⟩
      · simp; exact h1
      · simp [h, h2]
      · simpa using h3

theorem scanDigits_exact (uni : Nat → Option Nat) (cs rest : PyStr) (ds : List Nat)
    (h : cs.map uni = ds.map some) (hr : ∀ c r, rest = c :: r → uni c = none) :
    scanDigits uni (cs ++ rest) = (ds, rest) := by
  induction cs generalizing ds with
  | nil =>
    have : ds = [] := by cases ds <;> simp_all
    subst this
    cases rest with
    | nil => rfl
    | cons c r => simp [scanDigits, hr c r rfl]
  | cons c cs ih =>
    cases ds with
    | nil => simp at h
    | cons d ds =>
      simp at h
      simp [scanDigits, h.1, ih ds h.2]

/-- What may follow a number. -/
def Stop (uni : Nat → Option Nat) (rest : PyStr) : Prop := ∀ c r, rest = c :: r → uni c = none

theorem scanNum_exact (uni : Nat → Option Nat) (t rest : PyStr) (n : Nat)
    (h : Numeral uni t n) (hr : Stop uni rest) : scanNum uni (t ++ rest) = some (n, rest) := by
  rcases h with ⟨rfl, rfl⟩ | ⟨c, cs, ds, rfl, h1, h2, h3, rfl⟩
  · rfl
  · have h0 : c ≠ 48 := by omega
    simp only [List.cons_append, scanNum, h0, if_false, h1, h2, and_self, if_true]
    rw [scanDigits_exact uni cs rest ds h3 hr]

theorem scanNum_sound (uni : Nat → Option Nat) (s rest : PyStr) (n : Nat)
    (h : scanNum uni s = some (n, rest)) : ∃ t, s = t ++ rest ∧ Numeral uni t n := by
  cases s with
  | nil => simp [scanNum] at h
  | cons c cs =>
    simp only [scanNum] at h
    split at h
    · rename_i h0; subst h0
      simp at h; exact ⟨lit "0", by rw [← h.2]; rfl, Or.inl ⟨rfl, h.1.symm⟩⟩
    · split at h
      · rename_i h1
        simp at h
        obtain ⟨ds, e1, e2, _⟩ := scanDigits_spec uni cs
        refine ⟨c :: ds, ?_, Or.inr ⟨c, ds, _, rfl, h1.1, h1.2, e2, h.1.symm⟩⟩
        rw [← h.2]; simp; exact e1
      · cases h

theorem scanDotNum_exact (uni : Nat → Option Nat) (t rest : PyStr) (n : Nat)
    (h : Numeral uni t n) (hr : Stop uni rest) :
    scanDotNum uni (lit "." ++ t ++ rest) = some (n, rest) := by
  show scanDotNum uni (46 :: (t ++ rest)) = _
  exact scanNum_exact uni t rest n h hr

theorem scanDotNum_sound (uni : Nat → Option Nat) (s rest : PyStr) (n : Nat)
    (h : scanDotNum uni s = some (n, rest)) : ∃ t, s = lit "." ++ t ++ rest ∧ Numeral uni t n := by
  unfold scanDotNum at h
  split at h
  · obtain ⟨t, e, ht⟩ := scanNum_sound uni _ _ _ h
    exact ⟨t, by rw [e]; rfl, ht⟩
  · cases h

theorem stop_dot (uni : Nat → Option Nat) (hu : ExtendsAscii uni) (r : PyStr) :
    Stop uni (lit "." ++ r) := by
  intro c r' h
  have : c = 46 := by
    have h' : (46 : Nat) :: r = c :: r' := h
    injection h' with h1; exact h1.symm
  subst this
  rw [hu _ (by omega)]; decide

theorem stop_end (uni : Nat → Option Nat) (hu : ExtendsAscii uni) {e : PyStr}
    (he : e = [] ∨ e = lit "\n") : Stop uni e := by
  intro c r h
  rcases he with rfl | rfl
  · cases h
  · have h' : (10 : Nat) :: [] = c :: r := h
    injection h' with h1
    subst h1
    rw [hu _ (by omega)]; decide

theorem atEnd_iff (s : PyStr) : atEnd s = true ↔ (s = [] ∨ s = lit "\n") := by
  unfold atEnd
  have : lit "\n" = [10] := rfl
  rw [this]; simp

theorem scanDotNum_end (uni : Nat → Option Nat) {e : PyStr} (he : e = [] ∨ e = lit "\n") :
    scanDotNum uni e = none := by
  rcases he with rfl | rfl <;> rfl

theorem scanVersion_iff (uni : Nat → Option Nat) (hu : ExtendsAscii uni) (s : PyStr)
    (v : PSVersion) : scanVersion uni s = some v ↔
      ∃ t e, s = t ++ e ∧ (e = [] ∨ e = lit "\n") ∧ DottedText uni t v := by
  constructor
  · intro h
    unfold scanVersion at h
    split at h
    · cases h
    · rename_i ma s1 h1
      obtain ⟨t1, rfl, n1⟩ := scanNum_sound uni _ _ _ h1
      split at h
      · cases h
      · rename_i mi s2 h2
        obtain ⟨t2, rfl, n2⟩ := scanDotNum_sound uni _ _ _ h2
        split at h
        · rename_i h3
          split at h
          · rename_i he
            injection h with h; subst h
            exact ⟨t1 ++ lit "." ++ t2, s2, by simp, (atEnd_iff _).mp he,
              t1, ma, t2, mi, n1, n2, Or.inl ⟨rfl, rfl⟩⟩
          · cases h
        · rename_i bu s3 h3
          obtain ⟨t3, rfl, n3⟩ := scanDotNum_sound uni _ _ _ h3
          split at h
          · rename_i h4
            split at h
            · rename_i he
              injection h with h; subst h
              exact ⟨t1 ++ lit "." ++ t2 ++ lit "." ++ t3, s3, by simp, (atEnd_iff _).mp he,
                t1, ma, t2, mi, n1, n2, Or.inr ⟨t3, bu, n3, Or.inl ⟨rfl, rfl⟩⟩⟩
            · cases h
          · rename_i re s4 h4
            obtain ⟨t4, rfl, n4⟩ := scanDotNum_sound uni _ _ _ h4
            split at h
            · rename_i he
              injection h with h; subst h
              exact ⟨t1 ++ lit "." ++ t2 ++ lit "." ++ t3 ++ lit "." ++ t4, s4, by simp,
                (atEnd_iff _).mp he, t1, ma, t2, mi, n1, n2,
                Or.inr ⟨t3, bu, n3, Or.inr ⟨t4, re, n4, rfl, rfl⟩⟩⟩
            · cases h
  · rintro ⟨t, e, rfl, he, t1, ma, t2, mi, n1, n2, h⟩
    have hend := (atEnd_iff e).mpr he
    have hs := stop_end uni hu he
    unfold scanVersion
    rcases h with ⟨rfl, rfl⟩ | ⟨t3, bu, n3, ⟨rfl, rfl⟩ | ⟨t4, re, n4, rfl, rfl⟩⟩
    · rw [show t1 ++ lit "." ++ t2 ++ e = t1 ++ (lit "." ++ t2 ++ e) by simp,
        scanNum_exact uni _ _ _ n1 (by rw [List.append_assoc]; exact stop_dot uni hu _)]
      simp only [scanDotNum_exact uni _ _ _ n2 hs, scanDotNum_end uni he, hend, if_true]
    · rw [show t1 ++ lit "." ++ t2 ++ lit "." ++ t3 ++ e =
          t1 ++ (lit "." ++ t2 ++ (lit "." ++ t3 ++ e)) by simp,
        scanNum_exact uni _ _ _ n1 (by rw [List.append_assoc]; exact stop_dot uni hu _)]
      simp only [scanDotNum_exact uni t2 (lit "." ++ t3 ++ e) _ n2
          (by rw [List.append_assoc]; exact stop_dot uni hu _),
        scanDotNum_exact uni _ _ _ n3 hs, scanDotNum_end uni he, hend, if_true]
    · rw [show t1 ++ lit "." ++ t2 ++ lit "." ++ t3 ++ lit "." ++ t4 ++ e =
          t1 ++ (lit "." ++ t2 ++ (lit "." ++ t3 ++ (lit "." ++ t4 ++ e))) by simp,
        scanNum_exact uni _ _ _ n1 (by rw [List.append_assoc]; exact stop_dot uni hu _)]
      simp only [scanDotNum_exact uni t2 (lit "." ++ t3 ++ (lit "." ++ t4 ++ e)) _ n2
          (by rw [List.append_assoc]; exact stop_dot uni hu _),
        scanDotNum_exact uni t3 (lit "." ++ t4 ++ e) _ n3
          (by rw [List.append_assoc]; exact stop_dot uni hu _),
        scanDotNum_exact uni _ _ _ n4 hs, hend, if_true]

theorem dottedText_ne_nil {uni : Nat → Option Nat} {t : PyStr} {v : PSVersion}
    (h : DottedText uni t v) : t ≠ [] := by
  obtain ⟨t1, ma, t2, mi, n1, n2, h⟩ := h
  have : lit "." = [46] := rfl
  rw [this] at h
  rcases h with ⟨rfl, rfl⟩ | ⟨t3, bu, n3, ⟨rfl, rfl⟩ | ⟨t4, re, n4, rfl, rfl⟩⟩ <;> simp

theorem numeral_chars (uni : Nat → Option Nat) (hu : ExtendsAscii uni) {t : PyStr} {n : Nat}
    (h : Numeral uni t n) : ∀ c ∈ t, (uni c).isSome = true := by
  rcases h with ⟨rfl, rfl⟩ | ⟨c, cs, ds, rfl, h1, h2, h3, rfl⟩
  · intro c hc
    have : c = 48 := by simpa [lit] using hc
    subst this
    rw [hu _ (by omega)]; decide
  · intro x hx
    rcases List.mem_cons.mp hx with rfl | hx
    · rw [hu _ (by omega)]; simp [asciiDigit]; omega
    · have : uni x ∈ ds.map some := by rw [← h3]; exact List.mem_map_of_mem hx
      obtain ⟨d, _, e⟩ := List.mem_map.mp this
      rw [← e]; rfl

theorem dottedText_chars (uni : Nat → Option Nat) (hu : ExtendsAscii uni) {t : PyStr}
    {v : PSVersion} (h : DottedText uni t v) : ∀ c ∈ t, c = 46 ∨ (uni c).isSome = true := by
  obtain ⟨t1, ma, t2, mi, n1, n2, h⟩ := h
  have k1 := numeral_chars uni hu n1
  have k2 := numeral_chars uni hu n2
  have hl : lit "." = [46] := rfl
  rw [hl] at h
  intro c hc
  rcases h with ⟨rfl, rfl⟩ | ⟨t3, bu, n3, ⟨rfl, rfl⟩ | ⟨t4, re, n4, rfl, rfl⟩⟩
  · simp only [List.mem_append, List.mem_singleton] at hc
    rcases hc with (h | h) | h
    · exact Or.inr (k1 c h)
    · exact Or.inl h
    · exact Or.inr (k2 c h)
  · have k3 := numeral_chars uni hu n3
    simp only [List.mem_append, List.mem_singleton] at hc
    rcases hc with (((h | h) | h) | h) | h
    · exact Or.inr (k1 c h)
    · exact Or.inl h
    · exact Or.inr (k2 c h)
    · exact Or.inl h
    · exact Or.inr (k3 c h)
  · have k3 := numeral_chars uni hu n3
    have k4 := numeral_chars uni hu n4
    simp only [List.mem_append, List.mem_singleton] at hc
    rcases hc with (((((h | h) | h) | h) | h) | h) | h
    · exact Or.inr (k1 c h)
    · exact Or.inl h
    · exact Or.inr (k2 c h)
    · exact Or.inl h
    · exact Or.inr (k3 c h)
    · exact Or.inl h
    · exact Or.inr (k4 c h)

/-! ## comparison -/

theorem tupleCmp_eq : ∀ a b : List Int, tupleCmp a b = .eq ↔ a = b := by
  intro a
  induction a with
  | nil => intro b; cases b <;> simp [tupleCmp]
  | cons x xs ih =>
    intro b
    cases b with
    | nil => simp [tupleCmp]
    | cons y ys =>
      unfold tupleCmp
      by_cases h1 : x < y
      · simp [h1]; intro h; omega
      · by_cases h2 : y < x
        · simp [h1, h2]; intro h; omega
        · have : x = y := by omega
          simp [h1, h2, ih, this]

theorem tupleCmp_swap : ∀ a b : List Int, tupleCmp b a = (tupleCmp a b).swap := by
  intro a
  induction a with
  | nil => intro b; cases b <;> rfl
  | cons x xs ih =>
    intro b
    cases b with
    | nil => rfl
    | cons y ys =>
      unfold tupleCmp
      by_cases h1 : x < y
      · have : ¬ y < x := by omega
        simp [h1, this]
      · by_cases h2 : y < x
        · simp [h1, h2]
        · simp [h1, h2, ih]

theorem tuple_inj {a b : PSVersion} (ha : a.WellFormed) (hb : b.WellFormed)
    (h : a.tuple = b.tuple) : a = b := by
  obtain ⟨a1, a2, a3, a4⟩ := a
  obtain ⟨b1, b2, b3, b4⟩ := b
  unfold WellFormed at ha hb
  cases a3 <;> cases a4 <;> cases b3 <;> cases b4 <;> simp_all [tuple]

theorem cmp_lt_iff {a b : PSVersion} (ha : a.WellFormed) (hb : b.WellFormed) :
    a.cmp b = .lt ↔ a.Before b := by
  obtain ⟨a1, a2, a3, a4⟩ := a
  obtain ⟨b1, b2, b3, b4⟩ := b
  unfold WellFormed at ha hb
  have key : ∀ (x y : Int) (o : Ordering),
      (if x < y then Ordering.lt else if y < x then .gt else o) = .lt ↔
        (x < y ∨ (x = y ∧ o = .lt)) := by
    intro x y o
    by_cases h1 : x < y
    · simp [h1]
    · by_cases h2 : y < x
      · simp [h1, h2]; omega
      · have : x = y := by omega
        simp [this]
  cases a3 <;> cases a4 <;> cases b3 <;> cases b4 <;>
    first
      | (simp_all [cmp, tuple, Before, tupleCmp, key, compBefore]; done)
      | (simp_all [cmp, tuple, Before, tupleCmp, key, compBefore]; omega)

end PSVersion

end Verif
