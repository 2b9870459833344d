import Verif.Spec.Numbers
import Verif.Proof.NumText

/-! # GUIDs in texts: lemmas for C81 -/

namespace Verif

theorem hexAny_digit {d c : Nat} (h : HexAny d c) : hexDigitAny c = some d ∧ (48 ≤ c ∧ c ≤ 57 ∨ 65 ≤ c ∧ c ≤ 70 ∨ 97 ≤ c ∧ c ≤ 102) := by
  unfold hexDigitAny
  rcases h with (⟨h, rfl⟩ | ⟨h1, h2, rfl⟩) | ⟨h1, h2, rfl⟩
  · rw [if_neg (by omega), if_neg (by omega), unicodeDigit_ascii _ (by omega)]
    exact ⟨by simp, by omega⟩
  · rw [if_neg (by omega), if_pos (by omega)]
    exact ⟨by simp; omega, by omega⟩
  · rw [if_pos (by omega)]
    exact ⟨by simp; omega, by omega⟩

theorem HexLow.any {d c : Nat} (h : HexLow d c) : HexAny d c := by
  rcases h with h | h
  · exact .inl (.inl h)
  · exact .inr h

theorem hexLower_low {d : Nat} (h : d < 16) : HexLow d (hexLower d) := by
  unfold hexLower HexLow
  split <;> omega

theorem HexDigits.mono {p q : Nat → Nat → Prop} (hpq : ∀ d c, p d c → q d c) {n : Nat} {t : PyStr} (h : HexDigits p n t) :
    HexDigits q n t := by
  induction h with
  | nil => exact .nil
  | snoc h hd ih => exact .snoc ih (hpq _ _ hd)

theorem HexDigits.chars {n : Nat} {t : PyStr} (h : HexDigits HexAny n t) :
    ∀ c ∈ t, 48 ≤ c ∧ c ≤ 57 ∨ 65 ≤ c ∧ c ≤ 70 ∨ 97 ≤ c ∧ c ≤ 102 := by
  induction h with
  | nil => simp
  | snoc h hd ih =>
    intro c hc
    rcases List.mem_append.mp hc with hc | hc
    · exact ih c hc
    · rw [List.mem_singleton] at hc; subst hc; exact (hexAny_digit hd).2

theorem HexDigits.grouped {p : Nat → Nat → Prop} {n : Nat} {t : PyStr} (h : HexDigits p n t) (hne : t ≠ []) :
    Grouped p 16 n t := by
  induction h with
  | nil => exact absurd rfl hne
  | @snoc n d c t h hd ih =>
    by_cases ht : t = []
    · subst ht
      have hn : n = 0 := by
        generalize hu : ([] : PyStr) = u at h
        cases h with
        | nil => rfl
        | snoc => simp at hu
      subst hn
      exact .one (by simpa using hd)
    · exact (ih ht).more hd

theorem hexRow_length (w n : Nat) : (hexRow w n).length = w := by
  induction w generalizing n with
  | zero => rfl
  | succ w ih => simp [hexRow, ih]

theorem hexRow_digits (w n : Nat) (h : n < 16 ^ w) : HexDigits HexLow n (hexRow w n) := by
  induction w generalizing n with
  | zero =>
    have : n = 0 := by simpa using h
    subst this; exact .nil
  | succ w ih =>
    have h1 : n / 16 < 16 ^ w := by rw [Nat.pow_succ] at h; omega
    have := (ih _ h1).snoc (hexLower_low (Nat.mod_lt n (by decide : 0 < 16)))
    rwa [Nat.div_add_mod] at this

/-! ## What is left out -/

theorem removeAux_absent (p : Nat) (pat : PyStr) (n : Nat) (s : PyStr) (h : p ∉ s) : removeAux (p :: pat) n s = s := by
  induction n generalizing s with
  | zero => rfl
  | succ n ih =>
    cases s with
    | nil => rfl
    | cons c cs =>
      rw [List.mem_cons, not_or] at h
      rw [removeAux, if_neg (by simp [List.isPrefixOf, h.1]), ih cs h.2]

theorem removeAux_char (p : Nat) (n : Nat) (s : PyStr) (h : s.length ≤ n) : removeAux [p] n s = s.filter (· ≠ p) := by
  induction n generalizing s with
  | zero => rw [List.length_eq_zero_iff.mp (Nat.le_zero.mp h)]; rfl
  | succ n ih =>
    cases s with
    | nil => rfl
    | cons c cs =>
      have hl : cs.length ≤ n := by simpa using h
      rw [removeAux]
      by_cases hc : p = c
      · subst hc
        rw [if_pos (by simp [List.isPrefixOf])]
        simp only [List.length_singleton, List.drop_succ_cons, List.drop_zero]
        rw [ih cs hl, List.filter_cons, if_neg (by simp)]
      · rw [if_neg (by simp [List.isPrefixOf, hc]), ih cs hl, List.filter_cons, if_pos (by simpa using Ne.symm hc)]

/-- The characters of a GUID, hyphens included. -/
def guidChar (c : Nat) : Prop := (48 ≤ c ∧ c ≤ 57 ∨ 65 ≤ c ∧ c ≤ 70 ∨ 97 ≤ c ∧ c ≤ 102) ∨ c = 45

/-- What is left of the text of a GUID: its digits. -/
def guidRest (s : PyStr) : PyStr :=
  removeAll (txt! "-") (stripBy (fun c => c == 123 || c == 125) (removeAll (txt! "uuid:") (removeAll (txt! "urn:") s)))

theorem removeAll_absent (p : Nat) (pat s : PyStr) (h : p ∉ s) : removeAll (p :: pat) s = s := removeAux_absent _ _ _ _ h

theorem removeAll_hyphen (s : PyStr) : removeAll (txt! "-") s = s.filter (· ≠ 45) := removeAux_char _ _ _ (Nat.le_refl _)

theorem guidRest_chars (t : PyStr) (h : ∀ c ∈ t, guidChar c) : guidRest t = t.filter (· ≠ 45) := by
  have hu : 117 ∉ t := fun hm => by have := h _ hm; unfold guidChar at this; omega
  have hb : ∀ c ∈ t, (c == 123 || c == 125) = false := fun c hc => by
    have := h _ hc; unfold guidChar at this
    simp only [Bool.or_eq_false_iff, beq_eq_false_iff_ne, ne_eq]; omega
  unfold guidRest
  rw [removeAll_absent _ _ t hu, removeAll_absent _ _ t hu, stripBy_id _ t (fun c hc => hb c (List.mem_of_head? hc))
    (fun c hc => hb c (List.mem_of_getLast? hc)), removeAll_hyphen]

theorem guidRest_braces (t : PyStr) (h : ∀ c ∈ t, guidChar c) : guidRest (123 :: t ++ [125]) = t.filter (· ≠ 45) := by
  have hu : 117 ∉ 123 :: t ++ [125] := fun hm => by
    simp only [List.cons_append, List.mem_cons, List.mem_append, List.not_mem_nil, or_false] at hm
    rcases hm with hm | hm | hm
    · omega
    · have := h _ hm; unfold guidChar at this; omega
    · omega
  have hb : ∀ c ∈ t, (c == 123 || c == 125) = false := fun c hc => by
    have := h _ hc; unfold guidChar at this
    simp only [Bool.or_eq_false_iff, beq_eq_false_iff_ne, ne_eq]; omega
  unfold guidRest
  rw [removeAll_absent _ _ _ hu, removeAll_absent _ _ _ hu]
  rw [show 123 :: t ++ [125] = [123] ++ t ++ [125] from rfl, stripBy_eq _ [123] t [125] (by simp) (by simp)
    (fun c hc => hb c (List.mem_of_head? hc)) (fun c hc => hb c (List.mem_of_getLast? hc)), removeAll_hyphen]

theorem removeAux_nil (pat : PyStr) (n : Nat) : removeAux pat n [] = [] := by cases n <;> rfl

theorem removeAux_hit (pat : PyStr) (n c : Nat) (cs : PyStr) (h : pat.isPrefixOf (c :: cs) = true) :
    removeAux pat (n + 1) (c :: cs) = removeAux pat n ((c :: cs).drop pat.length) := by
  rw [removeAux, if_pos h]

theorem removeAux_miss (pat : PyStr) (n c : Nat) (cs : PyStr) (h : pat.isPrefixOf (c :: cs) = false) :
    removeAux pat (n + 1) (c :: cs) = c :: removeAux pat n cs := by
  rw [removeAux, if_neg (by simp [h])]

theorem guidRest_name (t : PyStr) (h : ∀ c ∈ t, guidChar c) : guidRest (txt! "urn:uuid:" ++ t) = t.filter (· ≠ 45) := by
  have hu : 117 ∉ t := fun hm => by have := h _ hm; unfold guidChar at this; omega
  have h1 : removeAll (txt! "urn:") (txt! "urn:uuid:" ++ t) = txt! "uuid:" ++ t := by
    show removeAux _ (t.length + 8 + 1) (117 :: 114 :: 110 :: 58 :: 117 :: 117 :: 105 :: 100 :: 58 :: t) = _
    rw [removeAux_hit _ _ _ _ rfl]
    show removeAux _ (t.length + 3 + 1 + 1 + 1 + 1 + 1) (117 :: 117 :: 105 :: 100 :: 58 :: t) = _
    rw [removeAux_miss _ _ _ _ rfl, removeAux_miss _ _ _ _ rfl, removeAux_miss _ _ _ _ rfl, removeAux_miss _ _ _ _ rfl,
      removeAux_miss _ _ _ _ rfl, removeAux_absent _ _ _ _ hu]
    rfl
  have h2 : removeAll (txt! "uuid:") (txt! "uuid:" ++ t) = t := by
    show removeAux _ (t.length + 4 + 1) (117 :: 117 :: 105 :: 100 :: 58 :: t) = _
    rw [removeAux_hit _ _ _ _ rfl]
    exact removeAux_absent _ _ _ _ hu
  have := guidRest_chars t h
  unfold guidRest at this ⊢
  rw [removeAll_absent _ _ t hu, removeAll_absent _ _ t hu] at this
  rw [h1, h2]
  exact this

/-! ## The number -/

theorem guidOfText_eq (s : PyStr) : guidOfText s = if (guidRest s).length ≠ 32 then .error .valueError
    else match signedOf scanHex (stripBy numSpace (guidRest s)) with
      | some v => .ok v.toNat
      | none => .error .valueError := rfl

theorem scanHex_row {n : Nat} {t : PyStr} (h : HexDigits HexAny n t) (hne : t ≠ []) : scanHex t = some n := by
  have hg : scanGroups hexDigitAny 16 false 0 t = some n := by
    have h95 : hexDigitAny 95 = none := by decide +kernel
    have := (h.grouped hne).scan (digit := hexDigitAny) (fun d c hdc => (hexAny_digit hdc).1) h95 []
    rw [List.append_nil] at this
    rw [this]; rfl
  unfold scanHex
  split
  · rw [if_neg, hg]
    rintro ⟨_, hx⟩
    have := h.chars _ (List.mem_cons_of_mem _ (List.mem_cons_self ..))
    omega
  · exact hg

theorem number_row {n : Nat} {t : PyStr} (h : HexDigits HexAny n t) (hne : t ≠ []) :
    signedOf scanHex (stripBy numSpace t) = some (n : Int) := by
  have hs : ∀ c ∈ t, numSpace c = false := fun c hc => by
    have h1 := h.chars c hc
    cases hn : numSpace c with
    | false => rfl
    | true =>
      have := (numSpace_iff c).mp hn
      unfold White at this
      simp only [List.mem_cons, List.not_mem_nil, or_false] at this
      omega
  rw [stripBy_id _ t (fun c hc => hs c (List.mem_of_head? hc)) (fun c hc => hs c (List.mem_of_getLast? hc))]
  have hr := scanHex_row h hne
  obtain ⟨c, cs, rfl⟩ := List.exists_cons_of_ne_nil hne
  have h1 := h.chars c (by simp)
  unfold signedOf
  split
  · rename_i heq; cases heq; omega
  · rename_i heq; cases heq; omega
  · rw [hr]; rfl

theorem guid_of_rest {s t : PyStr} {n : Nat} (hr : guidRest s = t) (h : HexDigits HexAny n t) (hl : t.length = 32) :
    guidOfText s = .ok n := by
  rw [guidOfText_eq, hr, if_neg (by omega), number_row h (by intro e; rw [e] at hl; simp at hl)]
  rfl

theorem filter_hex {n : Nat} {t : PyStr} (h : HexDigits HexAny n t) : t.filter (· ≠ 45) = t := by
  rw [List.filter_eq_self]
  intro c hc
  have := h.chars c hc
  simp; omega

theorem groups_chars {n : Nat} {t : PyStr} (h : GuidGroups HexAny n t) : (∀ c ∈ t, guidChar c) ∧
    HexDigits HexAny n (t.filter (· ≠ 45)) ∧ (t.filter (· ≠ 45)).length = 32 := by
  obtain ⟨a, b, c, d, e, ha, hb, hc, hd, he, h, rfl⟩ := h
  have hf := filter_hex h
  have hm := h.chars
  simp only [List.filter_append] at hf
  refine ⟨?_, ?_⟩
  · intro x hx
    simp only [List.mem_append, List.mem_cons] at hx hm
    unfold guidChar
    have := hm x
    grind
  · have : (a ++ 45 :: b ++ 45 :: c ++ 45 :: d ++ 45 :: e).filter (· ≠ 45) = a ++ b ++ c ++ d ++ e := by
      simp only [List.filter_append, List.filter_cons, ne_eq, not_true_eq_false, decide_false, Bool.false_eq_true, ↓reduceIte]
      simpa using hf
    rw [this]
    exact ⟨h, by simp; omega⟩

theorem read_guid {n : Nat} {t : PyStr} (h : GuidText n t) : guidOfText t = .ok n := by
  have row : ∀ {n t}, HexDigits HexAny n t → (∀ c ∈ t, guidChar c) := fun h c hc => .inl (h.chars c hc)
  cases h with
  | groups h =>
    obtain ⟨h1, h2, h3⟩ := groups_chars h
    exact guid_of_rest (guidRest_chars t h1) h2 h3
  | row h hl => exact guid_of_rest ((guidRest_chars t (row h)).trans (filter_hex h)) h hl
  | braces h =>
    rcases h with h | ⟨h, hl⟩
    · obtain ⟨h1, h2, h3⟩ := groups_chars h
      exact guid_of_rest (guidRest_braces _ h1) h2 h3
    · exact guid_of_rest ((guidRest_braces _ (row h)).trans (filter_hex h)) h hl
  | name h =>
    obtain ⟨h1, h2, h3⟩ := groups_chars h
    exact guid_of_rest (guidRest_name _ h1) h2 h3

theorem guidStr_groups (n : Nat) (h : n < 2 ^ 128) : GuidGroups HexLow n (guidStr n) := by
  have hd := hexRow_digits 32 n (by rw [show (16 : Nat) = 2 ^ 4 by decide, ← Nat.pow_mul]; exact h)
  have hl := hexRow_length 32 n
  have hj : hexRow 32 n = (hexRow 32 n).take 8 ++ ((hexRow 32 n).drop 8).take 4 ++ ((hexRow 32 n).drop 12).take 4 ++
      ((hexRow 32 n).drop 16).take 4 ++ (hexRow 32 n).drop 20 := by
    generalize hexRow 32 n = x
    conv => lhs; rw [← List.take_append_drop 20 x, ← List.take_append_drop 16 (x.take 20), ← List.take_append_drop 12 ((x.take 20).take 16),
      ← List.take_append_drop 8 (((x.take 20).take 16).take 12)]
    simp [List.take_take, List.drop_take]
  refine ⟨(hexRow 32 n).take 8, ((hexRow 32 n).drop 8).take 4, ((hexRow 32 n).drop 12).take 4, ((hexRow 32 n).drop 16).take 4,
    (hexRow 32 n).drop 20, by simp [hl], by simp [hl], by simp [hl], by simp [hl], by simp [hl], ?_, rfl⟩
  rw [← hj]
  exact hd

theorem GuidGroups.any {n : Nat} {t : PyStr} (h : GuidGroups HexLow n t) : GuidGroups HexAny n t := by
  obtain ⟨a, b, c, d, e, ha, hb, hc, hd, he, h, rfl⟩ := h
  exact ⟨a, b, c, d, e, ha, hb, hc, hd, he, h.mono fun _ _ => HexLow.any, rfl⟩

theorem guid_back (n : Nat) (h : n < 2 ^ 128) : guidOfText (guidStr n) = .ok n := read_guid (.groups (guidStr_groups n h).any)

theorem hexDigits_exists (t : PyStr) (h : ∀ c ∈ t, 48 ≤ c ∧ c ≤ 57 ∨ 65 ≤ c ∧ c ≤ 70 ∨ 97 ≤ c ∧ c ≤ 102) :
    ∃ n, HexDigits HexAny n t := by
  generalize hn : t.length = k
  induction k generalizing t with
  | zero => rw [List.length_eq_zero_iff.mp hn]; exact ⟨0, .nil⟩
  | succ k ih =>
    rcases List.eq_nil_or_concat t with rfl | ⟨u, c, rfl⟩
    · exact ⟨0, .nil⟩
    · rw [List.concat_eq_append] at hn h ⊢
      obtain ⟨n, hu⟩ := ih u (fun c hc => h c (by simp [hc])) (by simpa using hn)
      have hc : ∃ d, HexAny d c := by
        rcases h c (by simp) with hc | hc | hc
        · exact ⟨c - 48, .inl (.inl (by omega))⟩
        · exact ⟨c - 55, .inl (.inr (by omega))⟩
        · exact ⟨c - 87, .inr (by omega)⟩
      obtain ⟨d, hd⟩ := hc
      exact ⟨_, hu.snoc hd⟩

theorem HexDigits.lt {n : Nat} {t : PyStr} (h : HexDigits HexAny n t) : n < 16 ^ t.length := by
  induction h with
  | nil => decide
  | @snoc n d c t h hd ih =>
    have : d < 16 := by rcases hd with (h | h) | h <;> omega
    rw [List.length_append, List.length_singleton, Nat.pow_succ]
    omega

end Verif
