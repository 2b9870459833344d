import Verif.Spec.XmlGrammar
import Verif.Proof.XmlDoc

/-! # The reader reads the well-formed documents -/

namespace Verif

theorem xmlSpace_iff (c : Nat) : xmlSpace c = true ↔ IsSpace c := by
  unfold xmlSpace IsSpace; simp [or_assoc]

theorem spaces_iff (s : PyStr) : s.all xmlSpace = true ↔ Spaces s := by
  unfold Spaces; simp [xmlSpace_iff]

theorem nameChar_iff (c : Nat) : nameChar c = true ↔ ¬ IsSpace c ∧ c ∉ txt! "<>&\"'=/!?" := by
  unfold nameChar
  rw [Bool.not_eq_true', ← Bool.not_eq_true]
  simp only [Bool.or_eq_true, xmlSpace_iff, decide_eq_true_eq]
  have : c ∈ txt! "<>&\"'=/!?" ↔ c = 60 ∨ c = 62 ∨ c = 38 ∨ c = 34 ∨ c = 39 ∨ c = 61 ∨ c = 47 ∨ c = 33 ∨ c = 63 := by
    show c ∈ [60, 62, 38, 34, 39, 61, 47, 33, 63] ↔ _
    simp
  rw [this]
  simp only [not_or, and_assoc]

theorem isName_iff (n : PyStr) : PlainName n ↔ IsName n := by
  unfold PlainName IsName; simp only [nameChar_iff]

/-! ## References -/

theorem hexVal_iff (c d : Nat) : hexVal c = some d ↔ HexDigit c d := by
  unfold hexVal HexDigit
  split
  · simp; omega
  · split
    · simp; omega
    · split
      · simp; omega
      · simp; omega

theorem decimalRef_iff (e : PyStr) (c : Nat) : decimalRef e = some c ↔
    ∃ ds : List Nat, ds ≠ [] ∧ (∀ d ∈ ds, d < 10) ∧ e = ds.map (48 + ·) ∧ c = ds.foldl (fun n d => n * 10 + d) 0 := by
  unfold decimalRef
  constructor
  · intro h
    split at h
    · rename_i hc
      obtain ⟨h1, h2⟩ := hc
      have h2 : ∀ c ∈ e, 48 ≤ c ∧ c ≤ 57 := by simpa using h2
      refine ⟨e.map (· - 48), by simpa using h1, ?_, ?_, ?_⟩
      · intro d hd
        obtain ⟨c, hc, rfl⟩ := List.mem_map.mp hd
        have := h2 c hc
        omega
      · rw [List.map_map]
        conv => lhs; rw [← List.map_id e]
        refine List.map_congr_left fun c hc => ?_
        have := h2 c hc
        simp; omega
      · cases h
        rw [List.foldl_map]
    · cases h
  · rintro ⟨ds, h1, h2, rfl, rfl⟩
    rw [if_pos]
    · rw [List.foldl_map]; simp
    · refine ⟨by simpa using h1, ?_⟩
      simp only [List.all_map, List.all_eq_true, Function.comp]
      intro d hd
      have := h2 d hd
      simp; omega

theorem hexRef_iff (e : PyStr) (c : Nat) : hexRef e = some c ↔
    ∃ ds : List (Nat × Nat), ds ≠ [] ∧ (∀ d ∈ ds, HexDigit d.1 d.2) ∧ e = ds.map Prod.fst ∧
      c = ds.foldl (fun n d => n * 16 + d.2) 0 := by
  unfold hexRef
  constructor
  · intro h
    split at h
    · rename_i hc
      obtain ⟨h1, h2⟩ := hc
      have h2 : ∀ c ∈ e, (hexVal c).isSome = true := by simpa using h2
      refine ⟨e.map fun c => (c, (hexVal c).getD 0), by simpa using h1, ?_, ?_, ?_⟩
      · intro d hd
        obtain ⟨c, hc, rfl⟩ := List.mem_map.mp hd
        have := h2 c hc
        rw [← hexVal_iff]
        cases hv : hexVal c with
        | none => rw [hv] at this; cases this
        | some v => rfl
      · rw [List.map_map]
        conv => lhs; rw [← List.map_id e]
        rfl
      · cases h
        rw [List.foldl_map]
    · cases h
  · rintro ⟨ds, h1, h2, rfl, rfl⟩
    rw [if_pos]
    · congr 1
      rw [List.foldl_map]
      clear h1
      suffices ∀ z, List.foldl (fun x (y : Nat × Nat) => x * 16 + (hexVal y.1).getD 0) z ds =
          ds.foldl (fun n d => n * 16 + d.2) z from this 0
      intro z
      induction ds generalizing z with
      | nil => rfl
      | cons d ds ih =>
        simp only [List.foldl_cons]
        rw [(hexVal_iff d.1 d.2).mpr (h2 d List.mem_cons_self)]
        exact ih (fun d hd => h2 d (List.mem_cons_of_mem _ hd)) _
    · refine ⟨by simpa using h1, ?_⟩
      simp only [List.all_map, List.all_eq_true, Function.comp]
      intro d hd
      rw [(hexVal_iff d.1 d.2).mpr (h2 d hd)]; rfl

/-- `entity` is the inverse of writing a reference. -/
theorem entity_iff (e : PyStr) (c : Nat) (h59 : 59 ∉ e) : entity e = some c ↔ RefTo (38 :: e ++ [59]) c := by
  constructor
  · intro h
    unfold entity at h
    split at h
    · rename_i he; subst he; cases h; exact .amp
    split at h
    · rename_i he; subst he; cases h; exact .lt
    split at h
    · rename_i he; subst he; cases h; exact .gt
    split at h
    · rename_i he; subst he; cases h; exact .quot
    split at h
    · rename_i he; subst he; cases h; exact .apos
    split at h
    · rename_i he
      obtain ⟨h1, h2⟩ := Option.filter_eq_some_iff.mp h
      obtain ⟨ds, g1, g2, g3, rfl⟩ := (hexRef_iff _ _).mp h1
      have : e = (txt! "#x") ++ ds.map Prod.fst := by rw [← g3, ← he, List.take_append_drop]
      rw [this]
      exact RefTo.hex g1 g2 ((xmlChar_iff _).mp h2)
    split at h
    · rename_i he
      obtain ⟨h1, h2⟩ := Option.filter_eq_some_iff.mp h
      obtain ⟨ds, g1, g2, g3, rfl⟩ := (decimalRef_iff _ _).mp h1
      have : e = (txt! "#") ++ ds.map (48 + ·) := by rw [← g3, ← he, List.take_append_drop]
      rw [this]
      exact RefTo.dec g1 g2 ((xmlChar_iff _).mp h2)
    · cases h
  · intro h
    generalize hr : 38 :: e ++ [59] = r at h
    have key : ∀ x : PyStr, 38 :: e ++ [59] = 38 :: x ++ [59] → e = x := by
      intro x hx
      simpa using hx
    cases h with
    | amp => rw [key (txt! "amp") hr]; rfl
    | lt => rw [key (txt! "lt") hr]; rfl
    | gt => rw [key (txt! "gt") hr]; rfl
    | quot => rw [key (txt! "quot") hr]; rfl
    | apos => rw [key (txt! "apos") hr]; rfl
    | dec ne h ok =>
      rename_i ds
      rw [key ((txt! "#") ++ ds.map (48 + ·)) (by rw [hr]; rfl)]
      have h2 : ((txt! "#") ++ ds.map (48 + ·)).take 2 ≠ txt! "#x" := by
        cases ds with
        | nil => exact absurd rfl ne
        | cons d ds =>
          have := h d List.mem_cons_self
          show [35, 48 + d] ≠ [35, 120]
          simp; omega
      have h1 : decimalRef (((txt! "#") ++ ds.map (48 + ·)).drop 1) = some (ds.foldl (fun n d => n * 10 + d) 0) :=
        (decimalRef_iff _ _).mpr ⟨ds, ne, h, rfl, rfl⟩
      unfold entity
      rw [if_neg (by simp), if_neg (by simp), if_neg (by simp), if_neg (by simp),
        if_neg (by simp), if_neg h2, if_pos (by rfl), h1]
      exact Option.filter_eq_some_iff.mpr ⟨rfl, (xmlChar_iff _).mpr ok⟩
    | hex ne h ok =>
      rename_i ds
      rw [key ((txt! "#x") ++ ds.map Prod.fst) (by rw [hr]; rfl)]
      have h1 : hexRef (((txt! "#x") ++ ds.map Prod.fst).drop 2) = some (ds.foldl (fun n d => n * 16 + d.2) 0) :=
        (hexRef_iff _ _).mpr ⟨ds, ne, h, rfl, rfl⟩
      unfold entity
      rw [if_neg (by simp), if_neg (by simp), if_neg (by simp), if_neg (by simp),
        if_neg (by simp), if_pos (by rfl), h1]
      exact Option.filter_eq_some_iff.mpr ⟨rfl, (xmlChar_iff _).mpr ok⟩

/-- The characters of a reference. -/
def InRef (x : Nat) : Prop := x = 35 ∨ 48 ≤ x ∧ x ≤ 57 ∨ 65 ≤ x ∧ x ≤ 70 ∨ 97 ≤ x ∧ x ≤ 122

theorem refTo_shape {r : PyStr} {c : Nat} (h : RefTo r c) : ∃ e, r = 38 :: e ++ [59] ∧ ∀ x ∈ e, InRef x := by
  unfold InRef
  cases h with
  | amp => exact ⟨txt! "amp", rfl, by decide⟩
  | lt => exact ⟨txt! "lt", rfl, by decide⟩
  | gt => exact ⟨txt! "gt", rfl, by decide⟩
  | quot => exact ⟨txt! "quot", rfl, by decide⟩
  | apos => exact ⟨txt! "apos", rfl, by decide⟩
  | dec ne h ok =>
    rename_i ds
    refine ⟨(txt! "#") ++ ds.map (48 + ·), rfl, ?_⟩
    intro x hx
    rcases List.mem_append.mp hx with hx | hx
    · rw [List.mem_singleton.mp hx]; exact .inl rfl
    · obtain ⟨d, hd, rfl⟩ := List.mem_map.mp hx
      have := h d hd
      omega
  | hex ne h ok =>
    rename_i ds
    refine ⟨(txt! "#x") ++ ds.map Prod.fst, rfl, ?_⟩
    intro x hx
    rcases List.mem_append.mp hx with hx | hx
    · have : x = 35 ∨ x = 120 := by
        have : x ∈ [35, 120] := hx
        simpa using this
      omega
    · obtain ⟨d, hd, rfl⟩ := List.mem_map.mp hx
      have := h d hd
      unfold HexDigit at this
      omega

theorem refTo_chars {r : PyStr} {c : Nat} (h : RefTo r c) : ∀ x ∈ r, x = 38 ∨ x = 59 ∨ InRef x := by
  obtain ⟨e, rfl, he⟩ := refTo_shape h
  intro x hx
  simp only [List.cons_append, List.mem_cons, List.mem_append, List.not_mem_nil, or_false] at hx
  rcases hx with rfl | hx | rfl
  · exact .inl rfl
  · exact .inr (.inr (he x hx))
  · exact .inr (.inl rfl)

theorem decodeRefs_open (e s : PyStr) (h : 59 ∉ e) : ∀ e', decodeRefs (e ++ 59 :: s) (some e') =
    match entity (e' ++ e) with
    | none => .error .parseError
    | some d => (decodeRefs s none).map (d :: ·) := by
  induction e with
  | nil => intro e'; rw [List.nil_append, decodeRefs_ref, if_pos rfl, List.append_nil]; rfl
  | cons c e ih =>
    intro e'
    have hc : c ≠ 59 := fun hc => h (hc ▸ List.mem_cons_self)
    rw [List.cons_append, decodeRefs_ref, if_neg hc, ih fun he => h (List.mem_cons_of_mem _ he)]
    simp

theorem decodeRefs_refTo {r : PyStr} {c : Nat} (h : RefTo r c) : decodeRefs r none = .ok [c] := by
  obtain ⟨e, rfl, he⟩ := refTo_shape h
  have h59 : 59 ∉ e := fun h => by have := he 59 h; unfold InRef at this; omega
  rw [List.cons_append, decodeRefs_cons, if_pos rfl, decodeRefs_open _ _ h59, List.nil_append,
    (entity_iff e c h59).mpr h]
  rfl

theorem charRefs_complete {s t : PyStr} (h : CharRefs s t) : decodeRefs s none = .ok t := by
  induction h with
  | nil => rfl
  | char amp _ _ ih => rw [decodeRefs_cons, if_neg amp, ih]; rfl
  | ref hr _ ih => rw [decodeRefs_append (decodeRefs_refTo hr), ih]; rfl

theorem charRefs_noLt {s t : PyStr} (h : CharRefs s t) : 60 ∉ s := by
  induction h with
  | nil => simp
  | char _ lt _ ih => simp [ih, Ne.symm lt]
  | ref hr _ ih =>
    intro h
    rcases List.mem_append.mp h with h | h
    · have := refTo_chars hr _ h; unfold InRef at this; omega
    · exact ih h

theorem charRefs_sound (s : PyStr) : ∀ (o : Option PyStr) (t : PyStr), decodeRefs s o = .ok t → 60 ∉ s →
    (o = none → CharRefs s t) ∧ ∀ e, o = some e → 59 ∉ e → CharRefs (38 :: e ++ s) t := by
  induction s with
  | nil =>
    intro o t h _
    cases o with
    | none => cases h; exact ⟨fun _ => .nil, nofun⟩
    | some e => cases h
  | cons c s ih =>
    intro o t h h60
    have h60' : 60 ∉ s := fun h => h60 (List.mem_cons_of_mem _ h)
    cases o with
    | none =>
      refine ⟨fun _ => ?_, nofun⟩
      rw [decodeRefs_cons] at h
      split at h
      · rename_i hc
        subst hc
        exact (ih _ _ h h60').2 [] rfl (by simp)
      · rename_i hc
        cases h1 : decodeRefs s none with
        | error e => rw [h1] at h; cases h
        | ok r =>
          rw [h1] at h
          cases h
          exact .char hc (fun e => h60 (e ▸ List.mem_cons_self)) ((ih _ _ h1 h60').1 rfl)
    | some e =>
      refine ⟨nofun, ?_⟩
      intro e' he' h59
      cases he'
      rw [decodeRefs_ref] at h
      split at h
      · rename_i hc
        subst hc
        cases he : entity e with
        | none => rw [he] at h; cases h
        | some d =>
          rw [he] at h
          dsimp only at h
          cases h1 : decodeRefs s none with
          | error e => rw [h1] at h; cases h
          | ok r =>
            rw [h1] at h
            cases h
            have := CharRefs.ref ((entity_iff e d h59).mp he) ((ih _ _ h1 h60').1 rfl)
            simpa using this
      · rename_i hc
        have := (ih _ _ h h60').2 _ rfl (by simp [h59, Ne.symm hc])
        simpa using this

theorem cdEnd_iff (s : PyStr) : cdEnd s = true ↔ (txt! "]]>") <:+: s := by
  show _ ↔ [93, 93, 62] <:+: s
  induction s with
  | nil => simp [cdEnd]
  | cons c s ih =>
    rw [cdEnd, Bool.or_eq_true, ih, List.infix_cons_iff, List.prefix_iff_eq_take, decide_eq_true_eq]
    simp only [List.length_cons, List.length_nil]
    rw [eq_comm]

/-! ## Values of attributes -/

/-- White space in the value of an attribute. -/
abbrev plainSpace (c : Nat) : Nat := if xmlSpace c then 32 else c

theorem plainSpace_ref {r : PyStr} {c : Nat} (h : RefTo r c) : r.map plainSpace = r := by
  conv => rhs; rw [← List.map_id r]
  refine List.map_congr_left fun x hx => ?_
  have := refTo_chars h x hx
  unfold InRef at this
  have : xmlSpace x = false := by unfold xmlSpace; simp; omega
  simp [plainSpace, this]

theorem attValue_complete {q : Nat} {raw v : PyStr} (h : AttValue q raw v) : decodeRefs (raw.map plainSpace) none = .ok v := by
  induction h with
  | nil => rfl
  | space sp _ ih =>
    rw [List.map_cons, plainSpace, if_pos ((xmlSpace_iff _).mpr sp), decodeRefs_cons, if_neg (by decide), ih]; rfl
  | char sp amp lt quote _ ih =>
    rw [List.map_cons, plainSpace, if_neg (fun h => sp ((xmlSpace_iff _).mp h)), decodeRefs_cons, if_neg amp, ih]; rfl
  | ref hr _ ih =>
    rw [List.map_append, plainSpace_ref hr, decodeRefs_append (decodeRefs_refTo hr), ih]; rfl

theorem attValue_chars {q : Nat} (hq : q = 34 ∨ q = 39) {raw v : PyStr} (h : AttValue q raw v) : ∀ c ∈ raw, c ≠ 60 ∧ c ≠ q := by
  induction h with
  | nil => simp
  | space sp _ ih =>
    intro c hc
    rcases List.mem_cons.mp hc with rfl | hc
    · unfold IsSpace at sp; omega
    · exact ih c hc
  | char sp amp lt quote _ ih =>
    intro c hc
    rcases List.mem_cons.mp hc with rfl | hc
    · exact ⟨lt, quote⟩
    · exact ih c hc
  | ref hr _ ih =>
    intro c hc
    rcases List.mem_append.mp hc with hc | hc
    · have := refTo_chars hr c hc; unfold InRef at this; omega
    · exact ih c hc

theorem attValue_decode {q : Nat} (hq : q = 34 ∨ q = 39) {raw v : PyStr} (h : AttValue q raw v) : decodeAttr raw = .ok v := by
  have hc := attValue_chars hq h
  unfold decodeAttr
  rw [if_neg (by simpa using fun h => (hc 60 h).1 rfl)]
  exact attValue_complete h

theorem attValue_sound {q : Nat} {raw v : PyStr} (h : decodeAttr raw = .ok v) (hq : q ∉ raw) : AttValue q raw v := by
  unfold decodeAttr at h
  split at h
  · cases h
  rename_i h60
  replace h60 : 60 ∉ raw := by simpa using h60
  have h60' : 60 ∉ raw.map plainSpace := by
    intro hm
    obtain ⟨c, hc, he⟩ := List.mem_map.mp hm
    unfold plainSpace at he
    split at he
    · cases he
    · exact h60 (he ▸ hc)
  have hcr := (charRefs_sound _ _ _ h h60').1 rfl
  clear h h60'
  generalize hs : raw.map plainSpace = s at hcr
  induction hcr generalizing raw with
  | nil =>
    rw [List.map_eq_nil_iff.mp hs]
    exact .nil
  | char amp lt h ih =>
    rename_i c s t
    cases raw with
    | nil => cases hs
    | cons d raw =>
      simp only [List.map_cons, List.cons.injEq] at hs
      have hr := ih (fun h => hq (List.mem_cons_of_mem _ h)) (fun h => h60 (List.mem_cons_of_mem _ h)) hs.2
      by_cases hsp : xmlSpace d = true
      · have : c = 32 := by rw [← hs.1, plainSpace, if_pos hsp]
        subst this
        exact .space ((xmlSpace_iff d).mp hsp) hr
      · have : c = d := by rw [← hs.1, plainSpace, if_neg hsp]
        subst this
        exact .char (fun h => hsp ((xmlSpace_iff c).mpr h)) amp lt (fun e => hq (e ▸ List.mem_cons_self)) hr
  | ref hr h ih =>
    rename_i r s t c
    obtain ⟨r0, s0, rfl, h1, h2⟩ := List.map_eq_append_iff.mp hs
    have : r0 = r := by
      rw [← h1]
      conv => lhs; rw [← List.map_id r0]
      refine List.map_congr_left fun x hx => ?_
      unfold plainSpace
      split
      · have : 32 ∈ r := by
          rw [← h1]
          refine List.mem_map.mpr ⟨x, hx, ?_⟩
          simp [plainSpace, *]
        have := refTo_chars hr _ this
        unfold InRef at this
        omega
      · rfl
    subst this
    exact .ref hr (ih (fun h => hq (List.mem_append_right _ h)) (fun h => h60 (List.mem_append_right _ h)) h2)

/-! ## Attributes -/

theorem while_stop {p : Nat → Bool} {a s : PyStr} (ha : ∀ c ∈ a, p c = true) (hs : ∀ c, s.head? = some c → p c = false) :
    (a ++ s).takeWhile p = a ∧ (a ++ s).dropWhile p = s := by
  have h : s.takeWhile p = [] ∧ s.dropWhile p = s := by
    cases s with
    | nil => exact ⟨rfl, rfl⟩
    | cons c s => simp [List.takeWhile, List.dropWhile, hs c rfl]
  rw [List.takeWhile_append_of_pos ha, List.dropWhile_append_of_pos ha, h.1, h.2]
  simp

theorem isName_space {n : PyStr} (hn : IsName n) : ∀ c ∈ n, xmlSpace c = false := by
  intro c hc
  cases h : xmlSpace c with
  | false => rfl
  | true => exact absurd ((xmlSpace_iff c).mp h) (hn.2 c hc).1

theorem isName_char {n : PyStr} (hn : IsName n) : ∀ c ∈ n, nameChar c = true := fun c hc => (nameChar_iff c).mpr (hn.2 c hc)

theorem space_notName {c : Nat} (h : IsSpace c) : nameChar c = false := by
  cases hn : nameChar c with
  | false => rfl
  | true => exact absurd h ((nameChar_iff c).mp hn).1

theorem get_lookup (l : List (PyStr × PyStr)) (n : PyStr) : Dict.get? l n = l.lookup n := by
  induction l with
  | nil => rfl
  | cons p l ih =>
    obtain ⟨a, b⟩ := p
    rw [List.lookup_cons]
    by_cases h : n = a
    · subst h; simp [Dict.get?]
    · have h' : (n == a) = false := by simpa using h
      rw [h', ← ih]
      simp [Dict.get?, Ne.symm h]

theorem mem_takeWhile {p : Nat → Bool} {s : PyStr} {c : Nat} (h : c ∈ s.takeWhile p) : p c = true := by
  have := List.all_takeWhile (p := p) (l := s)
  exact List.all_eq_true.mp this c h

theorem dropWhile_to {q : Nat} {r : PyStr} (h : q ∈ r) : ∃ r2, r.dropWhile (· ≠ q) = q :: r2 := by
  induction r with
  | nil => cases h
  | cons c r ih =>
    by_cases hc : c = q
    · subst hc; exact ⟨r, by simp [List.dropWhile]⟩
    · obtain ⟨r2, h2⟩ := ih (by
        rcases List.mem_cons.mp h with h | h
        · exact absurd h.symm hc
        · exact h)
      exact ⟨r2, by rw [← h2]; simp [List.dropWhile, hc]⟩

theorem contains_of {l : List (PyStr × PyStr)} {n : PyStr} : Dict.contains l n = false ↔ ∀ p ∈ l, p.1 ≠ n := by
  unfold Dict.contains
  rw [get_lookup, Option.isSome_eq_false_iff, Option.isNone_iff_eq_none]
  induction l with
  | nil => simp
  | cons p l ih =>
    obtain ⟨a, b⟩ := p
    rw [List.lookup_cons]
    by_cases h : n = a
    · subst h; simp
    · have h' : (n == a) = false := by simpa using h
      simp only [h', ih, List.mem_cons, forall_eq_or_imp]
      exact ⟨fun g => ⟨Ne.symm h, g⟩, fun g => g.2⟩

theorem attributes_complete {s : PyStr} {l : List (PyStr × PyStr)} (h : Attributes s l) :
    ∀ k, l.length ≤ k → readAttrs k s = .ok l := by
  induction h with
  | nil h =>
    intro k _
    cases k <;> simp [readAttrs, (spaces_iff _).mpr h]
  | cons ne ha hn hb hc hq hv hs once ih =>
    rename_i a n b c raw v s q l
    intro k hk
    obtain ⟨k, rfl⟩ : ∃ j, k = j + 1 := ⟨k - 1, by simp only [List.length_cons] at hk; omega⟩
    replace hk : l.length ≤ k := by simp only [List.length_cons] at hk; omega
    obtain ⟨x, n', rfl⟩ := List.exists_cons_of_ne_nil hn.1
    obtain ⟨y, a', rfl⟩ := List.exists_cons_of_ne_nil ne
    have hsp : ∀ {s : PyStr}, Spaces s → ∀ c ∈ s, xmlSpace c = true := fun h c hc => (xmlSpace_iff c).mpr (h c hc)
    have e : y :: a' ++ (x :: n') ++ b ++ [61] ++ c ++ [q] ++ raw ++ [q] ++ s =
        y :: a' ++ (x :: n' ++ (b ++ (61 :: (c ++ (q :: (raw ++ q :: s)))))) := by simp
    rw [e]
    have hx : xmlSpace x = false := isName_space hn x List.mem_cons_self
    have hqs : xmlSpace q = false := by rcases hq with rfl | rfl <;> decide
    have d1 := (while_stop (hsp ha) (s := x :: n' ++ (b ++ (61 :: (c ++ (q :: (raw ++ q :: s)))))) (by
      intro c hc; cases hc; exact hx)).2
    have d2 := while_stop (isName_char hn) (s := b ++ (61 :: (c ++ (q :: (raw ++ q :: s))))) (by
      intro c hc
      cases b with
      | nil => cases hc; decide
      | cons z b => cases hc; exact space_notName (hb _ List.mem_cons_self))
    have d3 := (while_stop (hsp hb) (s := 61 :: (c ++ (q :: (raw ++ q :: s)))) (by intro c hc; cases hc; decide)).2
    have d4 := (while_stop (hsp hc) (s := q :: (raw ++ q :: s)) (by intro c hc; cases hc; exact hqs)).2
    have hraw : ∀ c ∈ raw, (fun z => decide (z ≠ q)) c = true := fun c hc => by
      simpa using (attValue_chars hq hv c hc).2
    have d5 := while_stop hraw (s := q :: s) (by intro c hc; cases hc; simp)
    simp only [readAttrs]
    rw [if_neg (by
      simp only [List.all_append, List.all_cons, hx, Bool.false_and, Bool.and_false, Bool.false_eq_true, not_false_eq_true])]
    rw [if_pos (by simp [hsp ha y List.mem_cons_self])]
    rw [d1, d2.1, d2.2, d3]
    simp only [List.head?_cons, if_true, List.drop_succ_cons, List.drop_zero, d4]
    rw [if_neg (by simp; omega), d5.1, d5.2, attValue_decode hq hv]
    simp only [List.drop_succ_cons, List.drop_zero, ih k hk]
    rw [contains_of.mpr once]
    rfl

theorem attributes_sound (k : Nat) : ∀ (s : PyStr) (l : List (PyStr × PyStr)), readAttrs k s = .ok l → Attributes s l := by
  induction k with
  | zero =>
    intro s l h
    simp only [readAttrs] at h
    split at h
    · rename_i hs; cases h; exact .nil ((spaces_iff s).mp hs)
    · cases h
  | succ k ih =>
    intro s l h
    simp only [readAttrs] at h
    split at h
    · rename_i hs; cases h; exact .nil ((spaces_iff s).mp hs)
    rename_i hns
    split at h
    · rename_i ht
      split at h
      · rename_i h61
        split at h
        · rename_i q r hr
          split at h
          · cases h
          · rename_i hcond
            obtain ⟨hne, hq, hqr⟩ : _ ≠ [] ∧ (q = 34 ∨ q = 39) ∧ r.contains q = true :=
              ⟨fun h => hcond (.inl h), Classical.byContradiction fun h => hcond (.inr (.inl h)),
                Classical.byContradiction fun h => hcond (.inr (.inr h))⟩
            cases hv : decodeAttr (r.takeWhile (· ≠ q)) with
            | error e => rw [hv] at h; cases h
            | ok v =>
              rw [hv] at h
              dsimp only at h
              cases has : readAttrs k ((r.dropWhile (· ≠ q)).drop 1) with
              | error e => rw [has] at h; cases h
              | ok as =>
                rw [has] at h
                dsimp only at h
                split at h
                · cases h
                · rename_i hco
                  cases h
                  have hsp : ∀ t : PyStr, Spaces (t.takeWhile xmlSpace) := fun t c hc =>
                    (xmlSpace_iff c).mp (mem_takeWhile hc)
                  generalize hs1 : s.dropWhile xmlSpace = s1 at *
                  generalize hs2 : (s1.dropWhile nameChar) = s2 at *
                  have e1 : s = s.takeWhile xmlSpace ++ s1 := by rw [← hs1, List.takeWhile_append_dropWhile]
                  have e2 : s1 = s1.takeWhile nameChar ++ s2 := by rw [← hs2, List.takeWhile_append_dropWhile]
                  have e3 : s2 = s2.takeWhile xmlSpace ++ s2.dropWhile xmlSpace := by rw [List.takeWhile_append_dropWhile]
                  obtain ⟨s3, hs3⟩ : ∃ s3, s2.dropWhile xmlSpace = 61 :: s3 := by
                    cases hd : s2.dropWhile xmlSpace with
                    | nil => rw [hd] at h61; cases h61
                    | cons c s3 => rw [hd] at h61; cases h61; exact ⟨s3, rfl⟩
                  rw [hs3] at hr e3
                  simp only [List.drop_succ_cons, List.drop_zero] at hr
                  have e4 : s3 = s3.takeWhile xmlSpace ++ q :: r := by rw [← hr, List.takeWhile_append_dropWhile]
                  have hqin : q ∈ r := by simpa using hqr
                  obtain ⟨r2, hr2⟩ : ∃ r2, r.dropWhile (· ≠ q) = q :: r2 := dropWhile_to hqin
                  have e5 : r = r.takeWhile (· ≠ q) ++ q :: r2 := by rw [← hr2, List.takeWhile_append_dropWhile]
                  rw [hr2] at has
                  simp only [List.drop_succ_cons, List.drop_zero] at has
                  have hnq : q ∉ r.takeWhile (· ≠ q) := fun h => by
                    have := mem_takeWhile h
                    simp at this
                  have hname : IsName (s1.takeWhile nameChar) :=
                    ⟨hne, fun c hc => (nameChar_iff c).mp (mem_takeWhile hc)⟩
                  have ha : s.takeWhile xmlSpace ≠ [] := by
                    intro h0
                    rw [h0, List.nil_append] at e1
                    cases s with
                    | nil => simp at hns
                    | cons c s =>
                      have hc : xmlSpace c = true := by simpa using ht
                      rw [List.takeWhile_cons, if_pos hc] at h0
                      cases h0
                  have := Attributes.cons ha (hsp s) hname (hsp s2) (hsp s3) hq (attValue_sound hv hnq) (ih _ _ has)
                    (contains_of.mp (by simpa using hco))
                  have es : s = s.takeWhile xmlSpace ++ s1.takeWhile nameChar ++ s2.takeWhile xmlSpace ++ [61] ++
                      s3.takeWhile xmlSpace ++ [q] ++ r.takeWhile (· ≠ q) ++ [q] ++ r2 := by
                    have : s = s.takeWhile xmlSpace ++ (s1.takeWhile nameChar ++ (s2.takeWhile xmlSpace ++ (61 ::
                        (s3.takeWhile xmlSpace ++ q :: (r.takeWhile (· ≠ q) ++ q :: r2))))) := by
                      rw [← e5, ← e4, ← e3, ← e2, ← e1]
                    simpa using this
                  rw [← es] at this
                  exact this
        · cases h
      · cases h
    · cases h

/-! ## Tags -/

theorem attributes_head {s : PyStr} {l : List (PyStr × PyStr)} (h : Attributes s l) : ∀ c, s.head? = some c → nameChar c = false := by
  intro c hc
  cases h with
  | nil h =>
    cases s with
    | nil => cases hc
    | cons d s => cases hc; exact space_notName (h _ List.mem_cons_self)
  | cons ne ha =>
    rename_i a n b c' raw v s q l _ _ _ _ _ _ _
    cases a with
    | nil => exact absurd rfl ne
    | cons d a =>
      simp only [List.cons_append, List.head?_cons, Option.some.injEq] at hc
      exact hc ▸ space_notName (ha _ List.mem_cons_self)

theorem attributes_len {s : PyStr} {l : List (PyStr × PyStr)} (h : Attributes s l) : l.length ≤ s.length := by
  induction h with
  | nil => simp
  | cons _ _ _ _ _ _ _ _ _ ih => simp; omega

theorem attributes_last {s : PyStr} {l : List (PyStr × PyStr)} (h : Attributes s l) : s.getLast? ≠ some 47 := by
  induction h with
  | nil h =>
    intro hl
    have := h 47 (List.mem_of_getLast? hl)
    unfold IsSpace at this
    omega
  | cons ne ha hn hb hc hq hv hs once ih =>
    rename_i a n b c raw v s q l
    rw [List.getLast?_append]
    cases hg : s.getLast? with
    | some d => rw [hg] at ih; simpa using ih
    | none => rw [Option.none_or, List.getLast?_concat]; rcases hq with rfl | rfl <;> simp

theorem name_last {n s : PyStr} (hn : IsName n) {l : List (PyStr × PyStr)} (h : Attributes s l) : (n ++ s).getLast? ≠ some 47 := by
  rw [List.getLast?_append]
  have := attributes_last h
  cases hg : s.getLast? with
  | some d => rw [hg] at this; simpa using this
  | none =>
    intro hl
    have := (hn.2 47 (List.mem_of_getLast? hl)).2
    exact this (by decide)

theorem name_first {n : PyStr} (hn : IsName n) (s : PyStr) : (n ++ s).head? ≠ some 47 := by
  obtain ⟨x, n', rfl⟩ := List.exists_cons_of_ne_nil hn.1
  intro h
  cases h
  exact (hn.2 47 List.mem_cons_self).2 (by decide)

theorem readStartTag_iff (t : PyStr) (n : PyStr) (a : Attrs) : readStartTag t = .ok (n, a) ↔
    ∃ s l, t = n ++ s ∧ IsName n ∧ Attributes s l ∧ a = attrsOf l := by
  unfold readStartTag
  constructor
  · intro h
    split at h
    · cases h
    rename_i hne
    cases hr : readAttrs t.length (t.dropWhile nameChar) with
    | error e => rw [hr] at h; cases h
    | ok l =>
      rw [hr] at h
      cases h
      exact ⟨t.dropWhile nameChar, l, by rw [List.takeWhile_append_dropWhile],
        ⟨hne, fun c hc => (nameChar_iff c).mp (mem_takeWhile hc)⟩, attributes_sound _ _ _ hr, rfl⟩
  · rintro ⟨s, l, rfl, hn, hs, rfl⟩
    obtain ⟨h1, h2⟩ := while_stop (isName_char hn) (attributes_head hs)
    rw [h1, h2, if_neg hn.1, attributes_complete hs _ (by have := attributes_len hs; simp; omega)]

theorem readTag_iff (t : PyStr) (k : TagTok) : readTag t = .ok k ↔
    match k with
    | .start n a => ∃ s l, t = n ++ s ∧ IsName n ∧ Attributes s l ∧ a = attrsOf l
    | .empty n a => ∃ s l, t = n ++ s ++ [47] ∧ IsName n ∧ Attributes s l ∧ a = attrsOf l
    | .stop n => ∃ s, t = 47 :: n ++ s ∧ IsName n ∧ Spaces s := by
  constructor
  · intro h
    unfold readTag at h
    split at h
    · rename_i h47
      split at h
      · rename_i hc
        cases h
        obtain ⟨c, t', rfl⟩ : ∃ c t', t = c :: t' := by cases t with | nil => cases h47 | cons c t => exact ⟨c, t, rfl⟩
        cases h47
        refine ⟨_, ?_, ⟨hc.1, fun c hc => (nameChar_iff c).mp (mem_takeWhile hc)⟩, (spaces_iff _).mp hc.2⟩
        simp
      · cases h
    · split at h
      · rename_i hl
        cases hr : readStartTag t.dropLast with
        | error e => rw [hr] at h; cases h
        | ok p =>
          obtain ⟨n, a⟩ := p
          rw [hr] at h
          cases h
          obtain ⟨s, l, h1, h2⟩ := (readStartTag_iff _ _ _).mp hr
          refine ⟨s, l, ?_, h2⟩
          rw [← h1]
          obtain ⟨t', rfl⟩ := List.getLast?_eq_some_iff.mp hl
          simp
      · cases hr : readStartTag t with
        | error e => rw [hr] at h; cases h
        | ok p =>
          obtain ⟨n, a⟩ := p
          rw [hr] at h
          cases h
          exact (readStartTag_iff _ _ _).mp hr
  · intro h
    cases k with
    | start n a =>
      obtain ⟨s, l, rfl, hn, hs, rfl⟩ := h
      unfold readTag
      rw [if_neg (name_first hn s), if_neg (name_last hn hs), (readStartTag_iff _ _ _).mpr ⟨s, l, rfl, hn, hs, rfl⟩]
      rfl
    | empty n a =>
      obtain ⟨s, l, rfl, hn, hs, rfl⟩ := h
      unfold readTag
      rw [List.append_assoc, if_neg (name_first hn _), ← List.append_assoc, if_pos (by simp), List.dropLast_concat,
        (readStartTag_iff _ _ _).mpr ⟨s, l, rfl, hn, hs, rfl⟩]
      rfl
    | stop n =>
      obtain ⟨s, rfl, hn, hs⟩ := h
      obtain ⟨h1, h2⟩ := while_stop (isName_char hn) (s := s) (by
        intro c hc
        cases s with
        | nil => cases hc
        | cons d s => cases hc; exact space_notName (hs _ List.mem_cons_self))
      unfold readTag
      rw [if_pos (by simp)]
      simp only [List.cons_append, List.drop_succ_cons, List.drop_zero, h1, h2]
      rw [if_pos ⟨hn.1, (spaces_iff s).mpr hs⟩]

theorem tag_known {t : Tag} (h : t ≠ .other) : t ∈ Tag.known := by
  rcases t with _ | _ | _ | _ | _ | _ | _ | _ | _ | _ | _ | _ | _ | _ | _ | _ | _ | _ | _ | _ | _ | _ | _ | _ | _ | _ | _ | _ | _ | _ | _ | _ | _ | _ | _ | _ | _ | k | _
  all_goals first | exact absurd rfl h | decide | (cases k <;> decide)

theorem known_other : Tag.other ∉ Tag.known := by decide

theorem named_iff (n : PyStr) (t : Tag) : Named n t ↔ t = tagOf n := by
  constructor
  · rintro (⟨h, rfl⟩ | ⟨rfl, h⟩)
    · exact (tagOf_name h).symm
    · unfold tagOf
      rw [List.find?_eq_none.mpr]
      · rfl
      · intro u hu
        have : u ≠ .other := fun e => known_other (e ▸ hu)
        simpa using h u this
  · rintro rfl
    unfold tagOf
    cases hf : Tag.known.find? (·.name = n) with
    | some u =>
      have h1 := List.mem_of_find?_eq_some hf
      have h2 := List.find?_some hf
      exact .inl ⟨fun e => known_other ((show u = .other from e) ▸ h1), by simpa using h2⟩
    | none =>
      refine .inr ⟨rfl, fun u hu => ?_⟩
      have := List.find?_eq_none.mp hf u (tag_known hu)
      simpa using this

theorem attrsIn_iff (l : List (PyStr × PyStr)) (a : Attrs) : AttrsIn l a ↔ a = attrsOf l := by
  unfold AttrsIn attrsOf
  obtain ⟨r, n, s⟩ := a
  simp [get_lookup]

/-! ## Every well-formed document is read -/

theorem scan_quoted (q : Nat) (s : PyStr) (hs : ∀ c ∈ s, c ≠ q) (b : PyStr) (out : List Piece) :
    s.foldl Scan.step { mode := .quote q, buf := b, out := out } = { mode := .quote q, buf := b ++ s, out := out } := by
  induction s generalizing b with
  | nil => simp
  | cons c s ih =>
    rw [List.foldl_cons]
    have : Scan.step { mode := .quote q, buf := b, out := out } c = { mode := .quote q, buf := b ++ [c], out := out } := by
      simp [Scan.step, hs c List.mem_cons_self]
    rw [this, ih fun c hc => hs c (List.mem_cons_of_mem _ hc)]
    simp

theorem spaces_plain {s : PyStr} (h : Spaces s) : ∀ c ∈ s, c ≠ 62 ∧ c ≠ 34 ∧ c ≠ 39 := by
  intro c hc
  have := h c hc
  unfold IsSpace at this
  omega

theorem scan_attributes {s : PyStr} {l : List (PyStr × PyStr)} (h : Attributes s l) : ∀ (b : PyStr) (out : List Piece),
    s.foldl Scan.step { mode := .tag, buf := b, out := out } = { mode := .tag, buf := b ++ s, out := out } := by
  induction h with
  | nil h => intro b out; exact scan_tag _ (spaces_plain h) b out
  | cons ne ha hn hb hc hq hv hs once ih =>
    rename_i a n b c raw v s q l
    intro b' out
    have hq0 : q ≠ 62 := by omega
    simp only [List.foldl_append, List.foldl_cons, List.foldl_nil]
    rw [scan_tag _ (spaces_plain ha), scan_tag _ (plainName_scan ((isName_iff n).mpr hn)), scan_tag _ (spaces_plain hb)]
    have h61 : ∀ b out, Scan.step { mode := .tag, buf := b, out := out } 61 = { mode := .tag, buf := b ++ [61], out := out } :=
      fun b out => rfl
    have hq1 : ∀ b out, Scan.step { mode := .tag, buf := b, out := out } q = { mode := .quote q, buf := b ++ [q], out := out } :=
      fun b out => by simp only [Scan.step]; rw [if_neg hq0, if_pos hq]
    have hq2 : ∀ b out, Scan.step { mode := .quote q, buf := b, out := out } q = { mode := .tag, buf := b ++ [q], out := out } :=
      fun b out => by simp [Scan.step]
    rw [h61, scan_tag _ (spaces_plain hc), hq1, scan_quoted q raw fun c hc => (attValue_chars hq hv c hc).2, hq2, ih]
    simp

theorem scan_gt (b : PyStr) (out : List Piece) : Scan.step { mode := .tag, buf := b, out := out } 62 =
    { mode := .text, buf := [], out := out ++ [.tag b] } := rfl

theorem scan_lt (b : PyStr) (out : List Piece) : Scan.step { mode := .text, buf := b, out := out } 60 =
    { mode := .tag, buf := [], out := out ++ [.text b] } := rfl

theorem noLt {s : PyStr} (h : 60 ∉ s) : ∀ c ∈ s, c ≠ 60 := fun _ hc e => h (e ▸ hc)

/-- What is read of an element. -/
def ElementRead (e : PyStr) (x : Xml) : Prop :=
  ∃ e' ps, e = 60 :: e' ∧
    (∀ out, e'.foldl Scan.step { mode := .tag, buf := [], out := out } = { mode := .text, buf := [], out := out ++ ps }) ∧
    ∀ s : Tree, s.root = none → Tree.steps ps s = .ok (s.close x)

/-- What is read of children. -/
def ChildrenRead (c x : PyStr) (k : List Xml) : Prop :=
  (k = [] → x = []) ∧ ∃ ps,
    (∀ out, c.foldl Scan.step { mode := .text, buf := [], out := out } = { mode := .text, buf := [], out := out ++ ps }) ∧
    ∀ (f : XmlFrame) (fs : List XmlFrame), f.text = [] → f.kids = [] →
      Tree.steps ps { stack := f :: fs } = .ok { stack := { f with text := x, kids := k } :: fs }

theorem step_charData {raw u : PyStr} (h : CharData raw u) (f : XmlFrame) (fs : List XmlFrame) (hk : f.kids = [] → f.text = []) :
    Tree.step { stack := f :: fs } (.text raw) = .ok { stack := { f with text := if f.kids = [] then u else f.text } :: fs } := by
  have hcd : cdEnd raw = false := by
    cases hc : cdEnd raw with
    | false => rfl
    | true => exact absurd ((cdEnd_iff raw).mp hc) h.2
  unfold Tree.step
  simp only [hcd, Bool.false_eq_true, if_false, charRefs_complete h.1]
  by_cases h0 : f.kids = []
  · simp [h0, hk h0]
  · simp [h0]

theorem element_read {e : PyStr} {x : Xml} (h : Element e x) : ElementRead e x := by
  refine Element.rec (motive_1 := fun e x _ => ElementRead e x) (motive_2 := fun c x k _ => ChildrenRead c x k) ?_ ?_ ?_ ?_ h
  · intro n s l t a hn hs ht ha
    rw [named_iff] at ht
    rw [attrsIn_iff] at ha
    subst ht ha
    refine ⟨n ++ s ++ [47, 62], [.tag (n ++ s ++ [47])], rfl, ?_, ?_⟩
    · intro out
      simp only [List.foldl_append, List.foldl_cons, List.foldl_nil]
      rw [scan_tag _ (plainName_scan ((isName_iff n).mpr hn)), scan_attributes hs]
      have h47 : ∀ b out, Scan.step { mode := .tag, buf := b, out := out } 47 = { mode := .tag, buf := b ++ [47], out := out } :=
        fun b out => rfl
      rw [h47, scan_gt]
      simp
    · intro s0 hr
      have := (readTag_iff (n ++ s ++ [47]) (.empty n (attrsOf l))).mpr ⟨s, l, rfl, hn, hs, rfl⟩
      simp only [Tree.steps, Tree.step, this]
      rw [if_neg (by simp [hr])]
  · intro n s c raw u x sp l t a k hn hs ht ha _ hr hsp ihc
    rw [named_iff] at ht
    rw [attrsIn_iff] at ha
    subst ht ha
    obtain ⟨hx, ps, h1, h2⟩ := ihc
    refine ⟨n ++ s ++ [62] ++ c ++ raw ++ [60, 47] ++ n ++ sp ++ [62],
      [.tag (n ++ s)] ++ ps ++ [.text raw, .tag (47 :: n ++ sp)], rfl, ?_, ?_⟩
    · intro out
      simp only [List.foldl_append, List.foldl_cons, List.foldl_nil]
      rw [scan_tag _ (plainName_scan ((isName_iff n).mpr hn)), scan_attributes hs, scan_gt, h1,
        scan_text _ (noLt (charRefs_noLt hr.1)), scan_lt]
      have h47 : ∀ b out, Scan.step { mode := .tag, buf := b, out := out } 47 = { mode := .tag, buf := b ++ [47], out := out } :=
        fun b out => rfl
      rw [h47, scan_tag _ (plainName_scan ((isName_iff n).mpr hn)), scan_tag _ (spaces_plain hsp), scan_gt]
      simp
    · intro s0 hr0
      have e1 := (readTag_iff (n ++ s) (.start n (attrsOf l))).mpr ⟨s, l, rfl, hn, hs, rfl⟩
      have e2 := (readTag_iff (47 :: n ++ sp) (.stop n)).mpr ⟨sp, rfl, hn, hsp⟩
      rw [List.append_assoc, steps_append]
      simp only [Tree.steps, Tree.step, e1]
      rw [if_neg (by simp [hr0])]
      dsimp only
      have hs0 : ({ stack := { name := n, attrs := attrsOf l } :: s0.stack, root := s0.root } : Tree) =
          { stack := { name := n, attrs := attrsOf l } :: s0.stack } := by rw [hr0]
      rw [hs0, steps_append, h2 _ _ rfl rfl]
      dsimp only
      rw [steps_cons, step_charData hr _ _ (by simpa using hx)]
      dsimp only
      rw [steps_cons]
      simp only [Tree.step, e2, if_true, Tree.steps]
      obtain ⟨st, rt⟩ := s0
      cases hr0
      rfl
  · exact ⟨fun _ => rfl, [], by simp, by
      intro f fs h1 h2
      simp only [Tree.steps]
      obtain ⟨_, _, _, _⟩ := f
      cases h1; cases h2; rfl⟩
  · intro c x raw u e k y _ hr _ ihc ihe
    obtain ⟨hx, ps, h1, h2⟩ := ihc
    obtain ⟨e', qs, rfl, g1, g2⟩ := ihe
    refine ⟨by simp, ps ++ .text raw :: qs, ?_, ?_⟩
    · intro out
      simp only [List.foldl_append, List.foldl_cons]
      rw [h1, scan_text _ (noLt (charRefs_noLt hr.1)), scan_lt, g1]
      simp
    · intro f fs ht hk
      rw [steps_append, h2 f fs ht hk]
      dsimp only
      rw [steps_cons, step_charData hr _ _ (by simpa using hx)]
      dsimp only
      rw [g2 _ rfl]
      rfl

theorem xmlChar_surrogate {c : Nat} (h : IsXmlChar c) : isSurrogate c = false := by
  unfold IsXmlChar at h
  unfold isSurrogate
  simp
  omega

theorem wellFormed_read {t : PyStr} {x : Xml} (h : WellFormed t x) : parseRoot t = .ok x := by
  obtain ⟨hc, a, e, b, he, ha, hb, hx⟩ := h
  obtain ⟨e', ps, rfl, h1, h2⟩ := element_read hx
  unfold parseRoot
  rw [if_neg (by
    simp only [List.any_eq_true, not_exists, not_and]
    intro c hm hs
    rw [xmlChar_surrogate (hc c hm)] at hs
    cases hs)]
  rw [if_neg (by
    simp only [Classical.not_not, List.all_eq_true]
    exact fun c hm => (xmlChar_iff c).mpr (hc c hm)), lineEnds_eq, he]
  have hlt : ∀ {s : PyStr}, Spaces s → ∀ c ∈ s, c ≠ 60 := by
    intro s hs c hm
    have := hs c hm
    unfold IsSpace at this
    omega
  have hp : pieces (a ++ 60 :: e' ++ b) = some ([.text a] ++ ps ++ [.text b]) := by
    unfold pieces
    simp only [List.foldl_append, List.foldl_cons]
    rw [scan_text _ (hlt ha), scan_lt, h1, scan_text _ (hlt hb)]
    simp
  rw [hp]
  dsimp only
  have ht : Tree.steps ([.text a] ++ ps ++ [.text b]) {} = .ok { root := some x } := by
    rw [List.append_assoc, steps_append]
    simp only [Tree.steps, Tree.step, (spaces_iff a).mpr ha, if_true]
    rw [steps_append, h2 {} rfl]
    simp only [Tree.close, Tree.steps, Tree.step, (spaces_iff b).mpr hb, if_true]
  rw [ht]

/-! ## What is read is a well-formed document -/

/-- Texts and tags in turn. -/
def turnPieces (b : PyStr) (l : List (PyStr × PyStr)) : List Piece := .text b :: l.flatMap fun p => [.tag p.1, .text p.2]

/-- The document of texts and tags in turn. -/
def turnText (b : PyStr) (l : List (PyStr × PyStr)) : PyStr := b ++ l.flatMap fun p => 60 :: p.1 ++ 62 :: p.2

theorem turnPieces_snoc (b : PyStr) (l : List (PyStr × PyStr)) (t u : PyStr) :
    turnPieces b (l ++ [(t, u)]) = turnPieces b l ++ [.tag t, .text u] := by simp [turnPieces]

theorem turnText_snoc (b : PyStr) (l : List (PyStr × PyStr)) (t u : PyStr) :
    turnText b (l ++ [(t, u)]) = turnText b l ++ (60 :: t ++ 62 :: u) := by simp [turnText]

/-- The texts have no tags in them. -/
def TurnOk (b : PyStr) (l : List (PyStr × PyStr)) : Prop := 60 ∉ b ∧ ∀ p ∈ l, 60 ∉ p.2

/-- What the scan has seen. -/
def Seen (t : PyStr) (s : Scan) : Prop :=
  (s.mode = .text ∧ 60 ∉ s.buf ∧ (s.out = [] ∧ t = s.buf ∨
    ∃ b l g, s.out = turnPieces b l ++ [.tag g] ∧ t = turnText b l ++ (60 :: g ++ 62 :: s.buf) ∧ TurnOk b l)) ∨
  (s.mode ≠ .text ∧ ∃ b l, s.out = turnPieces b l ∧ t = turnText b l ++ 60 :: s.buf ∧ TurnOk b l)

theorem seen_step {t : PyStr} {s : Scan} (h : Seen t s) (c : Nat) : Seen (t ++ [c]) (s.step c) := by
  obtain ⟨mode, buf, out⟩ := s
  rcases h with ⟨hm, hb, h⟩ | ⟨hm, b, l, ho, ht, hok⟩
  · cases hm
    dsimp only at hb h
    simp only [Scan.step]
    by_cases hc : c = 60
    · subst hc
      rw [if_pos rfl]
      refine .inr ⟨by simp, ?_⟩
      rcases h with ⟨rfl, rfl⟩ | ⟨b, l, g, rfl, rfl, hok⟩
      · exact ⟨_, [], rfl, by simp [turnText], hb, by simp⟩
      · refine ⟨b, l ++ [(g, buf)], ?_, ?_, hok.1, ?_⟩
        · rw [turnPieces_snoc]; simp
        · rw [turnText_snoc]
        · intro p hp
          rcases List.mem_append.mp hp with hp | hp
          · exact hok.2 p hp
          · rw [List.mem_singleton.mp hp]; exact hb
    · rw [if_neg hc]
      refine .inl ⟨rfl, by simp [hb, Ne.symm hc], ?_⟩
      rcases h with ⟨rfl, rfl⟩ | ⟨b, l, g, rfl, rfl, hok⟩
      · exact .inl ⟨rfl, rfl⟩
      · exact .inr ⟨b, l, g, rfl, by simp, hok⟩
  · dsimp only at hm ho ht
    subst ho ht
    cases mode with
    | text => exact absurd rfl hm
    | tag =>
      simp only [Scan.step]
      by_cases hc : c = 62
      · subst hc
        rw [if_pos rfl]
        exact .inl ⟨rfl, by simp, .inr ⟨b, l, buf, rfl, by simp, hok⟩⟩
      · rw [if_neg hc]
        refine .inr ⟨?_, b, l, rfl, by simp, hok⟩
        dsimp only
        split <;> simp
    | quote q =>
      simp only [Scan.step]
      refine .inr ⟨?_, b, l, rfl, by simp, hok⟩
      dsimp only
      split <;> simp

theorem seen_scan (t : PyStr) : Seen t (t.foldl Scan.step {}) := by
  suffices ∀ (u : PyStr) (t0 : PyStr) (s : Scan), Seen t0 s → Seen (t0 ++ u) (u.foldl Scan.step s) from
    this t [] {} (.inl ⟨rfl, by simp, .inl ⟨rfl, rfl⟩⟩)
  intro u
  induction u with
  | nil => intro t0 s h; simpa using h
  | cons c u ih =>
    intro t0 s h
    have := ih _ _ (seen_step h c)
    simpa using this

theorem pieces_turn {t : PyStr} {ps : List Piece} (h : pieces t = some ps) :
    ∃ b l, ps = turnPieces b l ∧ t = turnText b l ∧ TurnOk b l := by
  unfold pieces at h
  have hs := seen_scan t
  dsimp only at h
  split at h
  · rename_i hm
    cases h
    rcases hs with ⟨_, hb, ⟨ho, ht⟩ | ⟨b, l, g, ho, ht, hok⟩⟩ | ⟨h, _⟩
    · exact ⟨_, [], by rw [ho]; rfl, by simpa [turnText] using ht, hb, by simp⟩
    · refine ⟨b, l ++ [(g, _)], ?_, by rw [turnText_snoc]; exact ht, hok.1, ?_⟩
      · rw [ho, turnPieces_snoc]; simp
      · intro p hp
        rcases List.mem_append.mp hp with hp | hp
        · exact hok.2 p hp
        · rw [List.mem_singleton.mp hp]; exact hb
    · exact absurd hm h
  · cases h

/-- The elements that were begun and the document up to here, behind a text. -/
inductive Begun : PyStr → List XmlFrame → Prop
  | nil {s : PyStr} (h : Spaces s) : Begun s []
  | cons {s n a c x raw u : PyStr} {l : List (PyStr × PyStr)} {k : List Xml} {fs : List XmlFrame} (h : Begun s fs) (hn : IsName n)
      (ha : Attributes a l) (hc : Children c x k) (hr : CharData raw u) :
      Begun (s ++ (60 :: n ++ a ++ [62] ++ c ++ raw))
        ({ name := n, attrs := attrsOf l, text := if k = [] then u else x, kids := k } :: fs)

/-- What the tree holds of the document up to here. -/
def TreeOk (t : PyStr) (s : Tree) : Prop :=
  (s.root = none ∧ Begun t s.stack) ∨
  ∃ a e b x, s = { root := some x } ∧ t = a ++ e ++ b ∧ Spaces a ∧ Spaces b ∧ Element e x

theorem charData_sound {b u : PyStr} (h : decodeRefs b none = .ok u) (hcd : cdEnd b = false) (h60 : 60 ∉ b) : CharData b u :=
  ⟨(charRefs_sound _ _ _ h h60).1 rfl, fun hi => by rw [(cdEnd_iff b).mpr hi] at hcd; cases hcd⟩

/-- A text behind a tag. -/
theorem text_step {s s' : Tree} {b : PyStr} (h : s.step (.text b) = .ok s') (h60 : 60 ∉ b) :
    (s.stack = [] ∧ Spaces b ∧ s' = s) ∨ ∃ f fs u, s.stack = f :: fs ∧ CharData b u ∧
      s' = { s with stack := { f with text := if f.kids = [] then f.text ++ u else f.text } :: fs } := by
  obtain ⟨stack, root⟩ := s
  simp only [Tree.step] at h
  cases stack with
  | nil =>
    dsimp only at h
    split at h
    · rename_i hs
      cases h
      exact .inl ⟨rfl, (spaces_iff b).mp hs, rfl⟩
    · cases h
  | cons f fs =>
    dsimp only at h
    split at h
    · cases h
    · rename_i hcd
      cases hd : decodeRefs b none with
      | error e => rw [hd] at h; cases h
      | ok u =>
        rw [hd] at h
        cases h
        refine .inr ⟨f, fs, u, rfl, charData_sound hd (by simpa using hcd) h60, ?_⟩
        simp [List.isEmpty_iff]

theorem begun_close {t : PyStr} {fs : List XmlFrame} (h : Begun t fs) {e : PyStr} {x : Xml} (he : Element e x) {b : PyStr}
    (h60 : 60 ∉ b) {s2 : Tree} (h2 : (({ stack := fs } : Tree).close x).step (.text b) = .ok s2) :
    TreeOk (t ++ e ++ b) s2 := by
  cases h with
  | nil h =>
    rcases text_step h2 h60 with ⟨_, hb, rfl⟩ | ⟨f, fs, u, hs, _⟩
    · exact .inr ⟨_, e, b, x, rfl, rfl, h, hb, he⟩
    · cases hs
  | cons h hn ha hc hr =>
    rename_i s n a c x' raw u l k fs
    rcases text_step h2 h60 with ⟨hs, _⟩ | ⟨f, fs', u', hs, hcd, rfl⟩
    · cases hs
    · simp only [Tree.close, List.cons.injEq] at hs
      obtain ⟨rfl, rfl⟩ := hs
      refine .inl ⟨rfl, ?_⟩
      have := Begun.cons h hn ha (Children.snoc hc hr he) hcd
      simp only [List.append_eq_nil_iff, List.cons_ne_self, and_false, if_false] at this ⊢
      have e : s ++ (60 :: n ++ a ++ [62] ++ c ++ raw) ++ e ++ b =
          s ++ (60 :: n ++ a ++ [62] ++ (c ++ raw ++ e) ++ b) := by simp
      rw [e]
      exact this

theorem turn_step {t : PyStr} {s s1 s2 : Tree} (h : TreeOk t s) {g b : PyStr} (h1 : s.step (.tag g) = .ok s1)
    (h2 : s1.step (.text b) = .ok s2) (h60 : 60 ∉ b) : TreeOk (t ++ (60 :: g ++ 62 :: b)) s2 := by
  simp only [Tree.step] at h1
  cases hg : readTag g with
  | error e => rw [hg] at h1; cases h1
  | ok k =>
    rw [hg] at h1
    have hk := (readTag_iff g k).mp hg
    cases k with
    | start n a =>
      obtain ⟨sa, l, rfl, hn, hs, rfl⟩ := hk
      dsimp only at h1
      split at h1
      · cases h1
      · rename_i hr
        cases h1
        rcases h with ⟨hr, hb⟩ | ⟨_, _, _, _, rfl, _⟩
        · rcases text_step h2 h60 with ⟨hs, _⟩ | ⟨f, fs, u, hst, hcd, rfl⟩
          · cases hs
          · simp only [List.cons.injEq] at hst
            obtain ⟨rfl, rfl⟩ := hst
            refine .inl ⟨hr, ?_⟩
            have := Begun.cons hb hn hs Children.nil hcd
            simpa using this
        · exact absurd rfl hr
    | empty n a =>
      obtain ⟨sa, l, rfl, hn, hs, rfl⟩ := hk
      dsimp only at h1
      split at h1
      · cases h1
      · rename_i hr
        cases h1
        rcases h with ⟨hr, hb⟩ | ⟨_, _, _, _, rfl, _⟩
        · obtain ⟨stack, root⟩ := s
          cases hr
          have he := Element.empty hn hs ((named_iff n _).mpr rfl) ((attrsIn_iff l _).mpr rfl)
          have := begun_close hb he h60 h2
          simpa using this
        · exact absurd rfl hr
    | stop n =>
      obtain ⟨sp, rfl, hn, hsp⟩ := hk
      dsimp only at h1
      rcases h with ⟨hr, hb⟩ | ⟨_, _, _, _, rfl, _⟩
      · obtain ⟨stack, root⟩ := s
        cases hr
        cases hb with
        | nil => cases h1
        | cons h hn' ha hc hr =>
          rename_i s n' a c x' raw u l k fs
          dsimp only at h1
          split at h1
          · rename_i hne
            subst hne
            cases h1
            have he := Element.full hn ha ((named_iff _ _).mpr rfl) ((attrsIn_iff l _).mpr rfl) hc hr hsp
            have := begun_close h he h60 h2
            have e : ∀ n' : PyStr, s ++ (60 :: n' ++ a ++ [62] ++ c ++ raw) ++ (60 :: (47 :: n' ++ sp) ++ 62 :: b) =
                s ++ ((txt! "<") ++ n' ++ a ++ (txt! ">") ++ c ++ raw ++ (txt! "</") ++ n' ++ sp ++ (txt! ">")) ++ b := by
              intro n'
              show _ = s ++ ([60] ++ n' ++ a ++ [62] ++ c ++ raw ++ [60, 47] ++ n' ++ sp ++ [62]) ++ b
              simp
            rw [e]
            exact this
          · cases h1
      · cases h1

theorem turns (l : List (PyStr × PyStr)) : ∀ (t : PyStr) (s s' : Tree), TreeOk t s →
    Tree.steps (l.flatMap fun p => [.tag p.1, .text p.2]) s = .ok s' → (∀ p ∈ l, 60 ∉ p.2) →
    TreeOk (t ++ l.flatMap fun p => 60 :: p.1 ++ 62 :: p.2) s' := by
  induction l with
  | nil => intro t s s' h h1 _; cases h1; simpa using h
  | cons p l ih =>
    intro t s s' h h1 hp
    simp only [List.flatMap_cons, List.cons_append, List.nil_append] at h1
    rw [steps_cons] at h1
    cases e1 : s.step (.tag p.1) with
    | error e => rw [e1] at h1; cases h1
    | ok s1 =>
      rw [e1] at h1
      dsimp only at h1
      rw [steps_cons] at h1
      cases e2 : s1.step (.text p.2) with
      | error e => rw [e2] at h1; cases h1
      | ok s2 =>
        rw [e2] at h1
        have := ih _ _ _ (turn_step h e1 e2 (hp p List.mem_cons_self)) h1 fun q hq => hp q (List.mem_cons_of_mem _ hq)
        simpa using this

theorem read_wellFormed {t : PyStr} {x : Xml} (h : parseRoot t = .ok x) : WellFormed t x := by
  unfold parseRoot at h
  split at h
  · cases h
  split at h
  · cases h
  rename_i hc
  have hc : ∀ c ∈ t, IsXmlChar c := by
    intro c hm
    simp only [Classical.not_not, List.all_eq_true] at hc
    exact (xmlChar_iff c).mp (hc c hm)
  cases hp : pieces (normEol t) with
  | none => rw [hp] at h; cases h
  | some ps =>
    rw [hp] at h
    dsimp only at h
    obtain ⟨b, l, rfl, ht, hok⟩ := pieces_turn hp
    cases hs : Tree.steps (turnPieces b l) {} with
    | error e => rw [hs] at h; cases h
    | ok s =>
      rw [hs] at h
      unfold turnPieces at hs
      rw [steps_cons] at hs
      cases h0 : Tree.step {} (.text b) with
      | error e => rw [h0] at hs; cases hs
      | ok s0 =>
        rw [h0] at hs
        dsimp only at hs
        have hok0 : TreeOk b s0 := by
          rcases text_step h0 hok.1 with ⟨_, hb, rfl⟩ | ⟨_, _, _, hst, _⟩
          · exact .inl ⟨rfl, .nil hb⟩
          · cases hst
        rcases turns l b s0 s hok0 hs hok.2 with ⟨hr, _⟩ | ⟨a, e, c, x', rfl, he, ha, hcs, hx⟩
        · obtain ⟨st, rt⟩ := s
          cases hr
          cases st <;> cases h
        · cases h
          exact ⟨hc, a, e, c, by rw [← lineEnds_eq, ht]; exact he, ha, hcs, hx⟩

theorem readsAs_iff (t : PyStr) (xs : List Xml) : ReadsAs t xs ↔ elementTree.parse t = .ok xs := by
  show _ ↔ parseXml t = .ok xs
  unfold parseXml
  constructor
  · rintro ⟨tag, a, x, h⟩
    rw [wellFormed_read h]
    rfl
  · intro h
    cases hp : parseRoot t with
    | error e => rw [hp] at h; cases h
    | ok y =>
      rw [hp] at h
      obtain ⟨tag, a, x, k⟩ := y
      cases h
      exact ⟨tag, a, x, read_wellFormed hp⟩

theorem decodeRefs_error (s : PyStr) : ∀ (o : Option PyStr) (e : Err), decodeRefs s o = .error e → e = .parseError := by
  induction s with
  | nil => intro o e h; cases o <;> cases h; rfl
  | cons c s ih =>
    have hm : ∀ (d : Nat) (e : Err), (decodeRefs s none).map (d :: ·) = .error e → e = .parseError := by
      intro d e h
      cases hd : decodeRefs s none with
      | error e' => rw [hd] at h; cases h; exact ih _ _ hd
      | ok r => rw [hd] at h; cases h
    intro o e h
    cases o with
    | none =>
      rw [decodeRefs_cons] at h
      split at h
      · exact ih _ _ h
      · exact hm _ _ h
    | some r =>
      rw [decodeRefs_ref] at h
      split at h
      · cases he : entity r with
        | none => rw [he] at h; cases h; rfl
        | some d => rw [he] at h; exact hm _ _ h
      · exact ih _ _ h

theorem decodeAttr_error {s : PyStr} {e : Err} (h : decodeAttr s = .error e) : e = .parseError := by
  unfold decodeAttr at h
  split at h
  · cases h; rfl
  · exact decodeRefs_error _ _ _ h

theorem readAttrs_error (k : Nat) : ∀ (s : PyStr) (e : Err), readAttrs k s = .error e → e = .parseError := by
  induction k with
  | zero =>
    intro s e h
    simp only [readAttrs] at h
    split at h <;> cases h
    rfl
  | succ k ih =>
    intro s e h
    simp only [readAttrs] at h
    split at h
    · cases h
    split at h
    · split at h
      · split at h
        · split at h
          · cases h; rfl
          · split at h
            · rename_i hd
              cases h; exact decodeAttr_error hd
            · split at h
              · rename_i hr
                cases h; exact ih _ _ hr
              · split at h
                · cases h; rfl
                · cases h
        · cases h; rfl
      · cases h; rfl
    · cases h; rfl

theorem readTag_error {t : PyStr} {e : Err} (h : readTag t = .error e) : e = .parseError := by
  have hs : ∀ (t : PyStr) (e : Err), readStartTag t = .error e → e = .parseError := by
    intro t e h
    unfold readStartTag at h
    split at h
    · cases h; rfl
    · split at h
      · rename_i hr; cases h; exact readAttrs_error _ _ _ hr
      · cases h
  unfold readTag at h
  split at h
  · split at h <;> cases h; rfl
  · split at h
    · cases hr : readStartTag t.dropLast with
      | error e' => rw [hr] at h; cases h; exact hs _ _ hr
      | ok p => rw [hr] at h; cases h
    · cases hr : readStartTag t with
      | error e' => rw [hr] at h; cases h; exact hs _ _ hr
      | ok p => rw [hr] at h; cases h

theorem treeStep_error {s : Tree} {p : Piece} {e : Err} (h : s.step p = .error e) : e = .parseError := by
  cases p with
  | text t =>
    simp only [Tree.step] at h
    split at h
    · split at h <;> cases h; rfl
    · split at h
      · cases h; rfl
      · split at h
        · rename_i hd; cases h; exact decodeRefs_error _ _ _ hd
        · cases h
  | tag t =>
    simp only [Tree.step] at h
    split at h
    · rename_i hr; cases h; exact readTag_error hr
    · split at h
      · cases h; rfl
      · split at h <;> cases h; rfl
    · split at h <;> cases h; rfl
    · split at h <;> cases h; rfl

theorem treeSteps_error (ps : List Piece) : ∀ (s : Tree) (e : Err), Tree.steps ps s = .error e → e = .parseError := by
  induction ps with
  | nil => intro s e h; cases h
  | cons p ps ih =>
    intro s e h
    rw [steps_cons] at h
    cases hp : s.step p with
    | error e' => rw [hp] at h; cases h; exact treeStep_error hp
    | ok s' => rw [hp] at h; exact ih _ _ h

/-- The exceptions of the reader. -/
theorem parse_error {t : PyStr} {e : Err} (h : elementTree.parse t = .error e) :
    e = if t.any isSurrogate then .unicodeError else .parseError := by
  have h : parseXml t = .error e := h
  unfold parseXml at h
  split at h
  · rename_i e' hr
    cases h
    unfold parseRoot at hr
    split at hr
    · rename_i hs; cases hr; rw [if_pos hs]
    · rename_i hs
      rw [if_neg hs]
      split at hr
      · cases hr; rfl
      · split at hr
        · cases hr; rfl
        · split at hr
          · rename_i hst; cases hr; exact treeSteps_error _ _ _ hst
          · split at hr
            · cases hr
            · cases hr; rfl
  · cases h

end Verif
