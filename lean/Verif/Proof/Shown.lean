import Verif.Spec.Shown
import Verif.Proof.PSObject
import Verif.Proof.Transport

/-! # Lemmas on `vars` and `repr` -/

namespace Verif

open PsObj

variable {V : Type}

theorem getValue_valueIn (env : Scripts V) (fuel : Nat) (o : PsObj V) (p : PsProp V) :
    o.getValue env fuel p = p.valueIn env fuel o := by
  unfold getValue PsProp.valueIn
  cases p.body with
  | note v => cases v <;> rfl
  | script g s => simp only; cases env.get g o <;> rfl
  | alias t =>
    cases fuel with
    | zero => rfl
    | succ fuel => simp only; cases o.getAttr env fuel t <;> rfl

theorem mem_firstMentions (ns : List PyStr) (n : PyStr) : n ∈ firstMentions ns ↔ n ∈ ns := by
  induction ns with
  | nil => simp [firstMentions]
  | cons m ns ih =>
    simp only [firstMentions, List.mem_cons, List.mem_filter, decide_eq_true_eq, ih]
    by_cases h : n = m <;> simp [h]

theorem firstMentions_nodup (ns : List PyStr) : (firstMentions ns).Nodup := by
  induction ns with
  | nil => simp [firstMentions]
  | cons m ns ih =>
    simp only [firstMentions, List.nodup_cons, List.mem_filter, decide_eq_true_eq]
    exact ⟨fun h => h.2 rfl, ih.filter _⟩

theorem set_keys {β : Type} (d : Dict PyStr β) (k : PyStr) (v : β) :
    (d.set k v).keys = if k ∈ d.keys then d.keys else d.keys ++ [k] := by
  induction d with
  | nil => simp [Dict.set, Dict.keys]
  | cons e d ih =>
    obtain ⟨k', v'⟩ := e
    unfold Dict.set
    by_cases h : k' = k
    · simp [h, Dict.keys]
    · have h' : ¬ k = k' := fun e => h e.symm
      rw [if_neg h]
      have e1 : Dict.keys ((k', v') :: Dict.set d k v) = k' :: (Dict.set d k v).keys := rfl
      have e2 : Dict.keys ((k', v') :: d) = k' :: Dict.keys d := rfl
      rw [e1, e2, ih]
      by_cases hm : k ∈ Dict.keys d <;> simp [hm, h']

/-- The keys of a dict after a number of items were set. -/
theorem fold_keys {α β : Type} (key : α → PyStr) (val : α → β) (xs : List α) : ∀ d : Dict PyStr β,
    (xs.foldl (fun d x => d.set (key x) (val x)) d).keys =
      d.keys ++ (firstMentions (xs.map key)).filter (fun n => decide (n ∉ d.keys)) := by
  induction xs with
  | nil => intro d; simp [firstMentions]
  | cons x xs ih =>
    intro d
    rw [List.foldl_cons, ih, set_keys]
    simp only [List.map_cons, firstMentions]
    by_cases h : key x ∈ d.keys
    · rw [if_pos h, List.filter_cons_of_neg (by simpa using h), List.filter_filter]
      congr 1
      apply List.filter_congr
      intro n _
      by_cases hn : n = key x
      · subst hn; simp [h]
      · simp [hn]
    · rw [if_neg h, List.filter_cons_of_pos (by simpa using h), List.filter_filter, List.append_assoc]
      congr 1
      show _ :: _ = _
      congr 1
      apply List.filter_congr
      intro n _
      by_cases hn : n = key x
      · subst hn; simp
      · simp [hn]

/-- What a dict has under a name after a number of items were set. -/
theorem fold_get {α β : Type} (key : α → PyStr) (val : α → β) (xs : List α) : ∀ (d : Dict PyStr β) (n : PyStr),
    (xs.foldl (fun d x => d.set (key x) (val x)) d).get? n =
      match (xs.filter (fun x => decide (key x = n))).getLast? with
      | some x => some (val x)
      | none => d.get? n := by
  induction xs with
  | nil => intro d n; simp
  | cons x xs ih =>
    intro d n
    rw [List.foldl_cons, ih]
    by_cases h : key x = n
    · rw [List.filter_cons_of_pos (by simpa using h), List.getLast?_cons]
      cases (xs.filter (fun x => decide (key x = n))).getLast? with
      | none => simp only [Option.getD_none]; rw [← h]; exact Dict.get?_set_self _ _ _
      | some y => rfl
    · rw [List.filter_cons_of_neg (by simpa using h)]
      cases (xs.filter (fun x => decide (key x = n))).getLast? with
      | none => exact Dict.get?_set_ne _ _ h
      | some y => rfl

theorem entries_keys (o : PsObj V) : o.propEntries.map Prod.fst = o.names := by
  have := fold_keys (fun p : PsProp V => p.name) id (o.adapted ++ o.extended) []
  simp only [Dict.keys, List.map_nil, List.nil_append, List.not_mem_nil, not_false_eq_true, decide_true]
    at this
  refine Eq.trans this ?_
  exact List.filter_eq_self.mpr (by simp)

theorem entries_get (o : PsObj V) (n : PyStr) : o.propEntries.get? n = o.propOf n := by
  have := fold_get (fun p : PsProp V => p.name) id (o.adapted ++ o.extended) [] n
  refine this.trans ?_
  unfold propOf
  cases ((o.adapted ++ o.extended).filter (fun p => decide (p.name = n))).getLast? <;> rfl

theorem get_mem {β : Type} {d : Dict PyStr β} (hd : (d.map Prod.fst).Nodup) {e : PyStr × β} (he : e ∈ d) :
    d.get? e.1 = some e.2 := by
  induction d with
  | nil => cases he
  | cons x d ih =>
    obtain ⟨k, v⟩ := x
    simp only [List.map_cons, List.nodup_cons] at hd
    unfold Dict.get?
    rcases List.mem_cons.mp he with rfl | he
    · simp
    · have : k ≠ e.1 := fun h => hd.1 (h ▸ List.mem_map.mpr ⟨e, he, rfl⟩)
      rw [if_neg this]
      exact ih hd.2 he

/-- The values of the entries are those of the properties that are found under their names. -/
theorem entries_values (env : Scripts V) (fuel : Nat) (o : PsObj V) (read : PyStr → Except Err (Option V))
    (hr : ∀ n p, o.propOf n = some p → read n = p.valueIn env fuel o) :
    o.propEntries.map (fun e => o.getValue env fuel e.2) = o.names.map read := by
  rw [← entries_keys, List.map_map]
  apply List.map_congr_left
  intro e he
  have hn : (o.propEntries.map Prod.fst).Nodup := by rw [entries_keys]; exact firstMentions_nodup _
  have := get_mem hn he
  rw [entries_get] at this
  rw [getValue_valueIn]
  exact (hr e.1 e.2 this).symm

theorem readAll_ok (env : Scripts V) (fuel : Nat) (o : PsObj V) : ∀ (es : Dict PyStr (PsProp V)) (vs : Dict PyStr (Option V)),
    o.readAll env fuel es = .ok vs ↔
      vs.map Prod.fst = es.map Prod.fst ∧ es.map (fun e => o.getValue env fuel e.2) = vs.map (fun e => .ok e.2)
  | [], vs => by
    cases vs with
    | nil => simp [readAll]
    | cons v vs => simp [readAll]
  | (n, p) :: es, vs => by
    unfold readAll
    cases hv : o.getValue env fuel p with
    | error e =>
      simp only [List.map_cons, hv]
      cases vs with
      | nil => simp
      | cons v vs => simp
    | ok v =>
      have ih := readAll_ok env fuel o es
      cases vs with
      | nil =>
        simp only [List.map_cons, hv]
        cases o.readAll env fuel es <;> simp
      | cons w vs =>
        obtain ⟨m, w⟩ := w
        simp only [List.map_cons, hv, List.cons.injEq, Except.ok.injEq]
        cases hr : o.readAll env fuel es with
        | error e =>
          simp only [reduceCtorEq, false_iff]
          rintro ⟨⟨_, h1⟩, _, h2⟩
          have := (ih vs).mpr ⟨h1, h2⟩
          rw [hr] at this
          cases this
        | ok us =>
          simp only [Except.ok.injEq, List.cons.injEq, Prod.mk.injEq]
          constructor
          · rintro ⟨⟨rfl, rfl⟩, rfl⟩
            obtain ⟨h1, h2⟩ := (ih us).mp hr
            exact ⟨⟨rfl, h1⟩, rfl, h2⟩
          · rintro ⟨⟨rfl, h1⟩, rfl, h2⟩
            have := (ih vs).mpr ⟨h1, h2⟩
            rw [hr] at this
            cases this
            exact ⟨⟨rfl, rfl⟩, rfl⟩

theorem readAll_error (env : Scripts V) (fuel : Nat) (o : PsObj V) (err : Err) (read : PyStr → Except Err (Option V)) :
    ∀ (es : Dict PyStr (PsProp V)), (∀ e ∈ es, o.getValue env fuel e.2 = read e.1) →
      (o.readAll env fuel es = .error err ↔ FirstError read (es.map Prod.fst) err)
  | [], _ => by
    simp only [readAll, reduceCtorEq, List.map_nil, false_iff]
    rintro ⟨a, n, b, h, _⟩
    simp at h
  | (n, p) :: es, h => by
    have ih := readAll_error env fuel o err read es (fun e he => h e (List.mem_cons_of_mem _ he))
    have hn := h (n, p) (List.mem_cons_self ..)
    dsimp only at hn
    unfold readAll
    cases hv : o.getValue env fuel p with
    | error e =>
      rw [hv] at hn
      simp only [Except.error.injEq, List.map_cons]
      constructor
      · rintro rfl
        exact ⟨[], n, _, rfl, by simp, hn.symm⟩
      · rintro ⟨a, m, b, h1, h2, h3⟩
        cases a with
        | nil =>
          simp only [List.nil_append, List.cons.injEq] at h1
          rw [← h1.1, ← hn] at h3
          cases h3; rfl
        | cons x a =>
          simp only [List.cons_append, List.cons.injEq] at h1
          obtain ⟨v, hx⟩ := h2 x (List.mem_cons_self ..)
          rw [← h1.1, ← hn] at hx
          cases hx
    | ok v =>
      rw [hv] at hn
      have e1 : (match o.readAll env fuel es with
          | .error e => Except.error e
          | .ok vs => .ok ((n, v) :: vs)) = .error err ↔ o.readAll env fuel es = .error err := by
        cases o.readAll env fuel es <;> simp
      refine e1.trans (ih.trans ?_)
      simp only [List.map_cons]
      constructor
      · rintro ⟨a, m, b, h1, h2, h3⟩
        refine ⟨n :: a, m, b, by rw [h1]; rfl, ?_, h3⟩
        intro x hx
        rcases List.mem_cons.mp hx with rfl | hx
        · exact ⟨v, hn.symm⟩
        · exact h2 x hx
      · rintro ⟨a, m, b, h1, h2, h3⟩
        cases a with
        | nil =>
          simp only [List.nil_append, List.cons.injEq] at h1
          rw [← h1.1, ← hn] at h3
          cases h3
        | cons x a =>
          simp only [List.cons_append, List.cons.injEq] at h1
          exact ⟨a, m, b, h1.2, fun y hy => h2 y (List.mem_cons_of_mem _ hy), h3⟩

theorem commas_eq (es : List (PyStr × PyStr)) :
    List.intercalate (txt! ", ") (es.map fun e => e.1 ++ txt! "=" ++ e.2) = commaList es := by
  induction es with
  | nil => rfl
  | cons e es ih =>
    cases es with
    | nil => simp [commaList, List.intercalate]
    | cons f es =>
      rw [commaList]
      · rw [← ih]
        simp [List.intercalate]
      · simp

end Verif
