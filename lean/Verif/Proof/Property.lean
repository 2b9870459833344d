import Verif.Spec.Property

/-! # Property objects: lemmas for C86 -/

namespace Verif

variable {O V : Type}

/-! ## Signatures -/

theorem count_positional (e : Nat) (k : ParamKind) (hk : k = .positionalOnly ∨ k = .positionalOrKeyword) :
    ∀ (bs : List Bool) (rest : List FuncParam) (r t : Nat),
    countParams e (bs.map (FuncParam.mk k) ++ rest) r t = countParams e rest (r + bs.countP (· = false)) (t + bs.length)
  | [], _, _, _ => rfl
  | b :: bs, rest, r, t => by
    rw [List.map_cons, List.cons_append, countParams, if_pos (by rcases hk with rfl | rfl <;> rfl), count_positional e k hk bs]
    cases b
    · simp only [Bool.false_eq_true, if_false, List.countP_cons, decide_true, if_true, List.length_cons]
      congr 1 <;> omega
    · simp only [if_true, List.countP_cons, Bool.true_eq_false, decide_false, Bool.false_eq_true, if_false, List.length_cons]
      congr 1 <;> omega

theorem count_keywords (e : Nat) (k : ParamKind) (hk : k = .keywordOnly ∨ k = .varKeyword) :
    ∀ (bs : List Bool) (rest : List FuncParam) (r t : Nat),
    countParams e (bs.map (FuncParam.mk k) ++ rest) r t = countParams e rest r t
  | [], _, _, _ => rfl
  | b :: bs, rest, r, t => by
    rw [List.map_cons, List.cons_append, countParams, if_neg (by rcases hk with rfl | rfl <;> decide +revert),
      if_neg (by rcases hk with rfl | rfl <;> simp), count_keywords e k hk bs]

theorem count_signature (e : Nat) (s : Signature) : countParams e s.params 0 0 =
    (s.positional.countP (· = false), if s.varArgs then e else s.positional.length) := by
  unfold Signature.params Signature.positional
  rw [List.append_assoc, List.append_assoc, List.append_assoc, count_positional e _ (.inl rfl), count_positional e _ (.inr rfl)]
  cases s.varArgs
  · simp only [Bool.false_eq_true, if_false, List.nil_append]
    rw [count_keywords e _ (.inl rfl), List.countP_append, List.length_append]
    cases s.varKw <;> simp [countParams, FuncParam.positional]
  · rw [if_pos rfl, if_pos rfl, List.singleton_append, countParams, if_neg (by decide), if_pos rfl, List.countP_append]
    simp

theorem required_le : ∀ (bs : List Bool), bs.Pairwise (fun a b => a = true → b = true) → ∀ n,
    (bs.countP (· = false) ≤ n ↔ ∀ i (h : i < bs.length), n ≤ i → bs[i] = true)
  | [], _, n => by simp
  | true :: bs, hp, n => by
    have hall : ∀ b ∈ bs, b = true := fun b hb => (List.pairwise_cons.mp hp).1 b hb rfl
    have h0 : (true :: bs).countP (· = false) = 0 := by
      rw [List.countP_eq_zero]
      intro b hb
      rcases List.mem_cons.mp hb with rfl | hb
      · simp
      · simp [hall b hb]
    rw [h0]
    refine ⟨fun _ i h _ => ?_, fun _ => Nat.zero_le _⟩
    cases i with
    | zero => rfl
    | succ i => exact hall _ (List.getElem_mem _)
  | false :: bs, hp, n => by
    have ih := required_le bs (List.pairwise_cons.mp hp).2
    rw [List.countP_cons, if_pos (by simp)]
    cases n with
    | zero =>
      refine ⟨fun h => by omega, fun h => ?_⟩
      have := h 0 (by simp) (Nat.le_refl 0)
      simp at this
    | succ n =>
      rw [Nat.add_le_add_iff_right, ih n]
      refine ⟨fun h i hi hn => ?_, fun h i hi hn => ?_⟩
      · cases i with
        | zero => omega
        | succ i => exact h i (by simpa using hi) (by omega)
      · exact h (i + 1) (by simpa using hi) (by omega)

theorem validate_func (f : Func) (n : Nat) (s : Signature) (hf : f.params = s.params) (hs : s.Legal) :
    (validateCallable (.func f) n = .ok () ↔ (∀ i (h : i < s.positional.length), n ≤ i → s.positional[i] = true) ∧
      (s.positional.length < n → s.varArgs = true)) := by
  have h1 := required_le s.positional hs n
  rw [← h1]
  unfold validateCallable
  dsimp only
  rw [hf, count_signature]
  dsimp only
  cases s.varArgs
  · simp only [Bool.false_eq_true, if_false]
    split
    · rename_i h
      exact Iff.intro (fun h => nomatch h) (fun h2 => absurd h2.1 (by omega))
    · rename_i h
      split
      · rename_i h3
        exact Iff.intro (fun h => nomatch h) (fun h2 => nomatch (h2.2 h3))
      · rename_i h3
        exact ⟨fun _ => ⟨by omega, fun h4 => absurd h4 h3⟩, fun _ => rfl⟩
  · simp only [if_true]
    split
    · rename_i h
      exact Iff.intro (fun h => nomatch h) (fun h2 => absurd h2.1 (by omega))
    · rename_i h
      rw [if_neg (by omega)]
      exact ⟨fun _ => ⟨by omega, fun _ => trivial⟩, fun _ => rfl⟩

theorem validate_error {g : Given} {n : Nat} {e : Err} (h : validateCallable g n = .error e) : e = .typeError := by
  cases g with
  | none => exact (Except.error.inj h).symm
  | other b => exact (Except.error.inj h).symm
  | func f =>
    simp only [validateCallable] at h
    split at h
    · exact (Except.error.inj h).symm
    · split at h
      · exact (Except.error.inj h).symm
      · exact nomatch h

theorem filter_kind (k : ParamKind) (bs : List Bool) : (bs.map (FuncParam.mk k)).filter (·.positional) =
    if k = .positionalOnly ∨ k = .positionalOrKeyword then bs.map (FuncParam.mk k) else [] := by
  induction bs with
  | nil => simp
  | cons b bs ih =>
    rw [List.map_cons, List.filter_cons, ih]
    cases k <;> simp [FuncParam.positional]

theorem positional_params (s : Signature) : (s.params.filter (·.positional)).map (·.hasDefault) = s.positional := by
  unfold Signature.params Signature.positional
  simp only [List.filter_append, filter_kind]
  have h1 : (if s.varArgs = true then [FuncParam.mk .varPositional false] else []).filter (·.positional) = [] := by
    cases s.varArgs <;> rfl
  have h2 : (if s.varKw = true then [FuncParam.mk .varKeyword false] else []).filter (·.positional) = [] := by
    cases s.varKw <;> rfl
  rw [h1, h2]
  simp [Function.comp_def]

theorem binds_iff (f : Func) (n : Nat) (s : Signature) (hf : f.params = s.params) : f.binds n = true ↔ s.Takes n := by
  have hp := positional_params s
  have hl : (s.params.filter (·.positional)).length = s.positional.length := by rw [← hp, List.length_map]
  have hd : ((s.params.filter (·.positional)).drop n).all (·.hasDefault) = true ↔
      ∀ i (h : i < s.positional.length), n ≤ i → s.positional[i] = true := by
    have : ((s.params.filter (·.positional)).drop n).all (·.hasDefault) = (s.positional.drop n).all id := by
      rw [← hp, ← List.map_drop, List.all_map]
      rfl
    rw [this, List.all_eq_true]
    constructor
    · intro h i hi hn
      refine h _ ?_
      rw [List.mem_drop_iff_getElem]
      exact ⟨i - n, by omega, by congr 1; omega⟩
    · intro h b hb
      rw [List.mem_drop_iff_getElem] at hb
      obtain ⟨i, hi, rfl⟩ := hb
      exact h _ _ (by omega)
  have hv : s.params.any (·.kind = .varPositional) = true ↔ s.varArgs = true := by
    unfold Signature.params
    cases s.varArgs <;> cases s.varKw <;> simp
  have hk : s.params.all (fun p => p.kind ≠ .keywordOnly || p.hasDefault) = true ↔ ∀ b ∈ s.kwOnly, b = true := by
    unfold Signature.params
    cases s.varArgs <;> cases s.varKw <;> simp [List.all_eq_true, or_imp, forall_and] <;>
    · constructor
      · intro h hb; exact absurd rfl (by simpa using h _ hb)
      · intro h b hb; cases b <;> simp_all
  unfold Func.binds
  rw [hf]
  simp only [Bool.and_eq_true, Bool.or_eq_true, decide_eq_true_eq, hd, hv, hk, hl]
  unfold Signature.Takes
  constructor
  · rintro ⟨⟨h1, h2⟩, h3⟩
    exact ⟨h2, h3, fun h4 => h1.resolve_left (by omega)⟩
  · rintro ⟨h1, h2, h3⟩
    refine ⟨⟨?_, h1⟩, h2⟩
    by_cases h : n ≤ s.positional.length
    · exact .inl h
    · exact .inr (h3 (by omega))

/-! ## Where the value of a property comes from -/

/-- At most one source for the value, no setter without getter, and functions that were validated. -/
structure PropInfo.Coherent (p : PropInfo V) : Prop where
  one : p.value.isSome → p.getter = none
  read : p.setter.isSome → p.getter.isSome
  getter : ∀ f, p.getter = some (.func f) → validateCallable (.func f) 1 = .ok ()
  setter : ∀ f, p.setter = some f → validateCallable (.func f) 2 = .ok ()

theorem setGetter_cases (p : PropInfo V) (g : Given) :
    (p.value = none ∧ ∃ f, g = .func f ∧ validateCallable (.func f) 1 = .ok () ∧
      p.setGetter g = ({ p with getter := some (.func f) }, .ok ())) ∨
    ((p.value.isSome ∨ validateCallable g 1 ≠ .ok ()) ∧ ∃ e, p.setGetter g = (p, .error e)) := by
  unfold PropInfo.setGetter
  cases hv : p.value with
  | some v => exact .inr ⟨.inl rfl, _, rfl⟩
  | none =>
    cases g with
    | none => exact .inr ⟨.inr (fun h => nomatch h), _, rfl⟩
    | other b => exact .inr ⟨.inr (fun h => nomatch h), _, rfl⟩
    | func f =>
      cases hc : validateCallable (.func f) 1 with
      | ok u => exact .inl ⟨rfl, f, rfl, hc, by simp [hv, hc]⟩
      | error e => exact .inr ⟨.inr (fun h => nomatch h), e, by simp [hv, hc]⟩

theorem setSetter_cases (p : PropInfo V) (g : Given) :
    (p.getter.isSome ∧ g = .none ∧ p.setSetter g = ({ p with setter := none }, .ok ())) ∨
    (p.getter.isSome ∧ ∃ f, g = .func f ∧ validateCallable (.func f) 2 = .ok () ∧
      p.setSetter g = ({ p with setter := some f }, .ok ())) ∨
    ((p.getter = none ∨ (g ≠ .none ∧ validateCallable g 2 ≠ .ok ())) ∧ ∃ e, p.setSetter g = (p, .error e)) := by
  unfold PropInfo.setSetter
  cases hg : p.getter with
  | none => exact .inr (.inr ⟨.inl rfl, _, rfl⟩)
  | some x =>
    cases g with
    | none => exact .inl ⟨rfl, rfl, by simp [hg]⟩
    | other b => exact .inr (.inr ⟨.inr ⟨by simp, fun h => nomatch h⟩, _, rfl⟩)
    | func f =>
      cases hc : validateCallable (.func f) 2 with
      | ok u => exact .inr (.inl ⟨rfl, f, rfl, hc, by simp [hg, hc]⟩)
      | error e => exact .inr (.inr ⟨.inr ⟨by simp, fun h => nomatch h⟩, e, by simp [hg, hc]⟩)

theorem PropInfo.Coherent.setGetter {p : PropInfo V} (h : p.Coherent) (g : Given) : (p.setGetter g).1.Coherent := by
  rcases setGetter_cases p g with ⟨hv, f, rfl, hc, he⟩ | ⟨_, e, he⟩ <;> rw [he]
  · exact ⟨fun h1 => by simp [hv] at h1, fun _ => rfl, fun f' hf => by cases hf; exact hc, h.setter⟩
  · exact h

theorem PropInfo.Coherent.setSetter {p : PropInfo V} (h : p.Coherent) (g : Given) : (p.setSetter g).1.Coherent := by
  rcases setSetter_cases p g with ⟨hg, rfl, he⟩ | ⟨hg, f, rfl, hc, he⟩ | ⟨_, e, he⟩ <;> rw [he]
  · exact ⟨h.one, fun h1 => by simp at h1, h.getter, fun f hf => by simp at hf⟩
  · exact ⟨h.one, fun _ => hg, h.getter, fun f' hf => by cases hf; exact hc⟩
  · exact h

theorem PropInfo.Coherent.setValue {p : PropInfo V} (h : p.Coherent) (env : Calls O V) (v : Option V) (o : O) :
    (p.setValue env v o).1.1.Coherent := by
  unfold PropInfo.setValue
  cases hs : p.setter with
  | some f => dsimp only; split <;> exact h
  | none =>
    cases hg : p.getter with
    | some g => exact h
    | none =>
      cases hc : p.castTo v with
      | error e => simp only [Option.isSome_none, Bool.false_eq_true, if_false]; exact h
      | ok w =>
        simp only [Option.isSome_none, Bool.false_eq_true, if_false]
        exact ⟨fun _ => rfl, fun h1 => by simp at h1, fun f hf => by simp at hf, fun f hf => by simp at hf⟩

theorem PropInfo.Coherent.after (env : Calls O V) : ∀ (ops : List (PropOp V)) (p : PropInfo V) (o : O), p.Coherent →
    (PropInfo.after env ops (p, o)).1.Coherent
  | [], _, _, h => h
  | .getter g :: ops, _, o, h => after env ops _ o (h.setGetter g)
  | .setter g :: ops, _, o, h => after env ops _ o (h.setSetter g)
  | .value v :: ops, _, o, h => after env ops _ _ (h.setValue env v o)

theorem newNote_eq {n : PyStr} {v : Option (Option V)} {m : Bool} {t : Option (PsTypeOf V)} {p : PropInfo V}
    (h : PropInfo.newNote n v m t = .ok p) : ∃ w, p = { kind := .note, name := n, mandatory := m, psType := t, value := w } ∧
      (v = none → w = none) ∧ (∀ x, v = some x → ∃ y, w = some y ∧ PropInfo.castTo { kind := .note, name := n, mandatory := m, psType := t } x = .ok y) := by
  unfold PropInfo.newNote at h
  cases v with
  | none => exact ⟨none, by simpa using h.symm, fun _ => rfl, fun x hx => nomatch hx⟩
  | some x =>
    dsimp only at h
    cases hc : PropInfo.castTo (V := V) { kind := .note, name := n, mandatory := m, psType := t } x with
    | error e => rw [hc] at h; exact nomatch h
    | ok y =>
      rw [hc] at h
      refine ⟨some y, (Except.ok.inj h).symm, fun h => (nomatch h), fun z hz => ?_⟩
      cases hz
      exact ⟨y, rfl, hc⟩

theorem newScript_eq {n : PyStr} {g s : Given} {m : Bool} {t : Option (PsTypeOf V)} {p : PropInfo V}
    (h : PropInfo.newScript n g s m t = .ok p) : g ≠ .none ∧ (m = true → s.truthy = true) ∧
    ((∃ f, g = .func f ∧ validateCallable g 1 = .ok () ∧
        ((s.truthy = false ∧ p = { kind := .script, name := n, mandatory := m, psType := t, getter := some (.func f) }) ∨
          (∃ k, s = .func k ∧ validateCallable s 2 = .ok () ∧
            p = { kind := .script, name := n, mandatory := m, psType := t, getter := some (.func f), setter := some k }))) ∨
      (g = .other false ∧ s.truthy = false ∧ p = { kind := .script, name := n, mandatory := m, psType := t })) := by
  unfold PropInfo.newScript at h
  by_cases h1 : g = .none
  · rw [if_pos h1] at h; exact nomatch h
  · rw [if_neg h1] at h
    by_cases h2 : (m && !s.truthy) = true
    · rw [if_pos h2] at h; exact nomatch h
    · rw [if_neg h2] at h
      refine ⟨h1, fun hm => by cases hs : s.truthy <;> simp_all, ?_⟩
      dsimp only at h
      cases g with
      | none => exact absurd rfl h1
      | other b =>
        cases b with
        | true => exact nomatch h
        | false =>
          right
          cases s with
          | none => exact ⟨rfl, rfl, by simpa [Given.truthy] using h.symm⟩
          | other b' =>
            cases b' with
            | true => simp [Given.truthy, PropInfo.setSetter] at h
            | false => exact ⟨rfl, rfl, by simpa [Given.truthy] using h.symm⟩
          | func k => simp [Given.truthy, PropInfo.setSetter] at h
      | func f =>
        left
        refine ⟨f, rfl, ?_⟩
        cases hc : validateCallable (.func f) 1 with
        | error e => simp [Given.truthy, PropInfo.setGetter, hc] at h
        | ok u =>
          refine ⟨rfl, ?_⟩
          cases s with
          | none => exact .inl ⟨rfl, by simpa [Given.truthy, PropInfo.setGetter, hc] using h.symm⟩
          | other b' =>
            cases b' with
            | true => simp [Given.truthy, PropInfo.setSetter, PropInfo.setGetter, hc] at h
            | false => exact .inl ⟨rfl, by simpa [Given.truthy, PropInfo.setGetter, hc] using h.symm⟩
          | func k =>
            right
            refine ⟨k, rfl, ?_⟩
            cases hk : validateCallable (.func k) 2 with
            | error e => simp [Given.truthy, PropInfo.setSetter, PropInfo.setGetter, hc, hk] at h
            | ok u => exact ⟨rfl, by simpa [Given.truthy, PropInfo.setSetter, PropInfo.setGetter, hc, hk] using h.symm⟩

theorem PropInfo.Constructed.coherent {p : PropInfo V} (h : p.Constructed) : p.Coherent := by
  rcases h with ⟨n, v, m, t, h⟩ | ⟨n, a, t, h⟩ | ⟨n, g, s, m, t, h⟩
  · obtain ⟨w, rfl, _⟩ := newNote_eq h
    exact ⟨fun _ => rfl, fun h => (nomatch h), fun f hf => (nomatch hf), fun f hf => nomatch hf⟩
  · cases h
    exact ⟨fun h => (nomatch h), fun h => (nomatch h), fun f hf => by simp at hf, fun f hf => nomatch hf⟩
  · obtain ⟨_, _, ⟨f, rfl, hg, ⟨_, rfl⟩ | ⟨k, rfl, hk, rfl⟩⟩ | ⟨_, _, rfl⟩⟩ := newScript_eq h
    · exact ⟨fun h => (nomatch h), fun h => (nomatch h), fun f' hf => by cases hf; exact hg, fun f hf => nomatch hf⟩
    · exact ⟨fun h => (nomatch h), fun _ => rfl, fun f' hf => by cases hf; exact hg, fun f' hf => by cases hf; exact hk⟩
    · exact ⟨fun h => (nomatch h), fun h => (nomatch h), fun f hf => (nomatch hf), fun f hf => nomatch hf⟩

/-! ## Copies -/

/-- A property as its class makes it, with a value that was cast: what `copy` gives back. -/
def PropInfo.Regular (p : PropInfo V) : Prop :=
  match p.kind with
  | .note => p.getter = none ∧ p.setter = none ∧ ∀ v, p.value = some v → p.castTo v = .ok v
  | .alias t => p.value = none ∧ p.getter = some (.alias t) ∧ p.setter = none ∧ p.mandatory = false
  | .script => p.value = none ∧ (∃ f, p.getter = some (.func f) ∧ validateCallable (.func f) 1 = .ok ()) ∧
      (p.mandatory = true → p.setter.isSome) ∧ ∀ k, p.setter = some k → validateCallable (.func k) 2 = .ok ()

theorem PropInfo.Regular.copy {p : PropInfo V} (h : p.Regular) : p.copy = .ok p := by
  obtain ⟨kind, name, mandatory, psType, value, getter, setter⟩ := p
  cases kind with
  | note =>
    obtain ⟨h1, h2, h3⟩ := h
    dsimp only at h1 h2 h3
    subst h1 h2
    unfold PropInfo.copy PropInfo.newNote
    cases value with
    | none => rfl
    | some v =>
      have := h3 v rfl
      have h4 : ∀ x : Option V, PropInfo.castTo { kind := .note, name, mandatory, psType } x =
        PropInfo.castTo { kind := .note, name, mandatory, psType, value := some v } x := fun x => by cases x <;> rfl
      dsimp only
      rw [h4, this]
      rfl
  | alias t =>
    obtain ⟨h1, h2, h3, h4⟩ := h
    dsimp only at h1 h2 h3 h4
    subst h1 h2 h3 h4
    rfl
  | script =>
    obtain ⟨h1, ⟨f, h2, h3⟩, h4, h5⟩ := h
    dsimp only at h1 h2 h3 h4 h5
    subst h1 h2
    cases setter with
    | none =>
      have hm : mandatory = false := by
        cases mandatory with
        | false => rfl
        | true => exact absurd (h4 rfl) (by simp)
      subst hm
      simp [PropInfo.copy, PropInfo.newScript, PropInfo.getterGiven, Given.truthy, PropInfo.setGetter, h3]
    | some k =>
      have := h5 k rfl
      simp [PropInfo.copy, PropInfo.newScript, PropInfo.getterGiven, Given.truthy, PropInfo.setGetter, PropInfo.setSetter, h3, this]

theorem castTo_again {p : PropInfo V} (ht : p.TypeMakes) {v w : Option V} (h : p.castTo v = .ok w) : p.castTo w = .ok w := by
  unfold PropInfo.castTo at h
  cases v with
  | none => cases h; rfl
  | some x =>
    dsimp only at h
    cases hp : p.psType with
    | none => rw [hp] at h; cases h; simp [PropInfo.castTo, hp]
    | some t =>
      rw [hp] at h
      dsimp only at h
      split at h
      · rename_i hi; cases h; simp [PropInfo.castTo, hp, hi]
      · cases hm : t.make x with
        | error e => rw [hm] at h; exact nomatch h
        | ok y =>
          rw [hm] at h
          cases h
          simp [PropInfo.castTo, hp, ht t hp x y hm]

/-- The getter given to the constructor of a script property is no falsy value other than `None`. -/
theorem PropInfo.Constructed.regular {p : PropInfo V} (h : p.Constructed) (ht : p.TypeMakes)
    (hg : p.kind = .script → p.getter.isSome) : p.Regular := by
  rcases h with ⟨n, v, m, t, h⟩ | ⟨n, a, t, h⟩ | ⟨n, g, s, m, t, h⟩
  · obtain ⟨w, rfl, h1, h2⟩ := newNote_eq h
    refine ⟨rfl, rfl, fun x hx => ?_⟩
    dsimp only at hx
    cases v with
    | none => rw [h1 rfl] at hx; exact nomatch hx
    | some y =>
      obtain ⟨z, h3, h4⟩ := h2 y rfl
      rw [h3] at hx
      cases hx
      subst h3
      refine castTo_again ht (v := y) ?_
      cases y <;> exact h4
  · cases h
    exact ⟨rfl, rfl, rfl, rfl⟩
  · obtain ⟨_, hm, ⟨f, rfl, hf, ⟨hs, rfl⟩ | ⟨k, rfl, hk, rfl⟩⟩ | ⟨_, _, rfl⟩⟩ := newScript_eq h
    · refine ⟨rfl, ⟨f, rfl, hf⟩, fun h1 => ?_, fun k hk => nomatch hk⟩
      rw [hm h1] at hs
      exact nomatch hs
    · exact ⟨rfl, ⟨f, rfl, hf⟩, fun _ => rfl, fun k' hk' => by cases hk'; exact hk⟩
    · exact absurd (hg rfl) (by simp)

theorem setValue_fields (env : Calls O V) (p : PropInfo V) (v : Option V) (o : O) :
    (p.setValue env v o).1.1 = p ∨ (p.getter = none ∧ p.setter = none ∧ ∃ w, p.castTo v = .ok w ∧
      (p.setValue env v o) = (({ p with value := some w }, o), .ok ())) := by
  unfold PropInfo.setValue
  cases hs : p.setter with
  | some f => left; dsimp only; split <;> rfl
  | none =>
    cases hg : p.getter with
    | some g => exact .inl rfl
    | none =>
      cases hc : p.castTo v with
      | error e => left; simp
      | ok w => right; exact ⟨rfl, rfl, w, rfl, by simp⟩

theorem PropInfo.Regular.setValue {p : PropInfo V} (h : p.Regular) (ht : p.TypeMakes) (env : Calls O V) (v : Option V) (o : O) :
    (p.setValue env v o).1.1.Regular ∧ (p.setValue env v o).1.1.TypeMakes := by
  rcases setValue_fields env p v o with he | ⟨hg, hs, w, hc, he⟩
  · rw [he]; exact ⟨h, ht⟩
  · rw [he]
    refine ⟨?_, ht⟩
    have h2 := castTo_again ht hc
    obtain ⟨kind, name, mandatory, psType, value, getter, setter⟩ := p
    dsimp only at hg hs
    subst hg hs
    cases kind with
    | note =>
      refine ⟨rfl, rfl, fun x hx => ?_⟩
      cases hx
      cases w <;> exact h2
    | alias t => exact nomatch h.2.1
    | script => obtain ⟨_, ⟨f, h3, _⟩, _⟩ := h; exact nomatch h3

theorem PropInfo.Regular.values (env : Calls O V) : ∀ (vs : List (Option V)) (p : PropInfo V) (o : O), p.Regular → p.TypeMakes →
    (PropInfo.after env (vs.map .value) (p, o)).1.Regular
  | [], _, _, h, _ => h
  | v :: vs, p, o, h, ht =>
    values env vs _ _ (h.setValue ht env v o).1 (h.setValue ht env v o).2

end Verif
