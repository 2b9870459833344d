import Verif.Spec.PSObject
import Verif.Proof.Transport

/-! # Extended type system: helper lemmas -/

namespace Verif

variable {V : Type}

namespace PsObj

theorem filter_none {ps : List (PsProp V)} {n : PyStr} (h : n ∉ propNames ps) :
    ps.filter (fun p => decide (p.name = n)) = [] := by
  rw [List.filter_eq_nil_iff]
  intro p hp
  simp only [decide_eq_true_eq]
  intro e
  exact h (List.mem_map.mpr ⟨p, hp, e⟩)

theorem findProp_none {ps : List (PsProp V)} {n : PyStr} : findProp n ps = none ↔ n ∉ propNames ps := by
  induction ps with
  | nil => simp [findProp, propNames]
  | cons p ps ih =>
    unfold findProp
    by_cases h : p.name = n
    · simp [h, propNames]
    · have h' : n ≠ p.name := fun e => h e.symm
      simp only [h, ↓reduceIte, Option.map_eq_none_iff, ih]
      simp [propNames, h']

theorem findProp_some {ps : List (PsProp V)} {n : PyStr} {i : Nat} {p : PsProp V}
    (h : findProp n ps = some (i, p)) :
    ∃ a b, ps = a ++ p :: b ∧ a.length = i ∧ p.name = n ∧ n ∉ propNames a := by
  induction ps generalizing i with
  | nil => cases h
  | cons q ps ih =>
    unfold findProp at h
    by_cases hq : q.name = n
    · simp only [hq, ↓reduceIte, Option.some.injEq, Prod.mk.injEq] at h
      obtain ⟨rfl, rfl⟩ := h
      exact ⟨[], ps, rfl, rfl, hq, by simp [propNames]⟩
    · simp only [hq, ↓reduceIte] at h
      cases hf : findProp n ps with
      | none => rw [hf] at h; cases h
      | some r =>
        obtain ⟨j, r⟩ := r
        rw [hf] at h
        simp only [Option.map_some, Option.some.injEq, Prod.mk.injEq] at h
        obtain ⟨rfl, rfl⟩ := h
        obtain ⟨a, b, rfl, rfl, hn, ha⟩ := ih hf
        refine ⟨q :: a, b, rfl, rfl, hn, ?_⟩
        have hq' : n ≠ q.name := fun e => hq e.symm
        simpa [propNames, hq'] using ha

theorem lastIdx_none {ps : List (PsProp V)} {n : PyStr} : lastIdx n ps = none ↔ n ∉ propNames ps := by
  induction ps with
  | nil => simp [lastIdx, propNames]
  | cons p ps ih =>
    unfold lastIdx
    cases hl : lastIdx n ps with
    | some i =>
      have : n ∈ propNames ps := by
        apply Classical.byContradiction
        intro h
        rw [ih.mpr h] at hl
        cases hl
      simp only [reduceCtorEq, false_iff, Classical.not_not]
      simp only [propNames, List.map_cons, List.mem_cons] at this ⊢
      exact Or.inr this
    | none =>
      have h := ih.mp hl
      by_cases hp : p.name = n
      · simp [hp, propNames]
      · have hp' : n ≠ p.name := fun e => hp e.symm
        simp only [hp, ↓reduceIte, true_iff]
        simpa [propNames, hp'] using h

theorem lastIdx_append {a b : List (PsProp V)} {q : PsProp V} {n : PyStr} (hq : q.name = n)
    (hb : n ∉ propNames b) : lastIdx n (a ++ q :: b) = some a.length := by
  induction a with
  | nil =>
    show lastIdx n (q :: b) = some 0
    unfold lastIdx
    rw [lastIdx_none.mpr hb]
    simp [hq]
  | cons p a ih =>
    show lastIdx n (p :: (a ++ q :: b)) = _
    unfold lastIdx
    rw [ih]
    rfl

theorem mem_split {ps : List (PsProp V)} {n : PyStr} (h : n ∈ propNames ps) (hd : (propNames ps).Nodup) :
    ∃ a q b, ps = a ++ q :: b ∧ q.name = n ∧ n ∉ propNames a ∧ n ∉ propNames b := by
  obtain ⟨q, hq, rfl⟩ := List.mem_map.mp h
  obtain ⟨a, b, rfl⟩ := List.append_of_mem hq
  refine ⟨a, q, b, rfl, rfl, ?_, ?_⟩
  · intro ha
    simp only [propNames, List.map_append, List.map_cons] at hd
    exact (List.nodup_append.mp hd).2.2 _ ha _ (by simp) rfl
  · intro hb
    simp only [propNames, List.map_append, List.map_cons] at hd
    have := (List.nodup_append.mp hd).2.1
    rw [List.nodup_cons] at this
    exact this.1 hb

theorem replace_at (a b : List (PsProp V)) (q p : PsProp V) :
    ((a ++ q :: b).eraseIdx a.length).insertIdx a.length p = a ++ p :: b := by
  induction a with
  | nil => rfl
  | cons x a ih =>
    simp only [List.cons_append, List.length_cons, List.eraseIdx_cons_succ, List.insertIdx_succ_cons, ih]

theorem set_at (a b : List (PsProp V)) (q p : PsProp V) :
    (a ++ q :: b).set a.length p = a ++ p :: b := by
  induction a with
  | nil => rfl
  | cons x a ih => simp only [List.cons_append, List.length_cons, List.set_cons_succ, ih]

theorem propOf_extended {o : PsObj V} {a b : List (PsProp V)} {p : PsProp V}
    (h : o.extended = a ++ p :: b) (hb : p.name ∉ propNames b) : o.propOf p.name = some p := by
  unfold propOf
  rw [h, ← List.append_assoc, List.filter_append, List.filter_cons_of_pos (by simp), filter_none hb]
  simp

theorem propOf_adapted {o : PsObj V} {a b : List (PsProp V)} {p : PsProp V}
    (h : o.adapted = a ++ p :: b) (hb : p.name ∉ propNames b) (he : p.name ∉ propNames o.extended) :
    o.propOf p.name = some p := by
  unfold propOf
  rw [List.filter_append, filter_none he, List.append_nil, h, List.filter_append,
    List.filter_cons_of_pos (by simp), filter_none hb]
  simp

theorem propOf_none {o : PsObj V} {n : PyStr} :
    o.propOf n = none ↔ n ∉ propNames o.extended ∧ n ∉ propNames o.adapted := by
  unfold propOf
  rw [List.getLast?_eq_none_iff, List.filter_eq_nil_iff]
  simp only [List.mem_append, decide_eq_true_eq, propNames, List.mem_map, not_exists, not_and]
  constructor
  · intro h
    exact ⟨fun p hp => h p (Or.inr hp), fun p hp => h p (Or.inl hp)⟩
  · rintro ⟨h1, h2⟩ p (hp | hp)
    · exact h2 p hp
    · exact h1 p hp

/-- Changing the property of one name leaves those of the other names. -/
theorem propOf_other_extended (o : PsObj V) {a b : List (PsProp V)} {p q : PsProp V}
    (h : o.extended = a ++ p :: b) (hq : q.name = p.name) {m : PyStr} (hm : m ≠ p.name) :
    ({ o with extended := a ++ q :: b } : PsObj V).propOf m = o.propOf m := by
  unfold propOf
  have hp : ¬ p.name = m := fun e => hm e.symm
  have hq' : ¬ q.name = m := fun e => hm (by rw [← e, hq])
  simp only [h, List.filter_append, List.filter_cons, hp, hq', decide_false, Bool.false_eq_true,
    ↓reduceIte]

theorem propOf_other_adapted (o : PsObj V) {a b : List (PsProp V)} {p q : PsProp V}
    (h : o.adapted = a ++ p :: b) (hq : q.name = p.name) {m : PyStr} (hm : m ≠ p.name) :
    ({ o with adapted := a ++ q :: b } : PsObj V).propOf m = o.propOf m := by
  unfold propOf
  have hp : ¬ p.name = m := fun e => hm e.symm
  have hq' : ¬ q.name = m := fun e => hm (by rw [← e, hq])
  simp only [h, List.filter_append, List.filter_cons, hp, hq', decide_false, Bool.false_eq_true,
    ↓reduceIte]

theorem any_name (ps : List (PsProp V)) (n : PyStr) :
    (ps.any fun q => decide (q.name = n)) = true ↔ n ∈ propNames ps := by
  simp only [List.any_eq_true, decide_eq_true_eq, propNames, List.mem_map]

theorem addMember_refused {o : PsObj V} {p : PsProp V}
    (h : p.name ∈ propNames o.adapted ∨ p.name ∈ propNames o.extended) :
    o.addMember p false = (o, .error .runtimeError) := by
  unfold addMember
  rw [if_pos]
  rw [any_name, any_name]
  exact ⟨h, rfl⟩

theorem addMember_append {o : PsObj V} {p : PsProp V} {force : Bool}
    (h : p.name ∉ propNames o.adapted ∨ force = true) (hx : p.name ∉ propNames o.extended) :
    o.addMember p force = ({ o with extended := o.extended ++ [p] }, .ok ()) := by
  unfold addMember
  rw [if_neg, lastIdx_none.mpr hx]
  rw [any_name, any_name]
  rintro ⟨h1, h2⟩
  rcases h with h | h
  · exact h1.elim h hx
  · rw [h2] at h; cases h

theorem addMember_replace {o : PsObj V} {p q : PsProp V} {a b : List (PsProp V)}
    (h : o.extended = a ++ q :: b) (hq : q.name = p.name) (hb : p.name ∉ propNames b) :
    o.addMember p true = ({ o with extended := a ++ p :: b }, .ok ()) := by
  unfold addMember
  rw [if_neg (by simp), h, lastIdx_append hq hb]
  simp only [replace_at]

/-- `add_member` in all its cases. -/
theorem addMember_cases (o : PsObj V) (p : PsProp V) (force : Bool)
    (hd : (propNames o.extended).Nodup) :
    (o.addMember p force = (o, .error .runtimeError) ∧ force = false ∧
      (p.name ∈ propNames o.adapted ∨ p.name ∈ propNames o.extended)) ∨
    (o.addMember p force = ({ o with extended := o.extended ++ [p] }, .ok ()) ∧
      p.name ∉ propNames o.extended ∧ (force = false → p.name ∉ propNames o.adapted)) ∨
    (force = true ∧ ∃ a q b, o.extended = a ++ q :: b ∧ q.name = p.name ∧ p.name ∉ propNames a ∧
      p.name ∉ propNames b ∧
      o.addMember p force = ({ o with extended := a ++ p :: b }, .ok ())) := by
  by_cases hx : p.name ∈ propNames o.extended
  · cases force with
    | false => exact Or.inl ⟨addMember_refused (Or.inr hx), rfl, Or.inr hx⟩
    | true =>
      obtain ⟨a, q, b, h, hq, ha, hb⟩ := mem_split hx hd
      exact Or.inr (Or.inr ⟨rfl, a, q, b, h, hq, ha, hb, addMember_replace h hq hb⟩)
  · cases force with
    | false =>
      by_cases h : p.name ∈ propNames o.adapted
      · exact Or.inl ⟨addMember_refused (Or.inl h), rfl, Or.inl h⟩
      · exact Or.inr (Or.inl ⟨addMember_append (Or.inl h) hx, hx, fun _ => h⟩)
    | true => exact Or.inr (Or.inl ⟨addMember_append (Or.inr rfl) hx, hx, by simp⟩)

theorem addMember_nodup (o : PsObj V) (p : PsProp V) (force : Bool)
    (hd : (propNames o.extended).Nodup) :
    (propNames (o.addMember p force).1.extended).Nodup := by
  rcases addMember_cases o p force hd with ⟨h, _⟩ | ⟨h, hx, _⟩ | ⟨_, a, q, b, ho, hq, ha, hb, h⟩
  · rw [h]; exact hd
  · rw [h]
    simp only [propNames, List.map_append, List.map_cons, List.map_nil]
    rw [List.nodup_append]
    refine ⟨hd, by simp, ?_⟩
    intro x hx' y hy e
    simp only [List.mem_singleton] at hy
    subst e
    rw [hy] at hx'
    exact hx hx'
  · rw [h]
    rw [ho] at hd
    simp only [propNames, List.map_append, List.map_cons, hq] at hd ⊢
    exact hd

theorem getAttr_note {env : Scripts V} {fuel : Nat} {o : PsObj V} {n : PyStr} {p : PsProp V}
    {v : Option (Option V)} (hpy : o.pyAttr n = none) (hp : o.propOf n = some p)
    (hv : p.body = .note v) : o.getAttr env fuel n = .ok (v.getD none) := by
  unfold getAttr
  simp only [hpy, hp, hv]

theorem getAttr_prop {env : Scripts V} {fuel : Nat} {o : PsObj V} {n : PyStr} {p : PsProp V}
    (hpy : o.pyAttr n = none) (hp : o.propOf n = some p) :
    o.getAttr env fuel n = p.valueIn env fuel o := by
  unfold getAttr PsProp.valueIn
  simp only [hpy, hp]
  cases hb : p.body with
  | note v => cases v <;> rfl
  | script g s => simp only; cases env.get g o <;> rfl
  | alias t =>
    cases fuel with
    | zero => rfl
    | succ fuel => simp only; cases o.getAttr env fuel t <;> rfl

theorem getAttr_py {env : Scripts V} {fuel : Nat} {o : PsObj V} {n : PyStr} {v : Option V}
    (hpy : o.pyAttr n = some v) : o.getAttr env fuel n = .ok v := by
  unfold getAttr
  simp only [hpy]

theorem getAttr_missing {env : Scripts V} {fuel : Nat} {o : PsObj V} {n : PyStr}
    (hpy : o.pyAttr n = none) (hp : o.propOf n = none) :
    o.getAttr env fuel n = .error .attributeError := by
  unfold getAttr
  simp only [hpy, hp]

/-- A write to a name that is an attribute or no property. -/
theorem setPyAttr_ok {o o' : PsObj V} {n : PyStr} {v : Option V} (h : o.setPyAttr n v = (o', .ok ())) :
    o' = { o with attrs := o.attrs.set n v } ∧ o'.pyAttr n = some v ∧
      ∀ m, m ≠ n → o'.pyAttr m = o.pyAttr m := by
  unfold setPyAttr at h
  split at h
  · cases h
  · rename_i hc
    cases h
    refine ⟨rfl, ?_, ?_⟩
    · unfold pyAttr
      simp only [Dict.get?_set_self]
      cases hcn : o.cls n with
      | none => rfl
      | some c =>
        cases c with
        | plain w => rfl
        | property w => exact absurd hcn (hc w)
    · intro m hm
      unfold pyAttr
      simp only [Dict.get?_set_ne _ _ (fun e : n = m => hm e.symm)]

theorem mem_propNames {ps : List (PsProp V)} {p : PsProp V} (h : p ∈ ps) : p.name ∈ propNames ps :=
  List.mem_map.mpr ⟨p, h, rfl⟩

theorem propOf_mem {o : PsObj V} {n : PyStr} {p : PsProp V} (h : o.propOf n = some p) :
    p ∈ o.adapted ++ o.extended ∧ p.name = n := by
  unfold propOf at h
  have := List.mem_of_getLast? h
  rw [List.mem_filter] at this
  exact ⟨this.1, by simpa using this.2⟩

/-- A write to the note that reading finds. -/
theorem setAttr_note {env : Scripts V} {o : PsObj V} {n : PyStr} {v : Option V} {p : PsProp V}
    (hu : o.UniqueNames) (ha : o.attrs.get? n = none) (hp : o.propOf n = some p) (hn : p.IsNote) :
    (∀ e, p.castValue v = .error e → o.setAttr env n v = (o, .error e)) ∧
    (∀ w, p.castValue v = .ok w → ∃ o', o.setAttr env n v = (o', .ok ()) ∧
      o'.cls = o.cls ∧ o'.attrs = o.attrs ∧ o'.typeNames = o.typeNames ∧
      propNames o'.adapted = propNames o.adapted ∧ propNames o'.extended = propNames o.extended ∧
      o'.propOf n = some { p with body := .note (some w) } ∧ ∀ m, m ≠ n → o'.propOf m = o.propOf m) := by
  have hc : o.attrs.contains n = false := by simp [Dict.contains, ha]
  obtain ⟨u, hbody⟩ := hn
  have key : ∀ (ext : Bool) (i : Nat), (∀ e, p.castValue v = .error e →
      o.setProp env ext i p v = (o, .error e)) ∧ (∀ w, p.castValue v = .ok w →
      o.setProp env ext i p v = (if ext then
        { o with extended := o.extended.set i { p with body := .note (some w) } }
       else { o with adapted := o.adapted.set i { p with body := .note (some w) } }, .ok ())) := by
    intro ext i
    constructor
    · intro e he
      unfold setProp
      simp only [hbody, he]
    · intro w hw
      unfold setProp
      simp only [hbody, hw]
  cases hx : findProp n o.extended with
  | some r =>
    obtain ⟨i, q⟩ := r
    obtain ⟨a, b, ho, rfl, hq, han⟩ := findProp_some hx
    have hb : n ∉ propNames b := by
      obtain ⟨a', q', b', ho', hq', ha', hb'⟩ := mem_split (ps := o.extended) (n := n)
        (by rw [ho, ← hq]; exact mem_propNames (by simp)) hu.1
      intro hb
      have hd := hu.1
      rw [ho] at hd
      simp only [propNames, List.map_append, List.map_cons] at hd
      have := (List.nodup_append.mp hd).2.1
      rw [List.nodup_cons] at this
      exact this.1 (by rw [hq]; exact hb)
    have hpq : o.propOf n = some q := by
      have := propOf_extended ho (by rw [hq]; exact hb)
      rwa [hq] at this
    rw [hpq] at hp
    cases hp
    have hs : o.setAttr env n v = o.setProp env true a.length p v := by
      unfold setAttr
      simp only [hc, Bool.false_eq_true, ↓reduceIte, hx]
    rw [hs]
    refine ⟨(key true _).1, fun w hw => ⟨_, (key true _).2 w hw, rfl, rfl, rfl, rfl, ?_, ?_, ?_⟩⟩
    · simp only [↓reduceIte, ho, set_at]
      simp [propNames]
    · have := propOf_extended (o := { o with extended := a ++ { p with body := .note (some w) } :: b })
        (a := a) (b := b) (p := { p with body := .note (some w) }) rfl (by simpa [hq] using hb)
      simp only [↓reduceIte, ho, set_at]
      rw [← hq]
      exact this
    · intro m hm
      simp only [↓reduceIte, ho, set_at]
      exact propOf_other_extended (q := { p with body := .note (some w) }) o ho rfl (by rw [hq]; exact hm)
  | none =>
    have hxn := findProp_none.mp hx
    cases hy : findProp n o.adapted with
    | none =>
      rw [propOf_none.mpr ⟨hxn, findProp_none.mp hy⟩] at hp
      cases hp
    | some r =>
      obtain ⟨i, q⟩ := r
      obtain ⟨a, b, ho, rfl, hq, han⟩ := findProp_some hy
      have hb : n ∉ propNames b := by
        intro hb
        have hd := hu.2
        rw [ho] at hd
        simp only [propNames, List.map_append, List.map_cons] at hd
        have := (List.nodup_append.mp hd).2.1
        rw [List.nodup_cons] at this
        exact this.1 (by rw [hq]; exact hb)
      have hpq : o.propOf n = some q := by
        have := propOf_adapted ho (by rw [hq]; exact hb) (by rw [hq]; exact hxn)
        rwa [hq] at this
      rw [hpq] at hp
      cases hp
      have hs : o.setAttr env n v = o.setProp env false a.length p v := by
        unfold setAttr
        simp only [hc, Bool.false_eq_true, ↓reduceIte, hx, hy]
      rw [hs]
      refine ⟨(key false _).1, fun w hw => ⟨_, (key false _).2 w hw, rfl, rfl, rfl, ?_, rfl, ?_, ?_⟩⟩
      · simp only [Bool.false_eq_true, ↓reduceIte, ho, set_at]
        simp [propNames]
      · have := propOf_adapted (o := { o with adapted := a ++ { p with body := .note (some w) } :: b })
          (a := a) (b := b) (p := { p with body := .note (some w) }) rfl (by simpa [hq] using hb)
          (by simpa [hq] using hxn)
        simp only [Bool.false_eq_true, ↓reduceIte, ho, set_at]
        rw [← hq]
        exact this
      · intro m hm
        simp only [Bool.false_eq_true, ↓reduceIte, ho, set_at]
        exact propOf_other_adapted (q := { p with body := .note (some w) }) o ho rfl (by rw [hq]; exact hm)

theorem setAttr_py {env : Scripts V} {o : PsObj V} {n : PyStr} {v : Option V}
    (h : (∃ w, o.attrs.get? n = some w) ∨ o.propOf n = none) :
    o.setAttr env n v = o.setPyAttr n v := by
  unfold setAttr
  rcases h with ⟨w, h⟩ | h
  · rw [if_pos (by simp [Dict.contains, h])]
  · split
    · rfl
    · obtain ⟨h1, h2⟩ := propOf_none.mp h
      rw [findProp_none.mpr h1, findProp_none.mpr h2]

/-- A property that refuses writes. -/
theorem setAttr_readonly {env : Scripts V} {o : PsObj V} {n : PyStr} {v : Option V} {p : PsProp V}
    (hu : o.UniqueNames) (ha : o.attrs.get? n = none) (hp : o.propOf n = some p)
    (hn : (∃ t, p.body = .alias t) ∨ ∃ g, p.body = .script g none) :
    o.setAttr env n v = (o, .error .valueError) := by
  have hc : o.attrs.contains n = false := by simp [Dict.contains, ha]
  have key : ∀ (ext : Bool) (i : Nat), o.setProp env ext i p v = (o, .error .valueError) := by
    intro ext i
    unfold setProp
    rcases hn with ⟨t, h⟩ | ⟨g, h⟩ <;> simp only [h]
  have nd : ∀ {ps : List (PsProp V)} {a b : List (PsProp V)} {q : PsProp V}, (propNames ps).Nodup →
      ps = a ++ q :: b → q.name ∉ propNames b := by
    intro ps a b q hd ho hb
    rw [ho] at hd
    simp only [propNames, List.map_append, List.map_cons] at hd
    have := (List.nodup_append.mp hd).2.1
    rw [List.nodup_cons] at this
    exact this.1 hb
  unfold setAttr
  simp only [hc, Bool.false_eq_true, ↓reduceIte]
  cases hx : findProp n o.extended with
  | some r =>
    obtain ⟨i, q⟩ := r
    obtain ⟨a, b, ho, rfl, hq, han⟩ := findProp_some hx
    have hpq := propOf_extended ho (nd hu.1 ho)
    rw [hq, hp] at hpq
    cases hpq
    exact key true _
  | none =>
    have hxn := findProp_none.mp hx
    cases hy : findProp n o.adapted with
    | none =>
      rw [propOf_none.mpr ⟨hxn, findProp_none.mp hy⟩] at hp
      cases hp
    | some r =>
      obtain ⟨i, q⟩ := r
      obtain ⟨a, b, ho, rfl, hq, han⟩ := findProp_some hy
      have hpq := propOf_adapted ho (nd hu.2 ho) (by rw [hq]; exact hxn)
      rw [hq, hp] at hpq
      cases hpq
      exact key false _

end PsObj

theorem strip_cases (ignore : Bool) (n : PyStr) :
    (ignore = true ∧ ∃ d, n = deserializedPrefix ++ d ∧ stripDeserialized ignore n = d) ∨
    ((ignore = true → ¬ ∃ d, n = deserializedPrefix ++ d) ∧ stripDeserialized ignore n = n) := by
  unfold stripDeserialized
  cases ignore with
  | false => right; simp
  | true =>
    by_cases h : deserializedPrefix.isPrefixOf n = true
    · left
      refine ⟨rfl, ?_⟩
      obtain ⟨d, hd⟩ := List.isPrefixOf_iff_prefix.mp h
      refine ⟨d, hd.symm, ?_⟩
      rw [if_pos (by simp [h]), ← hd]
      exact List.drop_left' rfl
    · right
      refine ⟨fun _ hd => ?_, by rw [if_neg (by simp [h])]⟩
      obtain ⟨d, rfl⟩ := hd
      exact h (List.isPrefixOf_iff_prefix.mpr (List.prefix_append _ _))

theorem sameType_iff (ignore : Bool) (a b : PyStr) :
    SameType ignore a b ↔ stripDeserialized ignore a = stripDeserialized ignore b := by
  constructor
  · rintro ⟨c, ha, hb, ha', hb'⟩
    have one : ∀ x : PyStr, (x = c ∨ ignore = true ∧ x = deserializedPrefix ++ c) →
        (ignore = true → x = c → ¬ ∃ d, c = deserializedPrefix ++ d) →
        stripDeserialized ignore x = c := by
      intro x hx hx'
      rcases strip_cases ignore x with ⟨hi, d, hd, hs⟩ | ⟨hn, hs⟩
      · rcases hx with rfl | ⟨_, rfl⟩
        · exact absurd ⟨d, hd⟩ (hx' hi rfl)
        · rw [hs]; exact (List.append_cancel_left hd).symm
      · rcases hx with rfl | ⟨hi, rfl⟩
        · exact hs
        · exact absurd ⟨c, rfl⟩ (hn hi)
    rw [one a ha ha', one b hb hb']
  · intro h
    refine ⟨stripDeserialized ignore a, ?_, ?_, ?_, ?_⟩
    · rcases strip_cases ignore a with ⟨hi, d, hd, hs⟩ | ⟨hn, hs⟩
      · right; rw [hs]; exact ⟨hi, hd⟩
      · left; rw [hs]
    · rw [h]
      rcases strip_cases ignore b with ⟨hi, d, hd, hs⟩ | ⟨hn, hs⟩
      · right; rw [hs]; exact ⟨hi, hd⟩
      · left; rw [hs]
    · intro hi he
      rcases strip_cases ignore a with ⟨_, d, hd, hs⟩ | ⟨hn, hs⟩
      · rw [hs] at he ⊢
        have hl := congrArg List.length hd
        rw [he, List.length_append] at hl
        have : deserializedPrefix.length = 13 := by decide +kernel
        omega
      · rw [hs]; exact hn hi
    · intro hi he
      rw [h] at he ⊢
      rcases strip_cases ignore b with ⟨_, d, hd, hs⟩ | ⟨hn, hs⟩
      · rw [hs] at he ⊢
        have hl := congrArg List.length hd
        rw [he, List.length_append] at hl
        have : deserializedPrefix.length = 13 := by decide +kernel
        omega
      · rw [hs]; exact hn hi

theorem askNames_ok {asked : List TypeAsk} {names : List PyStr} (h : askNames asked = .ok names)
    (n : PyStr) : n ∈ names ↔ ∃ a ∈ asked, a.Asks n := by
  induction asked generalizing names with
  | nil => cases h; simp
  | cons a r ih =>
    have step : ∀ m : PyStr, (askNames r).map (m :: ·) = .ok names → (∀ x, a.Asks x ↔ x = m) →
        (n ∈ names ↔ ∃ b ∈ a :: r, b.Asks n) := by
      intro m hm ha
      cases hr : askNames r with
      | error e => rw [hr] at hm; cases hm
      | ok ns =>
        rw [hr] at hm
        cases hm
        simp only [List.mem_cons, ih hr, exists_eq_or_imp, ha]
    match a, h, step with
    | .name m, h, step => exact step m h (fun _ => Iff.rfl)
    | .other, h, _ =>
      simp only [askNames] at h
      rw [ih h]
      simp [TypeAsk.Asks]
    | .cls [], h, _ => cases h
    | .cls (m :: ms), h, step =>
      refine step m h (fun x => ?_)
      simp only [TypeAsk.Asks, List.head?_cons, Option.some.injEq]
      exact eq_comm

theorem askNames_error (asked : List TypeAsk) (e : Err) :
    askNames asked = .error e → e = .indexError := by
  induction asked with
  | nil => intro h; cases h
  | cons a r ih =>
    have step : ∀ m : PyStr, (askNames r).map (m :: ·) = .error e → e = .indexError := by
      intro m hm
      cases hr : askNames r with
      | error e' => rw [hr] at hm; cases hm; exact ih hr
      | ok ns => rw [hr] at hm; cases hm
    intro h
    match a, h with
    | .name m, h => exact step m h
    | .other, h => exact ih h
    | .cls [], h => cases h; rfl
    | .cls (m :: ms), h => exact step m h

namespace PsObj

theorem propOf_of_mem {o : PsObj V} (hd : (propNames (o.adapted ++ o.extended)).Nodup) {p : PsProp V}
    (hp : p ∈ o.adapted ++ o.extended) : o.propOf p.name = some p := by
  obtain ⟨a, b, h⟩ := List.append_of_mem hp
  have hb : p.name ∉ propNames b := by
    intro hb
    rw [h] at hd
    simp only [propNames, List.map_append, List.map_cons] at hd
    have := (List.nodup_append.mp hd).2.1
    rw [List.nodup_cons] at this
    exact this.1 hb
  unfold propOf
  rw [h, List.filter_append, List.filter_cons_of_pos (by simp), filter_none hb]
  simp

theorem Plain.unique {o : PsObj V} (h : o.Plain) : o.UniqueNames := by
  have := h.2.1
  simp only [propNames, List.map_append] at this
  rw [List.nodup_append] at this
  exact ⟨this.2.1, this.1⟩

theorem Plain.pyAttr {o : PsObj V} (h : o.Plain) {n : PyStr} {p : PsProp V} (hp : o.propOf n = some p) :
    o.pyAttr n = none := by
  obtain ⟨hm, rfl⟩ := propOf_mem hp
  unfold PsObj.pyAttr
  rw [(h.1 p hm).2, h.2.2]
  rfl

/-- What setting a number of properties makes of an object. -/
structure InitResult (o o' : PsObj V) (args : List (PyStr × Option V)) : Prop where
  cls : o'.cls = o.cls
  attrs : o'.attrs = o.attrs
  adapted : propNames o'.adapted = propNames o.adapted
  extended : propNames o'.extended = propNames o.extended
  given : ∀ a ∈ args, ∀ p, o.propOf a.1 = some p →
    ∃ w, p.castValue a.2 = .ok w ∧ o'.propOf a.1 = some { p with body := .note (some w) }
  rest : ∀ m, m ∉ args.map Prod.fst → o'.propOf m = o.propOf m

theorem Plain.of_result {o o' : PsObj V} (h : o.Plain) {n : PyStr} {p : PsProp V} {w : Option V}
    (hc : o'.cls = o.cls) (ha : o'.attrs = o.attrs) (h1 : propNames o'.adapted = propNames o.adapted)
    (h2 : propNames o'.extended = propNames o.extended) (hp : o.propOf n = some p)
    (hn : o'.propOf n = some { p with body := .note (some w) })
    (hr : ∀ m, m ≠ n → o'.propOf m = o.propOf m) : o'.Plain := by
  have hd : (propNames (o'.adapted ++ o'.extended)).Nodup := by
    have := h.2.1
    simp only [propNames, List.map_append] at *
    rw [h1, h2]; exact this
  refine ⟨?_, hd, by rw [ha, h.2.2]⟩
  intro q hq
  have hq' := propOf_of_mem hd hq
  rw [hc]
  by_cases he : q.name = n
  · rw [he, hn] at hq'
    cases hq'
    obtain ⟨hm, rfl⟩ := propOf_mem hp
    exact ⟨⟨_, rfl⟩, (h.1 p hm).2⟩
  · rw [hr _ he] at hq'
    exact h.1 q (propOf_mem hq').1

theorem initLoop_ok {env : Scripts V} {entries : Dict PyStr (PsProp V)}
    {args : List (PyStr × Option V)} {o : PsObj V} (h : o.Plain) (hd : (args.map Prod.fst).Nodup)
    (hk : ∀ n, entries.contains n = true ↔ n ∈ propNames (o.adapted ++ o.extended))
    (ha : ∀ a ∈ args, a.1 ∈ propNames (o.adapted ++ o.extended))
    (hc : ∀ a ∈ args, ∀ p, o.propOf a.1 = some p → ∃ w, p.castValue a.2 = .ok w) :
    ∃ o', initLoop env entries args o = .ok o' ∧ InitResult o o' args := by
  induction args generalizing o with
  | nil => exact ⟨o, rfl, ⟨rfl, rfl, rfl, rfl, by simp, fun _ _ => rfl⟩⟩
  | cons a args ih =>
    obtain ⟨n, v⟩ := a
    have hn := ha (n, v) (by simp)
    obtain ⟨p, hpm, rfl⟩ := List.mem_map.mp hn
    have hp := propOf_of_mem h.2.1 hpm
    obtain ⟨w, hw⟩ := hc (p.name, v) (by simp) p hp
    have hattr : o.attrs.get? p.name = none := by rw [h.2.2]; rfl
    obtain ⟨o1, hs, c1, c2, _, c3, c4, c5, c6⟩ :=
      (setAttr_note (env := env) (v := v) h.unique hattr hp (h.1 p hpm).1).2 w hw
    have h1 : o1.Plain := Plain.of_result h c1 c2 c3 c4 hp c5 c6
    have names : propNames (o1.adapted ++ o1.extended) = propNames (o.adapted ++ o.extended) := by
      simp only [propNames, List.map_append] at *
      rw [c3, c4]
    simp only [List.map_cons, List.nodup_cons] at hd
    obtain ⟨o2, hl, r⟩ := ih h1 hd.2 (by rw [names]; exact hk)
      (fun a ha' => by rw [names]; exact ha a (by simp [ha']))
      (fun a ha' q hq => by
        have hne : a.1 ≠ p.name := by
          intro e
          exact hd.1 (List.mem_map.mpr ⟨a, ha', e⟩)
        rw [c6 _ hne] at hq
        exact hc a (by simp [ha']) q hq)
    refine ⟨o2, ?_, ⟨r.cls.trans c1, r.attrs.trans c2, r.adapted.trans c3, r.extended.trans c4, ?_, ?_⟩⟩
    · unfold initLoop
      rw [if_pos ((hk p.name).mpr hn), hs]
      exact hl
    · intro a ha' q hq
      rcases List.mem_cons.mp ha' with rfl | ha'
      · rw [hp] at hq
        cases hq
        exact ⟨w, hw, by rw [r.rest _ hd.1]; exact c5⟩
      · have hne : a.1 ≠ p.name := by
          intro e
          exact hd.1 (List.mem_map.mpr ⟨a, ha', e⟩)
        exact r.given a ha' q (by rw [c6 _ hne]; exact hq)
    · intro m hm
      simp only [List.map_cons, List.mem_cons, not_or] at hm
      rw [r.rest m hm.2, c6 m hm.1]

/-- Only known names and values that can be cast are set. -/
theorem initLoop_only {env : Scripts V} {entries : Dict PyStr (PsProp V)}
    {args : List (PyStr × Option V)} {o o' : PsObj V} (h : o.Plain) (hd : (args.map Prod.fst).Nodup)
    (hk : ∀ n, entries.contains n = true ↔ n ∈ propNames (o.adapted ++ o.extended))
    (hi : initLoop env entries args o = .ok o') :
    ∀ a ∈ args, ∃ p w, o.propOf a.1 = some p ∧ p.castValue a.2 = .ok w := by
  induction args generalizing o with
  | nil => simp
  | cons a args ih =>
    obtain ⟨n, v⟩ := a
    unfold initLoop at hi
    by_cases hn : entries.contains n = true
    · rw [if_pos hn] at hi
      obtain ⟨p, hpm, rfl⟩ := List.mem_map.mp ((hk n).mp hn)
      have hp := propOf_of_mem h.2.1 hpm
      have hattr : o.attrs.get? p.name = none := by rw [h.2.2]; rfl
      have hset := setAttr_note (env := env) (v := v) h.unique hattr hp (h.1 p hpm).1
      cases hcast : p.castValue v with
      | error e => rw [hset.1 e hcast] at hi; cases hi
      | ok w =>
        obtain ⟨o1, hs, c1, c2, _, c3, c4, c5, c6⟩ := hset.2 w hcast
        have h1 : o1.Plain := Plain.of_result h c1 c2 c3 c4 hp c5 c6
        have names : propNames (o1.adapted ++ o1.extended) = propNames (o.adapted ++ o.extended) := by
          simp only [propNames, List.map_append] at *
          rw [c3, c4]
        rw [hs] at hi
        simp only [List.map_cons, List.nodup_cons] at hd
        intro a ha
        rcases List.mem_cons.mp ha with rfl | ha
        · exact ⟨p, w, hp, hcast⟩
        · obtain ⟨q, u, hq, hu⟩ := ih h1 hd.2 (by rw [names]; exact hk) hi a ha
          have hne : a.1 ≠ p.name := by
            intro e
            exact hd.1 (List.mem_map.mpr ⟨a, ha, e⟩)
          rw [c6 _ hne] at hq
          exact ⟨q, u, hq, hu⟩
    · rw [if_neg hn] at hi
      cases hi

theorem set_fresh {β : Type} (d : Dict PyStr β) (k : PyStr) (v : β) (h : k ∉ d.keys) :
    d.set k v = d ++ [(k, v)] := by
  induction d with
  | nil => rfl
  | cons e d ih =>
    obtain ⟨k', v'⟩ := e
    simp only [Dict.keys, List.map_cons, List.mem_cons, not_or] at h
    unfold Dict.set
    rw [if_neg (fun e => h.1 e.symm), ih h.2]
    rfl

theorem entries_nodup (ps : List (PsProp V)) (d : Dict PyStr (PsProp V))
    (h : (d.keys ++ propNames ps).Nodup) :
    ps.foldl (fun d p => d.set p.name p) d = d ++ ps.map (fun p => (p.name, p)) := by
  induction ps generalizing d with
  | nil => simp
  | cons p ps ih =>
    have hf : p.name ∉ d.keys := by
      intro hm
      exact (List.nodup_append.mp h).2.2 _ hm p.name (by simp [propNames]) rfl
    rw [List.foldl_cons, set_fresh d _ _ hf, ih]
    · simp
    · simp only [Dict.keys, List.map_append, List.map_cons, List.map_nil, propNames,
        List.append_assoc, List.singleton_append] at h ⊢
      exact h

theorem propEntries_plain {o : PsObj V} (hd : (propNames (o.adapted ++ o.extended)).Nodup) :
    o.propEntries = (o.adapted ++ o.extended).map (fun p => (p.name, p)) := by
  unfold propEntries
  rw [entries_nodup _ _ (by simpa [Dict.keys] using hd)]
  simp

theorem contains_iff {β : Type} (d : Dict PyStr β) (k : PyStr) : d.contains k = true ↔ k ∈ d.keys := by
  unfold Dict.contains
  induction d with
  | nil => simp [Dict.get?, Dict.keys]
  | cons e d ih =>
    obtain ⟨k', v'⟩ := e
    unfold Dict.get?
    by_cases h : k' = k
    · simp [h, Dict.keys]
    · have h' : ¬ k = k' := fun e => h e.symm
      rw [if_neg h, ih]
      simp [Dict.keys, h']

theorem zip_fst {α β : Type} (ns : List α) (args : List β) :
    (ns.zip args).map Prod.fst = ns.take args.length := by
  induction ns generalizing args with
  | nil => simp
  | cons n ns ih =>
    cases args with
    | nil => simp
    | cons a args => simp [ih]

end PsObj

end Verif
