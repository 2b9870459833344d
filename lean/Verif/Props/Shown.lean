import Verif.Proof.Shown
import Verif.Props.PSObject

/-!
# C94: `vars` and `repr` show what the attributes of an object read as
-/

namespace Verif

open PsObj

variable {V : Type}

/-- C94 (`repr`): the text is the name of the class with every property once, adapted ones first, with the
value its attribute reads as; and `repr` raises exactly if one of these attributes does, the first error.
Partial: for objects of which no property is hidden, see `C94_repr_violated`. -/
theorem C94_repr_partial (env : Scripts V) (fuel : Nat) (shows : Option V → PyStr) (cls : PyStr) (o : PsObj V)
    (h : o.NothingHidden) :
    (∀ t, o.repr env fuel shows cls = .ok t ↔
      ∃ vs : List (Option V), o.names.map (o.getAttr env fuel) = vs.map .ok ∧
        t = cls ++ txt! "(" ++ commaList (o.names.zip (vs.map shows)) ++ txt! ")") ∧
    ∀ e, o.repr env fuel shows cls = .error e ↔ FirstError (o.getAttr env fuel) o.names e := by
  have hr : ∀ n p, o.propOf n = some p → o.getAttr env fuel n = p.valueIn env fuel o := by
    intro n p hp
    refine getAttr_prop (h.props n ?_) hp
    obtain ⟨h1, h2⟩ := propOf_mem hp
    rw [PsObj.names, mem_firstMentions, ← h2]
    exact mem_propNames h1
  have hv := entries_values env fuel o _ hr
  constructor
  · intro t
    unfold PsObj.repr
    constructor
    · intro ht
      cases hd : o.readAll env fuel o.propEntries with
      | error e => rw [hd] at ht; cases ht
      | ok vs =>
        rw [hd] at ht
        obtain ⟨h1, h2⟩ := (readAll_ok env fuel o _ vs).mp hd
        refine ⟨vs.map Prod.snd, ?_, ?_⟩
        · rw [← hv, h2, List.map_map]; rfl
        · rw [← entries_keys, ← h1, List.map_map, List.zip_map', ← commas_eq, List.map_map]
          cases ht
          rfl
    · rintro ⟨vs, h1, rfl⟩
      have hl : o.names.length = vs.length := by simpa using congrArg List.length h1
      have hd : o.readAll env fuel o.propEntries = .ok (o.names.zip vs) := by
        refine (readAll_ok env fuel o _ _).mpr ⟨?_, ?_⟩
        · rw [entries_keys]; exact List.map_fst_zip (by omega)
        · rw [hv, h1]
          have hz : (o.names.zip vs).map Prod.snd = vs := List.map_snd_zip (by omega)
          have he : vs.map (Except.ok : Option V → Except Err (Option V)) =
              ((o.names.zip vs).map Prod.snd).map Except.ok := by rw [hz]
          rw [he, List.map_map]
          rfl
      rw [hd]
      simp only [Except.ok.injEq]
      rw [← commas_eq, List.zip_map_right, List.map_map]
      rfl
  · intro e
    have he := readAll_error env fuel o e (o.getAttr env fuel) o.propEntries (by
      intro x hx
      have hn : (o.propEntries.map Prod.fst).Nodup := by rw [entries_keys]; exact firstMentions_nodup _
      have := get_mem hn hx
      rw [entries_get] at this
      rw [getValue_valueIn, hr _ _ this])
    rw [entries_keys] at he
    rw [← he]
    unfold PsObj.repr
    cases o.readAll env fuel o.propEntries <;> simp

private theorem last_get {β : Type} (n : PyStr) : ∀ (d : Dict PyStr β), (d.map Prod.fst).Nodup →
    (d.filter (fun e => decide (e.1 = n))).getLast? = (d.get? n).map fun v => (n, v)
  | [], _ => rfl
  | (k, v) :: d, h => by
    simp only [List.map_cons, List.nodup_cons] at h
    unfold Dict.get?
    by_cases hk : k = n
    · subst hk
      rw [List.filter_cons_of_pos (by simp), if_pos rfl]
      have : d.filter (fun e => decide (e.1 = k)) = [] := by
        rw [List.filter_eq_nil_iff]
        intro e he hk
        exact h.1 (List.mem_map.mpr ⟨e, he, by simpa using hk⟩)
      rw [this]
      rfl
    · rw [List.filter_cons_of_neg (by simpa using hk), if_neg hk]
      exact last_get n d h.2

/-- C94 (`vars`), exactly: under the name of a property is the value of the property, the last one of that
name with extended after adapted ones; under any other name what the instance has there. -/
theorem C94_vars_exact (env : Scripts V) (fuel : Nat) (o : PsObj V) (d : Dict PyStr (Option V))
    (h : o.vars env fuel = .ok d) (n : PyStr) :
    (∀ p, o.propOf n = some p → ∃ v, p.valueIn env fuel o = .ok v ∧ d.get? n = some v) ∧
    (o.propOf n = none → d.get? n = o.attrs.get? n) := by
  unfold vars at h
  cases hd : o.readAll env fuel o.propEntries with
  | error e => rw [hd] at h; cases h
  | ok vs =>
    rw [hd] at h
    cases h
    obtain ⟨h1, h2⟩ := (readAll_ok env fuel o _ vs).mp hd
    have hn : (vs.map Prod.fst).Nodup := by rw [h1, entries_keys]; exact firstMentions_nodup _
    have hg := fold_get (fun e : PyStr × Option V => e.1) (fun e => e.2) vs o.attrs n
    rw [last_get n vs hn] at hg
    constructor
    · intro p hp
      have hm : n ∈ vs.map Prod.fst := by
        rw [h1, entries_keys, PsObj.names, mem_firstMentions, ← (propOf_mem hp).2]
        exact mem_propNames (propOf_mem hp).1
      obtain ⟨e, he, rfl⟩ := List.mem_map.mp hm
      have hge := get_mem hn he
      rw [hge] at hg
      refine ⟨e.2, ?_, hg⟩
      obtain ⟨i, hi, rfl⟩ := List.getElem_of_mem he
      have hl : o.propEntries.length = vs.length := by simpa using congrArg List.length h1.symm
      have e1 : (o.propEntries[i]'(by omega)).1 = vs[i].1 := by
        have := congrArg (fun l => l[i]?) h1
        simp only [List.getElem?_map, List.getElem?_eq_getElem hi,
          List.getElem?_eq_getElem (show i < o.propEntries.length by omega), Option.map_some,
          Option.some.injEq] at this
        exact this.symm
      have e2 : o.getValue env fuel (o.propEntries[i]'(by omega)).2 = .ok vs[i].2 := by
        have := congrArg (fun l => l[i]?) h2
        simp only [List.getElem?_map, List.getElem?_eq_getElem hi,
          List.getElem?_eq_getElem (show i < o.propEntries.length by omega), Option.map_some,
          Option.some.injEq] at this
        exact this
      have hne : (o.propEntries.map Prod.fst).Nodup := by rw [← h1]; exact hn
      have hp' := get_mem hne (List.getElem_mem (show i < o.propEntries.length by omega))
      rw [entries_get, e1, hp] at hp'
      cases hp'
      rw [← getValue_valueIn]
      exact e2
    · intro hp
      have hno : vs.get? n = none := by
        rw [Dict.get?_eq_none]
        show n ∉ vs.map Prod.fst
        rw [h1, entries_keys, PsObj.names, mem_firstMentions]
        obtain ⟨h3, h4⟩ := propOf_none.mp hp
        simp only [propNames, List.map_append, List.mem_append, not_or]
        exact ⟨h4, h3⟩
      rw [hno] at hg
      exact hg

private theorem firstMentions_self : ∀ ns : List PyStr, ns.Nodup → firstMentions ns = ns
  | [], _ => rfl
  | n :: ns, h => by
    obtain ⟨h1, h2⟩ := List.nodup_cons.mp h
    rw [firstMentions, firstMentions_self ns h2, List.filter_eq_self.mpr]
    intro m hm
    simp only [ne_eq, decide_eq_true_eq]
    rintro rfl
    exact h1 hm

/-- C94 (`vars`): every name is there once: the attributes of the instance in their order, then the properties
in theirs. -/
theorem C94_vars_order (env : Scripts V) (fuel : Nat) (o : PsObj V) (d : Dict PyStr (Option V))
    (h : o.vars env fuel = .ok d) :
    d.keys = o.attrs.keys ++ o.names.filter (fun n => decide (n ∉ o.attrs.keys)) ∧
    (o.attrs.keys.Nodup → d.keys.Nodup) := by
  have hk : d.keys = o.attrs.keys ++ o.names.filter (fun n => decide (n ∉ o.attrs.keys)) := by
    unfold vars at h
    cases hd : o.readAll env fuel o.propEntries with
    | error e => rw [hd] at h; cases h
    | ok vs =>
      rw [hd] at h
      cases h
      obtain ⟨h1, _⟩ := (readAll_ok env fuel o _ vs).mp hd
      have := fold_keys (fun e : PyStr × Option V => e.1) (fun e => e.2) vs o.attrs
      refine this.trans ?_
      have e1 : (vs.map fun e : PyStr × Option V => e.1) = o.names := by rw [← entries_keys, ← h1]
      rw [e1, firstMentions_self o.names (firstMentions_nodup _)]
  refine ⟨hk, fun ha => ?_⟩
  rw [hk, List.nodup_append]
  refine ⟨ha, (firstMentions_nodup _).filter _, ?_⟩
  rintro a ha b hb rfl
  simp only [List.mem_filter, decide_eq_true_eq] at hb
  exact hb.2 ha

/-- C94 (`vars`): `vars` has exactly the attributes of the instance and the properties, each with the value
its attribute reads as; and it raises exactly if one of the properties does, the first error. Partial: for
objects of which nothing is hidden, see `C94_vars_violated`. -/
theorem C94_vars_partial (env : Scripts V) (fuel : Nat) (o : PsObj V) (h : o.NothingHidden) :
    (∀ d, o.vars env fuel = .ok d → ∀ n v, d.get? n = some v ↔
      ((∃ w, o.attrs.get? n = some w) ∨ n ∈ o.names) ∧ o.getAttr env fuel n = .ok v) ∧
    ∀ e, o.vars env fuel = .error e ↔ FirstError (o.getAttr env fuel) o.names e := by
  have mem : ∀ n, n ∈ o.names ↔ ∃ p, o.propOf n = some p := by
    intro n
    rw [PsObj.names, mem_firstMentions]
    constructor
    · intro hn
      cases hp : o.propOf n with
      | some p => exact ⟨p, rfl⟩
      | none =>
        obtain ⟨h1, h2⟩ := propOf_none.mp hp
        simp only [propNames, List.map_append, List.mem_append] at hn h1 h2
        rcases hn with hn | hn
        · exact absurd hn h2
        · exact absurd hn h1
    · rintro ⟨p, hp⟩
      rw [← (propOf_mem hp).2]
      exact mem_propNames (propOf_mem hp).1
  constructor
  · intro d hd n v
    obtain ⟨h1, h2⟩ := C94_vars_exact env fuel o d hd n
    cases hp : o.propOf n with
    | some p =>
      obtain ⟨w, hw, hg⟩ := h1 p hp
      have hm := (mem n).mpr ⟨p, hp⟩
      rw [hg, getAttr_prop (h.props n hm) hp, hw]
      simp [hm]
    | none =>
      rw [h2 hp]
      have hm : n ∉ o.names := fun hm => by
        obtain ⟨p, hp'⟩ := (mem n).mp hm
        rw [hp] at hp'; cases hp'
      constructor
      · intro hv
        exact ⟨.inl ⟨v, hv⟩, getAttr_py (h.attrs n v hv)⟩
      · rintro ⟨⟨w, hw⟩ | hw, hv⟩
        · rw [getAttr_py (h.attrs n w hw)] at hv
          cases hv
          exact hw
        · exact absurd hw hm
  · intro e
    rw [← (C94_repr_partial env fuel (fun _ => []) [] o h).2 e]
    unfold vars PsObj.repr
    cases o.readAll env fuel o.propEntries <;> simp

private theorem mem_names (o : PsObj V) (n : PyStr) : n ∈ o.names ↔ n ∈ propNames o.adapted ∨ n ∈ propNames o.extended := by
  rw [PsObj.names, mem_firstMentions]
  simp [propNames]

private theorem hidden_same {o o' : PsObj V} (h : o.NothingHidden) (hc : o'.cls = o.cls) (ha : o'.attrs = o.attrs)
    (hn : ∀ n ∈ o'.names, n ∈ o.names ∨ o.pyAttr n = none) : o'.NothingHidden := by
  have hp : ∀ n, o'.pyAttr n = o.pyAttr n := fun n => by unfold pyAttr; rw [hc, ha]
  refine ⟨fun n hm => ?_, fun n v hv => ?_⟩
  · rw [hp]
    rcases hn n hm with h1 | h1
    · exact h.props n h1
    · exact h1
  · rw [hp]; rw [ha] at hv; exact h.attrs n v hv

private theorem names_set {ps : List (PsProp V)} {p q : PsProp V} {i : Nat} {n : PyStr} (hi : findProp n ps = some (i, p))
    (hq : q.name = p.name) : propNames (ps.set i q) = propNames ps := by
  obtain ⟨a, b, rfl, rfl, _⟩ := findProp_some hi
  rw [set_at]
  simp [propNames, hq]

private theorem hidden_prop {env : Scripts V} (hE : ∀ s o v, PsObj.NothingHidden o → (env.set s o v).1.NothingHidden)
    {o : PsObj V} (h : o.NothingHidden) {ext : Bool} {i : Nat} {p : PsProp V} {n : PyStr}
    (hi : findProp n (if ext then o.extended else o.adapted) = some (i, p)) (v : Option V) :
    (o.setProp env ext i p v).1.NothingHidden := by
  unfold setProp
  cases p.body with
  | alias t => exact h
  | script g s =>
    cases s with
    | none => exact h
    | some s => exact hE s o v h
  | note w =>
    dsimp only
    cases p.castValue v with
    | error e => exact h
    | ok w =>
      cases ext with
      | true =>
        refine hidden_same (o' := { o with extended := o.extended.set i { p with body := .note (some w) } }) h rfl rfl ?_
        intro m hm
        rw [mem_names] at hm
        dsimp only at hm
        rw [names_set (p := p) (q := { p with body := .note (some w) }) (n := n) (by simpa using hi) rfl] at hm
        exact .inl ((mem_names o m).mpr hm)
      | false =>
        refine hidden_same (o' := { o with adapted := o.adapted.set i { p with body := .note (some w) } }) h rfl rfl ?_
        intro m hm
        rw [mem_names] at hm
        dsimp only at hm
        rw [names_set (p := p) (q := { p with body := .note (some w) }) (n := n) (by simpa using hi) rfl] at hm
        exact .inl ((mem_names o m).mpr hm)

private theorem hidden_set {env : Scripts V} (hE : ∀ s o v, PsObj.NothingHidden o → (env.set s o v).1.NothingHidden)
    {o : PsObj V} (h : o.NothingHidden) (n : PyStr) (v : Option V) : (o.setAttr env n v).1.NothingHidden := by
  have plain : n ∉ o.names → (o.setPyAttr n v).1.NothingHidden := by
    intro hn
    unfold setPyAttr
    have key : (∀ w, o.cls n ≠ some (.property w)) → ({ o with attrs := o.attrs.set n v } : PsObj V).NothingHidden := by
      intro hc
      have hself : ({ o with attrs := o.attrs.set n v } : PsObj V).pyAttr n = some v := by
        unfold pyAttr
        dsimp only
        rw [Dict.get?_set_self]
        cases hcn : o.cls n with
        | none => rfl
        | some c =>
          cases c with
          | plain w => rfl
          | property w => exact absurd hcn (hc w)
      have hother : ∀ m, m ≠ n → ({ o with attrs := o.attrs.set n v } : PsObj V).pyAttr m = o.pyAttr m := by
        intro m hm
        unfold pyAttr
        dsimp only
        rw [Dict.get?_set_ne _ _ (Ne.symm hm)]
      refine ⟨fun m hm => ?_, fun m w hw => ?_⟩
      · have hm' : m ∈ o.names := hm
        rw [hother m (fun e => hn (e ▸ hm'))]
        exact h.props m hm'
      · by_cases e : m = n
        · subst e
          dsimp only at hw
          rw [Dict.get?_set_self] at hw
          cases hw
          exact hself
        · dsimp only at hw
          rw [Dict.get?_set_ne _ _ (Ne.symm e)] at hw
          rw [hother m e]
          exact h.attrs m w hw
    cases hcn : o.cls n with
    | none => exact key (fun w hw => by rw [hcn] at hw; cases hw)
    | some c =>
      cases c with
      | property w => exact h
      | plain w => exact key (fun w hw => by rw [hcn] at hw; cases hw)
  unfold setAttr
  by_cases hc : o.attrs.contains n = true
  · rw [if_pos hc]
    refine plain fun hn => ?_
    have h1 := h.props n hn
    unfold Dict.contains at hc
    cases hg : o.attrs.get? n with
    | none => rw [hg] at hc; cases hc
    | some w =>
      have := h.attrs n w hg
      rw [h1] at this
      cases this
  · rw [if_neg hc]
    cases he : findProp n o.extended with
    | some ip => obtain ⟨i, p⟩ := ip; exact hidden_prop (ext := true) hE h (by simpa using he) v
    | none =>
      cases ha : findProp n o.adapted with
      | some ip => obtain ⟨i, p⟩ := ip; exact hidden_prop (ext := false) hE h (by simpa using ha) v
      | none =>
        refine plain fun hn => ?_
        rcases (mem_names o n).mp hn with h1 | h1
        · exact findProp_none.mp ha h1
        · exact findProp_none.mp he h1

private theorem hidden_add {o : PsObj V} (h : o.NothingHidden) (p : PsProp V) (force : Bool) (hp : o.pyAttr p.name = none) :
    (o.addMember p force).1.NothingHidden := by
  have key : ∀ ps : List (PsProp V), (∀ q ∈ ps, q ∈ o.extended ∨ q = p) → ({ o with extended := ps } : PsObj V).NothingHidden := by
    intro ps hps
    refine hidden_same (o' := { o with extended := ps }) h rfl rfl fun n hn => ?_
    rcases (mem_names _ n).mp hn with h1 | h1
    · exact .inl ((mem_names o n).mpr (.inl h1))
    · obtain ⟨q, hq, rfl⟩ := List.mem_map.mp h1
      rcases hps q hq with h2 | rfl
      · exact .inl ((mem_names o _).mpr (.inr (mem_propNames h2)))
      · exact .inr hp
  unfold addMember
  split
  · exact h
  · cases lastIdx p.name o.extended with
    | some i =>
      refine key _ fun q hq => ?_
      by_cases hi : i ≤ (o.extended.eraseIdx i).length
      · rcases (List.mem_insertIdx hi).mp hq with rfl | hq
        · exact .inr rfl
        · exact .inl (List.mem_of_mem_eraseIdx hq)
      · rw [List.insertIdx_of_length_lt (by omega)] at hq
        exact .inl (List.mem_of_mem_eraseIdx hq)
    | none =>
      refine key _ fun q hq => ?_
      rcases List.mem_append.mp hq with hq | hq
      · exact .inl hq
      · exact .inr (List.mem_singleton.mp hq)

/-- C94: nothing is hidden in an object that is used as it should be: whatever attributes are set, and whatever
members are added under names that are no attributes at that time. The setters of script properties, which
are functions of the program, are required to keep it. -/
theorem C94_used (env : Scripts V) (hE : ∀ s o v, PsObj.NothingHidden o → (env.set s o v).1.NothingHidden)
    (ops : List (ObjUse V)) (o : PsObj V) (h : o.NothingHidden) (hu : UsedWell env o ops) :
    (o.use env ops).NothingHidden := by
  induction ops generalizing o with
  | nil => exact h
  | cons op ops ih =>
    cases op with
    | set n v => exact ih _ (hidden_set hE h n v) hu
    | add p force => exact ih _ (hidden_add h p force hu.1) hu.2

/-- `vars` shows something else than the attribute: an attribute is set and a property of the same name is
added afterwards, which is not refused. Reading and writing go to the attribute, `vars` shows the property. -/
theorem C94_vars_violated :
    let o1 := (({} : PsObj Nat).setAttr noScripts (txt! "Id") (some 1)).1
    let o2 := o1.addMember { name := txt! "Id", body := .note (some (some 2)) } false
    let o3 := (o2.1.setAttr noScripts (txt! "Id") (some 3)).1
    o2.2 = .ok () ∧
    o2.1.getAttr noScripts 10 (txt! "Id") = .ok (some 1) ∧
    (o2.1.vars noScripts 10).map (·.get? (txt! "Id")) = .ok (some (some 2)) ∧
    o3.getAttr noScripts 10 (txt! "Id") = .ok (some 3) ∧
    (o3.vars noScripts 10).map (·.get? (txt! "Id")) = .ok (some (some 2)) := by
  decide +kernel

/-- `repr` shows something else than the attribute: the class has a method of the name of a property. -/
theorem C94_repr_violated :
    let o : PsObj Nat := {
      cls := fun n => if n = txt! "count" then some (.plain (some 99)) else none
      extended := [{ name := txt! "count", body := .note (some (some 1)) }] }
    o.getAttr noScripts 10 (txt! "count") = .ok (some 99) ∧
    o.repr noScripts 10 (fun v => natStr (v.getD 0)) (txt! "PSList") = .ok (txt! "PSList(count=1)") := by
  decide +kernel

/-! ## Cases -/

/-- Two adapted properties, one of which is extended too, an alias and an attribute. -/
private def shownObj : PsObj Nat where
  attrs := [(txt! "note", some 5)]
  adapted := [{ name := txt! "Name", body := .note (some (some 1)) }, { name := txt! "Id", body := .note (some (some 4)) }]
  extended := [{ name := txt! "State", body := .alias (txt! "Name") }, { name := txt! "Name", body := .note (some (some 2)) }]

example : shownObj.NothingHidden := by
  refine ⟨?_, ?_⟩
  · have e : shownObj.names = [txt! "Name", txt! "Id", txt! "State"] := by decide +kernel
    rw [e]
    intro n hn
    simp only [List.mem_cons, List.not_mem_nil, or_false] at hn
    rcases hn with rfl | rfl | rfl <;> decide +kernel
  · intro n v hv
    exact hv

example : shownObj.repr noScripts 10 (fun v => natStr (v.getD 0)) (txt! "PSObject") =
    .ok (txt! "PSObject(Name=2, Id=4, State=2)") ∧
    shownObj.vars noScripts 10 = .ok [(txt! "note", some 5), (txt! "Name", some 2), (txt! "Id", some 4), (txt! "State", some 2)] := by
  decide +kernel

example : UsedWell noScripts shownObj [.set (txt! "extra") (some 1), .add { name := txt! "New" } false, .set (txt! "New") (some 2),
      .add { name := txt! "Name" } true] ∧
    (shownObj.use noScripts [.set (txt! "extra") (some 1), .add { name := txt! "New" } false, .set (txt! "New") (some 2),
      .add { name := txt! "Name" } true]).vars noScripts 10 =
        .ok [(txt! "note", some 5), (txt! "extra", some 1), (txt! "Name", none), (txt! "Id", some 4), (txt! "State", none),
          (txt! "New", some 2)] :=
  ⟨⟨by decide +kernel, by decide +kernel, trivial⟩, by decide +kernel⟩

example (s : Nat) (o : PsObj Nat) (v : Option Nat) (h : o.NothingHidden) : (noScripts.set s o v).1.NothingHidden := h

/-- An alias of a name the object does not have makes both raise. -/
example : ({ shownObj with extended := [{ name := txt! "State", body := .alias (txt! "Nome") }] } : PsObj Nat).vars noScripts 10 =
    .error .attributeError := by
  decide +kernel

end Verif
