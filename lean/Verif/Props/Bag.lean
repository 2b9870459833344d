import Verif.Model.Bag
import Verif.Props.PSObject

/-! # C90: objects made of keyword arguments -/

namespace Verif

variable {V : Type}

private def env0 : Scripts Nat := ⟨fun _ _ => .ok none, fun _ o _ => (o, .ok ())⟩
private def text0 : Option Nat → PyStr := fun v => natStr (v.getD 0)
private def noAttrs : PyStr → Option (ClassAttr Nat) := fun _ => none

private theorem mem_keys {kw : List (PyStr × Option V)} {n : PyStr} {v : Option V} (h : (n, v) ∈ kw) : n ∈ kw.map (·.1) :=
  List.mem_map.mpr ⟨(n, v), h, rfl⟩

/-- The property of a name among notes with distinct names. -/
private theorem getLast_note (ps : List (PsProp V)) (kw : List (PyStr × Option V)) (n : PyStr) (v : Option V) (hnd : (kw.map (·.1)).Nodup)
    (hm : (n, v) ∈ kw) :
    ((ps ++ kw.map fun f => noteOf f.1 f.2).filter (fun p => decide (p.name = n))).getLast? = some (noteOf n v) := by
  rw [List.filter_append]
  have : (kw.map fun f => noteOf f.1 f.2).filter (fun p => decide (p.name = n)) = [noteOf n v] := by
    induction kw with
    | nil => exact nomatch hm
    | cons a r ih =>
      rw [List.map_cons, List.nodup_cons] at hnd
      rw [List.map_cons, List.filter_cons]
      rcases List.mem_cons.mp hm with h | h
      · subst h
        rw [if_pos (by simp [noteOf])]
        have : (r.map fun f => noteOf f.1 f.2).filter (fun p => decide (p.name = n)) = [] := by
          rw [List.filter_eq_nil_iff]
          intro p hp
          obtain ⟨f, hf, rfl⟩ := List.mem_map.mp hp
          intro h
          replace h : f.1 = n := of_decide_eq_true h
          exact hnd.1 (by rw [← h]; exact mem_keys (n := f.1) (v := f.2) hf)
        rw [this]
      · rw [if_neg, ih hnd.2 h]
        intro he
        replace he : a.1 = n := of_decide_eq_true he
        exact hnd.1 (by rw [he]; exact mem_keys h)
  rw [this, List.getLast?_append]
  rfl

private theorem none_of (ps : List (PsProp V)) (n : PyStr) (h : n ∉ propNames ps) :
    (ps.filter (fun p => decide (p.name = n))).getLast? = none := by
  have : ps.filter (fun p => decide (p.name = n)) = [] := by
    rw [List.filter_eq_nil_iff]
    intro p hp
    simp only [decide_eq_true_eq]
    intro he
    exact h (List.mem_map.mpr ⟨p, hp, he⟩)
  rw [this]
  rfl

private theorem bagLoop_eq (text : Option V → PyStr) : ∀ (kw : List (PyStr × Option V)) (o : PsObj V), bagLoop text kw o =
    { o with
      typeNames := ((kw.filter fun f => decide (f.1 = txt! "PSTypeName")).map fun f => text f.2).reverse ++ o.typeNames
      extended := o.extended ++ (kw.filter fun f => decide (f.1 ≠ txt! "PSTypeName")).map fun f => noteOf f.1 f.2 }
  | [], o => by simp [bagLoop]
  | (n, v) :: r, o => by
    unfold bagLoop
    by_cases h : n = txt! "PSTypeName"
    · rw [if_pos h, bagLoop_eq text r, List.filter_cons_of_pos (by simpa using h), List.filter_cons_of_neg (by simpa using h)]
      simp
    · rw [if_neg h, bagLoop_eq text r, List.filter_cons_of_neg (by simpa using h), List.filter_cons_of_pos (by simpa using h)]
      simp

private theorem notesLoop_eq : ∀ (kw : List (PyStr × Option V)) (o : PsObj V), (kw.map (·.1)).Nodup →
    (∀ f ∈ kw, f.1 ∉ propNames o.adapted ∧ f.1 ∉ propNames o.extended) →
    notesLoop kw o = .ok { o with extended := o.extended ++ kw.map fun f => noteOf f.1 f.2 }
  | [], o, _, _ => by simp [notesLoop]
  | (n, v) :: r, o, hnd, ho => by
    rw [List.map_cons, List.nodup_cons] at hnd
    have hadd : o.addMember (noteOf n v) false = ({ o with extended := o.extended ++ [noteOf n v] }, .ok ()) := by
      have h1 := (ho (n, v) List.mem_cons_self).1
      have h2 := (ho (n, v) List.mem_cons_self).2
      unfold PsObj.addMember
      rw [if_neg]
      · have hl : ∀ (ps : List (PsProp V)), n ∉ propNames ps → PsObj.lastIdx n ps = none := by
          intro ps
          induction ps with
          | nil => intro _; rfl
          | cons p ps ih =>
            intro h
            simp only [propNames, List.map_cons, List.mem_cons, not_or] at h
            unfold PsObj.lastIdx
            rw [ih h.2]
            dsimp only
            rw [if_neg (Ne.symm h.1)]
        show (match PsObj.lastIdx n o.extended with | some i => _ | none => _) = _
        rw [hl _ h2]
      · rintro ⟨h | h, _⟩
        · obtain ⟨p, hp, he⟩ := List.any_eq_true.mp h
          exact h1 (List.mem_map.mpr ⟨p, hp, of_decide_eq_true he⟩)
        · obtain ⟨p, hp, he⟩ := List.any_eq_true.mp h
          exact h2 (List.mem_map.mpr ⟨p, hp, of_decide_eq_true he⟩)
    unfold notesLoop
    rw [hadd]
    dsimp only
    rw [notesLoop_eq r _ hnd.2 (fun f hf => ?_)]
    · simp
    · refine ⟨(ho f (List.mem_cons_of_mem _ hf)).1, fun hmem => ?_⟩
      simp only [propNames, List.map_append, List.mem_append, List.map_cons, List.map_nil, List.mem_singleton] at hmem
      rcases hmem with h | h
      · exact (ho f (List.mem_cons_of_mem _ hf)).2 h
      · exact hnd.1 (by
          have : f.1 = n := h
          rw [← this]; exact mem_keys (n := f.1) (v := f.2) hf)

/-- What reading gives on an object without attributes of its own. -/
private theorem read_prop (env : Scripts V) (fuel : Nat) (o : PsObj V) (n : PyStr) (v : Option V) (ha : o.attrs = []) (hc : o.cls n = none)
    (hp : o.propOf n = some (noteOf n v)) : o.getAttr env fuel n = .ok v := by
  have hpy : o.pyAttr n = none := by
    unfold PsObj.pyAttr
    rw [hc, ha]
    rfl
  unfold PsObj.getAttr
  rw [hpy, hp]
  rfl

private theorem read_none (env : Scripts V) (fuel : Nat) (o : PsObj V) (n : PyStr) (ha : o.attrs = []) (hc : o.cls n = none)
    (hp : o.propOf n = none) : o.getAttr env fuel n = .error .attributeError := by
  have hpy : o.pyAttr n = none := by
    unfold PsObj.pyAttr
    rw [hc, ha]
    rfl
  unfold PsObj.getAttr
  rw [hpy, hp]

/-- C90, `PSCustomObject(**fields)` (full statement: for all fields; see the `_violated` theorems). It has the properties of the class and
then the fields, in the order they were given, and each reads as the value given; a `PSTypeName` comes in front of the type names and is no
property; any other name is an `AttributeError`. Missing: fields with the name of a Python attribute of the class, and the names `self` and
`cls`. -/
theorem C90_custom_partial (env : Scripts V) (fuel : Nat) (text : Option V → PyStr) (cls : PyStr → Option (ClassAttr V))
    (fields : Dict PyStr (Option V)) (hnd : (fields.map (·.1)).Nodup) (h1 : txt! "self" ∉ fields.map (·.1))
    (h2 : txt! "cls" ∉ fields.map (·.1)) :
    ∃ o, customObject text customClass cls fields = .ok o ∧
      propNames o.extended = (fields.map (·.1)).filter (fun n => decide (n ≠ txt! "PSTypeName")) ∧ o.adapted = [] ∧
      (∀ v, (txt! "PSTypeName", v) ∈ fields →
        o.typeNames = [text v, txt! "System.Management.Automation.PSCustomObject", txt! "System.Object"]) ∧
      (txt! "PSTypeName" ∉ fields.map (·.1) → o.typeNames = [txt! "System.Management.Automation.PSCustomObject", txt! "System.Object"]) ∧
      (∀ n v, (n, v) ∈ fields → n ≠ txt! "PSTypeName" → cls n = none → o.getAttr env fuel n = .ok v) ∧
      (∀ n, n ∉ fields.map (·.1) ∨ n = txt! "PSTypeName" → cls n = none → o.getAttr env fuel n = .error .attributeError) := by
  have hcont : ∀ n : PyStr, n ∉ fields.map (·.1) → Dict.contains fields n = false := by
    intro n hn
    rw [Bool.eq_false_iff]
    exact fun h => hn ((PsObj.contains_iff fields n).mp h)
  refine ⟨_, by unfold customObject; rw [hcont _ h2, hcont _ h1, if_neg (by simp), if_neg (by simp)], ?_⟩
  rw [bagLoop_eq]
  have hkn : ((fields.filter fun f => decide (f.1 ≠ txt! "PSTypeName")).map (·.1)).Nodup := hnd.sublist (List.filter_sublist.map _)
  refine ⟨?_, rfl, ?_, ?_, ?_, ?_⟩
  · dsimp only [PsClass.instance, customClass]
    rw [List.nil_append]
    unfold propNames
    rw [List.map_map, List.filter_map]
    rfl
  · intro v hv
    dsimp only [PsClass.instance, customClass]
    have : fields.filter (fun f => decide (f.1 = txt! "PSTypeName")) = [(txt! "PSTypeName", v)] := by
      clear hkn hcont h1 h2
      induction fields with
      | nil => exact nomatch hv
      | cons a r ih =>
        rw [List.map_cons, List.nodup_cons] at hnd
        rcases List.mem_cons.mp hv with h | h
        · subst h
          rw [List.filter_cons_of_pos (by simp)]
          have : r.filter (fun f => decide (f.1 = txt! "PSTypeName")) = [] := by
            rw [List.filter_eq_nil_iff]
            intro f hf
            simp only [decide_eq_true_eq]
            intro he
            exact hnd.1 (by rw [← he]; exact mem_keys (n := f.1) (v := f.2) hf)
          rw [this]
        · rw [List.filter_cons_of_neg, ih hnd.2 h]
          simp only [decide_eq_true_eq]
          intro he
          exact hnd.1 (by rw [he]; exact mem_keys h)
    rw [this]
    rfl
  · intro hno
    dsimp only [PsClass.instance, customClass]
    have : fields.filter (fun f => decide (f.1 = txt! "PSTypeName")) = [] := by
      rw [List.filter_eq_nil_iff]
      intro f hf
      simp only [decide_eq_true_eq]
      intro he
      exact hno (by rw [← he]; exact mem_keys (n := f.1) (v := f.2) hf)
    rw [this]
    rfl
  · intro n v hm hn hc
    refine read_prop env fuel _ n v rfl hc ?_
    exact getLast_note [] _ n v hkn (List.mem_filter.mpr ⟨hm, by simpa using hn⟩)
  · intro n hn hc
    refine read_none env fuel _ n rfl hc (none_of _ n ?_)
    dsimp only [PsClass.instance, customClass]
    rw [List.nil_append, List.nil_append]
    intro hmem
    obtain ⟨p, hp, rfl⟩ := List.mem_map.mp hmem
    obtain ⟨f, hf, rfl⟩ := List.mem_map.mp hp
    obtain ⟨hf1, hf2⟩ := List.mem_filter.mp hf
    rcases hn with hn | hn
    · exact hn (mem_keys (n := f.1) (v := f.2) hf1)
    · exact (of_decide_eq_true hf2) hn

/-- Three fields and a type name. -/
example : let fields : Dict PyStr (Option Nat) := [(txt! "a", some 1), (txt! "PSTypeName", some 5), (txt! "b", none)]
    (fields.map (·.1)).Nodup ∧ txt! "self" ∉ fields.map (·.1) ∧ txt! "cls" ∉ fields.map (·.1) ∧
      ((customObject text0 customClass noAttrs fields).map fun o => (o.typeNames.head?, (o.getAttr env0 9 (txt! "a")))) =
        .ok (some (txt! "5"), .ok (some 1)) := by decide +kernel

/-- A field with the name of a Python attribute of the class, such as `PSTypeNames`, is in the object, but the name reads as what Python
finds, not as the value given. -/
theorem C90_shadow_violated (env : Scripts V) (fuel : Nat) (text : Option V → PyStr) (c : PsClass V) (cls : PyStr → Option (ClassAttr V))
    (fields : Dict PyStr (Option V)) (o : PsObj V) (ho : customObject text c cls fields = .ok o) (n : PyStr) (v w : Option V)
    (hm : (n, v) ∈ fields) (hn : n ≠ txt! "PSTypeName") (hc : cls n = some (.property w)) :
    n ∈ propNames o.extended ∧ o.getAttr env fuel n = .ok w := by
  unfold customObject at ho
  split at ho
  · exact nomatch ho
  · split at ho
    · exact nomatch ho
    · obtain rfl := Except.ok.inj ho
      rw [bagLoop_eq]
      constructor
      · refine List.mem_map.mpr ⟨noteOf n v, List.mem_append_right _ (List.mem_map.mpr ⟨(n, v), ?_, rfl⟩), rfl⟩
        exact List.mem_filter.mpr ⟨hm, by simpa using hn⟩
      · unfold PsObj.getAttr PsObj.pyAttr
        dsimp only [PsClass.instance]
        rw [hc]

example : let cls : PyStr → Option (ClassAttr Nat) := fun n => if n = txt! "PSTypeNames" then some (.property (some 9)) else none
    ((customObject text0 customClass cls [(txt! "PSTypeNames", some 1)]).map fun o => o.getAttr env0 9 (txt! "PSTypeNames")) =
      .ok (.ok (some 9)) ∧ cls (txt! "PSTypeNames") = some (.property (some 9)) := ⟨by decide +kernel, rfl⟩

/-- The names `self` and `cls` are refused, whatever the other fields are. -/
theorem C90_reserved_violated (text : Option V → PyStr) (c : PsClass V) (cls : PyStr → Option (ClassAttr V)) (a b : Dict PyStr (Option V))
    (v : Option V) (n : PyStr) (hn : n = txt! "self" ∨ n = txt! "cls") :
    customObject text c cls (a ++ (n, v) :: b) = .error .typeError := by
  have hcont : Dict.contains (a ++ (n, v) :: b) n = true :=
    (PsObj.contains_iff _ n).mpr (by simp [Dict.keys])
  unfold customObject
  rcases hn with rfl | rfl
  · rw [hcont]
    split
    · rfl
    · rw [if_pos rfl]
  · rw [hcont, if_pos rfl]

/-- If the class was given a property of the name by `add_note_property(PSCustomObject, ...)`, the object has two of that name. Assignments
go to the one of the class and reading gives the other, so that an assigned value is lost. -/
theorem C90_added_violated (env : Scripts V) (fuel : Nat) (text : Option V → PyStr) (cls : PyStr → Option (ClassAttr V)) (n : PyStr)
    (u v w : Option V) (hc : cls n = none) (hn : n ≠ txt! "PSTypeName" ∧ n ≠ txt! "self" ∧ n ≠ txt! "cls") :
    ∃ o, customObject text { customClass with extended := [noteOf n u] } cls [(n, v)] = .ok o ∧
      (o.setAttr env n w).2 = .ok () ∧ (o.setAttr env n w).1.getAttr env fuel n = .ok v := by
  have hcont : ∀ m : PyStr, n ≠ m → Dict.contains [(n, v)] m = false := by
    intro m hm
    simp [Dict.contains, Dict.get?, hm]
  refine ⟨_, by
    unfold customObject
    rw [hcont _ hn.2.2, hcont _ hn.2.1, if_neg (by simp), if_neg (by simp)], ?_⟩
  rw [bagLoop_eq]
  have hf : [(n, v)].filter (fun f => decide (f.1 ≠ txt! "PSTypeName")) = [(n, v)] := by
    rw [List.filter_cons_of_pos (by simpa using hn.1)]
    rfl
  rw [hf]
  generalize hT : ((([(n, v)].filter fun f => decide (f.1 = txt! "PSTypeName")).map fun f => text f.2).reverse ++ _ : List PyStr) = T
  have hset : ∀ T : List PyStr, (PsObj.mk cls [] T [] [noteOf n u, noteOf n v]).setAttr env n w =
      (PsObj.mk cls [] T [] [noteOf n w, noteOf n v], .ok ()) := by
    intro T
    have hfp : PsObj.findProp n [noteOf n u, noteOf n v] = some (0, noteOf n u) := by
      unfold PsObj.findProp
      exact if_pos rfl
    unfold PsObj.setAttr
    dsimp only
    rw [if_neg (by simp [Dict.contains, Dict.get?]), hfp]
    cases w <;> rfl
  have hrd : ∀ T : List PyStr, (PsObj.mk cls [] T [] [noteOf n w, noteOf n v]).getAttr env fuel n = .ok v := by
    intro T
    refine read_prop env fuel _ n v rfl hc ?_
    exact getLast_note [noteOf n w] [(n, v)] n v (by simp) (List.mem_singleton_self _)
  exact ⟨congrArg Prod.snd (hset T), by
    exact (congrArg (fun r => PsObj.getAttr env fuel r.1 n) (hset T)).trans (hrd T)⟩

example : ((customObject text0 { customClass with extended := [noteOf (txt! "a") (some 0)] } noAttrs [(txt! "a", some 1)]).map
    fun o => ((o.setAttr env0 (txt! "a") (some 2)).1.getAttr env0 9 (txt! "a"))) = .ok (.ok (some 1)) := by decide +kernel

/-- C90, `dict_to_psobject(**fields)`: no type names, the fields in the order they were given, each reads as the value given, nothing else
is there. No call fails. -/
theorem C90_dict (env : Scripts V) (fuel : Nat) (cls : PyStr → Option (ClassAttr V)) (fields : Dict PyStr (Option V))
    (hnd : (fields.map (·.1)).Nodup) :
    ∃ o, dictToPsobject objectClass cls fields = .ok o ∧ o.typeNames = [] ∧ o.adapted = [] ∧ propNames o.extended = fields.map (·.1) ∧
      (∀ n v, (n, v) ∈ fields → cls n = none → o.getAttr env fuel n = .ok v) ∧
      (∀ n, n ∉ fields.map (·.1) → cls n = none → o.getAttr env fuel n = .error .attributeError) := by
  refine ⟨_, notesLoop_eq fields _ hnd (fun f _ => ⟨by simp [propNames, PsClass.instance, objectClass],
    by simp [propNames, PsClass.instance, objectClass]⟩), rfl, rfl, ?_, ?_, ?_⟩
  · dsimp only [PsClass.instance, objectClass]
    rw [List.nil_append]
    unfold propNames
    rw [List.map_map]
    rfl
  · intro n v hm hc
    refine read_prop env fuel _ n v rfl hc ?_
    exact getLast_note [] _ n v hnd hm
  · intro n hn hc
    refine read_none env fuel _ n rfl hc (none_of _ n ?_)
    dsimp only [PsClass.instance, objectClass]
    rw [List.nil_append, List.nil_append]
    intro hmem
    obtain ⟨p, hp, rfl⟩ := List.mem_map.mp hmem
    obtain ⟨f, hf, rfl⟩ := List.mem_map.mp hp
    exact hn (mem_keys (n := f.1) (v := f.2) hf)

example : let fields : Dict PyStr (Option Nat) := [(txt! "a", some 1), (txt! "PSTypeName", some 5), (txt! "self", none)]
    (fields.map (·.1)).Nodup ∧
      ((dictToPsobject objectClass noAttrs fields).map fun o => (o.typeNames, o.getAttr env0 9 (txt! "PSTypeName"),
        o.getAttr env0 9 (txt! "q"))) = .ok ([], .ok (some 5), .error .attributeError) := by decide +kernel

end Verif
