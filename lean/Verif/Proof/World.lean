import Verif.Spec.World

/-! # Classes and instances: lemmas for C87 -/

namespace Verif

variable {V : Type}

namespace World

/-! ## Lists of property objects -/

theorem deref_append (w : World V) (a b : List Nat) : w.deref (a ++ b) = w.deref a ++ w.deref b := List.filterMap_append

theorem deref_congr {w w' : World V} {ids : List Nat} (h : ∀ id ∈ ids, w'.props[id]? = w.props[id]?) : w'.deref ids = w.deref ids := by
  unfold deref
  induction ids with
  | nil => rfl
  | cons a ids ih =>
    rw [List.filterMap_cons, List.filterMap_cons, h a List.mem_cons_self, ih fun id hid => h id (List.mem_cons_of_mem _ hid)]

/-- Some property object. -/
def anyProp : PsProp V := { name := [] }

theorem deref_map {w : World V} {ids : List Nat} (h : ∀ id ∈ ids, id < w.props.length) :
    w.deref ids = ids.map fun id => (w.props[id]?).getD anyProp := by
  unfold deref
  induction ids with
  | nil => rfl
  | cons a ids ih =>
    have ha := List.getElem?_eq_getElem (h a List.mem_cons_self)
    rw [List.filterMap_cons, List.map_cons, ih fun id hid => h id (List.mem_cons_of_mem _ hid), ha]
    rfl

theorem deref_length {w : World V} {ids : List Nat} (h : ∀ id ∈ ids, id < w.props.length) : (w.deref ids).length = ids.length := by
  rw [deref_map h, List.length_map]

theorem deref_range (pre mid post : List (PsProp V)) (w : World V) (h : w.props = pre ++ mid ++ post) :
    w.deref (List.range' pre.length mid.length) = mid := by
  induction mid generalizing pre with
  | nil => rfl
  | cons p mid ih =>
    have h1 : w.props[pre.length]? = some p := by rw [h]; simp
    have h2 := ih (pre ++ [p]) (by rw [h]; simp)
    rw [List.length_append, List.length_singleton] at h2
    rw [List.length_cons, List.range'_succ]
    unfold deref at h2 ⊢
    rw [List.filterMap_cons, h1, h2]

theorem storeProps_other : ∀ (ids : List Nat) (ps props : List (PsProp V)) (id : Nat), id ∉ ids →
    (storeProps ids ps props)[id]? = props[id]?
  | [], _, _, _, _ => by unfold storeProps; rfl
  | _ :: _, [], _, _, _ => by unfold storeProps; rfl
  | a :: ids, p :: ps, props, id, h => by
    rw [storeProps, storeProps_other ids ps _ id (fun hm => h (List.mem_cons_of_mem _ hm)), List.getElem?_set_ne]
    intro he
    exact h (he ▸ List.mem_cons_self)

theorem storeProps_length : ∀ (ids : List Nat) (ps props : List (PsProp V)), (storeProps ids ps props).length = props.length
  | [], _, _ => by unfold storeProps; rfl
  | _ :: _, [], _ => by unfold storeProps; rfl
  | a :: ids, p :: ps, props => by rw [storeProps, storeProps_length, List.length_set]

theorem storeProps_deref (w : World V) : ∀ (ids : List Nat) (ps props : List (PsProp V)), ids.Nodup → (∀ id ∈ ids, id < props.length) →
    ps.length = ids.length → deref { w with props := storeProps ids ps props } ids = ps
  | [], ps, _, _, _, hl => by
    have : ps = [] := List.length_eq_zero_iff.mp hl
    subst this
    rfl
  | a :: ids, [], _, _, _, hl => by simp at hl
  | a :: ids, p :: ps, props, hn, hr, hl => by
    have hn' := List.nodup_cons.mp hn
    have ih := storeProps_deref w ids ps (props.set a p) hn'.2 (fun id hid => by
      rw [List.length_set]; exact hr id (List.mem_cons_of_mem _ hid)) (by simpa using hl)
    have h1 : (storeProps ids ps (props.set a p))[a]? = some p := by
      rw [storeProps_other _ _ _ _ hn'.1, List.getElem?_set_self (hr a List.mem_cons_self)]
    rw [storeProps]
    unfold deref at ih ⊢
    rw [List.filterMap_cons]
    dsimp only at ih ⊢
    rw [h1, ih]

/-! ## Property objects and their copies -/

end World

theorem construct_again {p q : PsProp V} (hc : p.CastsOnce) (h : p.construct = .ok q) : q.construct = .ok q ∧ q.CastsOnce ∧ q.name = p.name := by
  obtain ⟨name, mandatory, cast, body⟩ := p
  unfold PsProp.construct at h
  cases body with
  | alias t => cases h; exact ⟨rfl, hc, rfl⟩
  | script g s => cases h; exact ⟨rfl, hc, rfl⟩
  | note v =>
    cases v with
    | none => cases h; exact ⟨rfl, hc, rfl⟩
    | some v =>
      dsimp only at h
      cases v with
      | none => cases h; exact ⟨rfl, hc, rfl⟩
      | some x =>
        cases hx : cast x with
        | error e => simp [PsProp.castValue, hx, Except.map] at h
        | ok y =>
          simp only [PsProp.castValue, hx, Except.map, Except.ok.injEq] at h
          subst h
          refine ⟨?_, hc, rfl⟩
          have h2 : cast y = .ok y := hc x y hx
          simp [PsProp.construct, PsProp.castValue, h2, Except.map]

theorem constructAll_mem : ∀ {ps qs : List (PsProp V)}, constructAll ps = .ok qs → (∀ p ∈ ps, p.CastsOnce) → ∀ q ∈ qs, q.construct = .ok q
  | [], qs, h, _, q, hq => by cases h; exact nomatch hq
  | p :: ps, qs, h, hc, q, hq => by
    unfold constructAll at h
    cases hp : p.construct with
    | error e => rw [hp] at h; exact nomatch h
    | ok p' =>
      cases hps : constructAll ps with
      | error e => rw [hp, hps] at h; exact nomatch h
      | ok qs' =>
        rw [hp, hps] at h
        cases h
        rcases List.mem_cons.mp hq with rfl | hq
        · exact (construct_again (hc p List.mem_cons_self) hp).1
        · exact constructAll_mem hps (fun p hp => hc p (List.mem_cons_of_mem _ hp)) q hq

theorem constructAll_made : ∀ (ps : List (PsProp V)), (∀ p ∈ ps, p.construct = .ok p) → constructAll ps = .ok ps
  | [], _ => rfl
  | p :: ps, h => by
    rw [constructAll, h p List.mem_cons_self, constructAll_made ps fun q hq => h q (List.mem_cons_of_mem _ hq)]
    rfl

/-! ## Who a property object belongs to -/

/-- Each property object and each `PSObjectMeta` belongs to one instance or to the classes. -/
structure Owned (w : World V) (own mown : Nat → Option Nat) : Prop where
  cls : ∀ (c m : Nat), w.classes[c]? = some m → m < w.metas.length ∧ mown m = none
  inst : ∀ (i : Nat) (x : Inst V), w.insts[i]? = some x → x.metaId < w.metas.length ∧ mown x.metaId = some i
  ids : ∀ (m : Nat) (M : MetaObj), w.metas[m]? = some M → ∀ id ∈ M.adapted ++ M.extended, id < w.props.length ∧ own id = mown m
  nodup : ∀ (m : Nat) (M : MetaObj), w.metas[m]? = some M → mown m ≠ none → (M.adapted ++ M.extended).Nodup
  made : ∀ (id : Nat) (p : PsProp V), w.props[id]? = some p → own id = none → p.construct = .ok p

namespace World

/-- A function that goes on with another value behind the first `n` numbers. -/
def extend (f : Nat → Option Nat) (n : Nat) (x : Option Nat) : Nat → Option Nat := fun k => if k < n then f k else x

theorem extend_lt {f : Nat → Option Nat} {n k : Nat} {x : Option Nat} (h : k < n) : extend f n x k = f k := if_pos h

theorem extend_ge {f : Nat → Option Nat} {n k : Nat} {x : Option Nat} (h : n ≤ k) : extend f n x k = x := if_neg (by omega)

/-- What there was is still there. -/
structure Grows (w w' : World V) : Prop where
  props : ∃ ps, w'.props = w.props ++ ps
  metas : ∃ ms, w'.metas = w.metas ++ ms
  classes : ∃ cs, w'.classes = w.classes ++ cs
  insts : ∃ is, w'.insts = w.insts ++ is

theorem get_append {α : Type} {a b c : List α} (h : c = a ++ b) {i : Nat} (hi : i < a.length) : c[i]? = a[i]? := by
  rw [h, List.getElem?_append_left hi]

theorem Grows.deref {w w' : World V} (g : Grows w w') {ids : List Nat} (h : ∀ id ∈ ids, id < w.props.length) :
    w'.deref ids = w.deref ids := by
  obtain ⟨ps, hp⟩ := g.props
  exact deref_congr fun id hid => get_append hp (h id hid)

theorem Grows.view {w w' : World V} (g : Grows w w') {own mown : Nat → Option Nat} (o : Owned w own mown) {j : Nat}
    (hj : j < w.insts.length) : w'.view j = w.view j := by
  obtain ⟨is, hi⟩ := g.insts
  obtain ⟨ms, hm⟩ := g.metas
  have hx : w.insts[j]? = some w.insts[j] := List.getElem?_eq_getElem hj
  obtain ⟨h1, _⟩ := o.inst j _ hx
  have hM : w.metas[w.insts[j].metaId]? = some w.metas[w.insts[j].metaId] := List.getElem?_eq_getElem h1
  have hids := o.ids _ _ hM
  unfold World.view
  rw [get_append hi hj, hx]
  simp only [Option.bind_some]
  rw [get_append hm h1, hM]
  simp only [Option.map_some]
  rw [g.deref fun id hid => (hids id (List.mem_append_left _ hid)).1, g.deref fun id hid => (hids id (List.mem_append_right _ hid)).1]

theorem Grows.classView {w w' : World V} (g : Grows w w') {own mown : Nat → Option Nat} (o : Owned w own mown) {c : Nat}
    (hc : c < w.classes.length) : w'.classView c = w.classView c := by
  obtain ⟨cs, hi⟩ := g.classes
  obtain ⟨ms, hm⟩ := g.metas
  have hx : w.classes[c]? = some w.classes[c] := List.getElem?_eq_getElem hc
  obtain ⟨h1, _⟩ := o.cls c _ hx
  have hM : w.metas[w.classes[c]]? = some w.metas[w.classes[c]] := List.getElem?_eq_getElem h1
  have hids := o.ids _ _ hM
  unfold World.classView
  rw [get_append hi hc, hx]
  simp only [Option.bind_some]
  rw [get_append hm h1, hM]
  simp only [Option.map_some]
  unfold metaView
  rw [g.deref fun id hid => (hids id (List.mem_append_left _ hid)).1, g.deref fun id hid => (hids id (List.mem_append_right _ hid)).1]

theorem fresh_mem {w : World V} {s n id : Nat} (h : id ∈ w.fresh s n) : w.props.length + s ≤ id ∧ id < w.props.length + s + n := by
  unfold fresh at h
  rw [List.mem_range'_1] at h
  omega

/-- The world with more property objects, and one more `PSObjectMeta` of which all new property objects are and maybe others. -/
theorem _root_.Verif.Owned.grow {w w' : World V} {own mown : Nat → Option Nat} (o : Owned w own mown) (x : Option Nat) (ps : List (PsProp V))
    (M : MetaObj) (hp : w'.props = w.props ++ ps) (hm : w'.metas = w.metas ++ [M])
    (hc : ∀ (c m : Nat), w'.classes[c]? = some m → w.classes[c]? = some m ∨ (m = w.metas.length ∧ x = none))
    (hi : ∀ (i : Nat) (y : Inst V), w'.insts[i]? = some y → w.insts[i]? = some y ∨ (y.metaId = w.metas.length ∧ x = some i))
    (hids : ∀ id ∈ M.adapted ++ M.extended, (w.props.length ≤ id ∧ id < w.props.length + ps.length) ∨
      (id < w.props.length ∧ own id = x))
    (hn : x ≠ none → (M.adapted ++ M.extended).Nodup) (hmade : x = none → ∀ p ∈ ps, p.construct = .ok p) :
    Owned w' (extend own w.props.length x) (extend mown w.metas.length x) := by
  have hml : w'.metas.length = w.metas.length + 1 := by rw [hm]; simp
  have hpl : w'.props.length = w.props.length + ps.length := by rw [hp]; simp
  have hmc : ∀ (m : Nat) (N : MetaObj), w'.metas[m]? = some N → (m < w.metas.length ∧ w.metas[m]? = some N) ∨ (m = w.metas.length ∧ N = M) := by
    intro m N h
    by_cases hlt : m < w.metas.length
    · exact .inl ⟨hlt, by rwa [get_append hm hlt] at h⟩
    · right
      have : m < w'.metas.length := (List.getElem?_eq_some_iff.mp h).1
      have he : m = w.metas.length := by omega
      subst he
      rw [hm] at h
      simp at h
      exact ⟨rfl, h.symm⟩
  refine ⟨?_, ?_, ?_, ?_, ?_⟩
  · intro c m h
    rcases hc c m h with h | ⟨rfl, hx⟩
    · obtain ⟨h1, h2⟩ := o.cls c m h
      exact ⟨by omega, by rw [extend_lt h1, h2]⟩
    · exact ⟨by omega, by rw [extend_ge (Nat.le_refl _), hx]⟩
  · intro i y h
    rcases hi i y h with h | ⟨h1, h2⟩
    · obtain ⟨h1, h2⟩ := o.inst i y h
      exact ⟨by omega, by rw [extend_lt h1, h2]⟩
    · rw [h1]
      exact ⟨by omega, by rw [extend_ge (Nat.le_refl _), h2]⟩
  · intro m N h id hid
    rcases hmc m N h with ⟨h1, h2⟩ | ⟨rfl, rfl⟩
    · obtain ⟨h3, h4⟩ := o.ids m N h2 id hid
      exact ⟨by omega, by rw [extend_lt h3, extend_lt h1, h4]⟩
    · rw [extend_ge (Nat.le_refl w.metas.length)]
      rcases hids id hid with ⟨h3, h4⟩ | ⟨h3, h4⟩
      · exact ⟨by omega, by rw [extend_ge h3]⟩
      · exact ⟨by omega, by rw [extend_lt h3, h4]⟩
  · intro m N h hne
    rcases hmc m N h with ⟨h1, h2⟩ | ⟨rfl, rfl⟩
    · rw [extend_lt h1] at hne
      exact o.nodup m N h2 hne
    · rw [extend_ge (Nat.le_refl _)] at hne
      exact hn hne
  · intro id p h hown
    by_cases hlt : id < w.props.length
    · rw [extend_lt hlt] at hown
      rw [get_append hp hlt] at h
      exact o.made id p h hown
    · rw [extend_ge (by omega)] at hown
      rw [hp, List.getElem?_append_right (by omega)] at h
      exact hmade hown p (List.mem_of_getElem? h)

end World

end Verif
