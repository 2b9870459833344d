import Verif.Proof.World

/-! # Classes and instances: each step, lemmas for C87 -/

namespace Verif

variable {V : Type}

theorem lastIdx_lt {name : PyStr} : ∀ {ps : List (PsProp V)} {k : Nat}, PsObj.lastIdx name ps = some k → k < ps.length
  | [], k, h => nomatch h
  | p :: ps, k, h => by
    unfold PsObj.lastIdx at h
    cases hl : PsObj.lastIdx name ps with
    | some i =>
      rw [hl] at h
      cases h
      have := lastIdx_lt hl
      simp; omega
    | none =>
      rw [hl] at h
      dsimp only at h
      split at h
      · cases h; simp
      · exact nomatch h

theorem erase_insert {α : Type} (a : α) : ∀ (l : List α) (k : Nat), k < l.length → (l.eraseIdx k).insertIdx k a = l.set k a
  | [], _, h => nomatch h
  | _ :: _, 0, _ => by simp
  | x :: l, k + 1, h => by
    rw [List.eraseIdx_cons_succ, List.insertIdx_succ_cons, erase_insert a l k (by simpa using h), List.set_cons_succ]

theorem nodup_set {a : Nat} : ∀ (l : List Nat) (k : Nat), l.Nodup → a ∉ l → (l.set k a).Nodup
  | [], _, _, _ => by simp
  | x :: l, 0, hn, ha => by
    rw [List.set_cons_zero, List.nodup_cons]
    exact ⟨fun h => ha (List.mem_cons_of_mem _ h), (List.nodup_cons.mp hn).2⟩
  | x :: l, k + 1, hn, ha => by
    rw [List.set_cons_succ, List.nodup_cons]
    obtain ⟨h1, h2⟩ := List.nodup_cons.mp hn
    refine ⟨fun h => ?_, nodup_set l k h2 fun h => ha (List.mem_cons_of_mem _ h)⟩
    rcases List.mem_or_eq_of_mem_set h with h | h
    · exact h1 h
    · exact ha (h ▸ List.mem_cons_self)

theorem constructAll_length : ∀ {ps qs : List (PsProp V)}, constructAll ps = .ok qs → qs.length = ps.length
  | [], qs, h => by cases h; rfl
  | p :: ps, qs, h => by
    unfold constructAll at h
    cases hp : p.construct with
    | error e => rw [hp] at h; exact nomatch h
    | ok p' =>
      cases hps : constructAll ps with
      | error e => rw [hp, hps] at h; exact nomatch h
      | ok qs' =>
        rw [hp, hps] at h
        cases h
        simp [constructAll_length hps]

theorem range'_nodup : ∀ (n s : Nat), (List.range' s n).Nodup
  | 0, _ => by simp
  | n + 1, s => by
    rw [List.range'_succ, List.nodup_cons]
    exact ⟨fun h => by rw [List.mem_range'_1] at h; omega, range'_nodup n (s + 1)⟩

namespace World

/-! ## The list of a `PSObjectMeta` with one more property object -/

/-- The extended properties with a new property object. -/
def withNew (w : World V) (x : MetaObj) (q : PsProp V) : List Nat :=
  match PsObj.lastIdx q.name (w.deref x.extended) with
  | some k => x.extended.set k w.props.length
  | none => x.extended ++ [w.props.length]

theorem withNew_mem {w : World V} {x : MetaObj} {q : PsProp V} {id : Nat} (h : id ∈ w.withNew x q) : id = w.props.length ∨ id ∈ x.extended := by
  unfold withNew at h
  split at h
  · rcases List.mem_or_eq_of_mem_set h with h | h
    · exact .inr h
    · exact .inl h
  · rcases List.mem_append.mp h with h | h
    · exact .inr h
    · exact .inl (List.mem_singleton.mp h)

theorem withNew_nodup {w : World V} {x : MetaObj} {q : PsProp V} (hr : ∀ id ∈ x.adapted ++ x.extended, id < w.props.length)
    (hn : (x.adapted ++ x.extended).Nodup) : (x.adapted ++ w.withNew x q).Nodup := by
  have hnew : w.props.length ∉ x.adapted ++ x.extended := fun h => absurd (hr _ h) (by omega)
  unfold withNew
  split
  · rename_i k _
    have := nodup_set (a := w.props.length) (x.adapted ++ x.extended) (x.adapted.length + k) hn hnew
    rw [List.set_append_right _ _ (by omega)] at this
    simpa using this
  · rw [← List.append_assoc, List.nodup_append]
    refine ⟨hn, by simp, fun a ha b hb he => ?_⟩
    rw [List.mem_singleton] at hb
    exact hnew (by rw [← hb, ← he]; exact ha)

/-- What adding a new property leads to. -/
theorem addNew_cases (w : World V) {own mown : Nat → Option Nat} (o : Owned w own mown) {m : Nat} {x : MetaObj} (hx : w.metas[m]? = some x)
    (p : PsProp V) (force : Bool) :
    (∃ e, p.construct = .error e ∧ w.addNew m p force = (w, .error e)) ∨ ∃ q, p.construct = .ok q ∧
      (((w.deref x.adapted).any (·.name = q.name) ∨ (w.deref x.extended).any (·.name = q.name)) ∧ force = false ∧
          w.addNew m p force = ({ w with props := w.props ++ [q] }, .error .runtimeError) ∨
        ¬ (((w.deref x.adapted).any (·.name = q.name) ∨ (w.deref x.extended).any (·.name = q.name)) ∧ force = false) ∧
          w.addNew m p force = ({ w with props := w.props ++ [q], metas := w.metas.set m { x with extended := w.withNew x q } }, .ok ())) := by
  have hids := o.ids m x hx
  unfold addNew
  cases hq : p.construct with
  | error e => exact .inl ⟨e, rfl, rfl⟩
  | ok q =>
    refine .inr ⟨q, rfl, ?_⟩
    dsimp only
    unfold addMember alloc
    dsimp only
    have h1 : (w.props ++ [q])[w.props.length]? = some q := by simp
    have g : Grows w { w with props := w.props ++ [q] } := ⟨⟨_, rfl⟩, ⟨[], by simp⟩, ⟨[], by simp⟩, ⟨[], by simp⟩⟩
    have ha := g.deref fun id hid => (hids id (List.mem_append_left _ hid)).1
    have he := g.deref fun id hid => (hids id (List.mem_append_right _ hid)).1
    rw [hx, h1]
    dsimp only
    rw [ha, he]
    by_cases hc : ((w.deref x.adapted).any (·.name = q.name) ∨ (w.deref x.extended).any (·.name = q.name)) ∧ force = false
    · rw [if_pos hc]
      exact .inl ⟨hc.1, hc.2, rfl⟩
    · rw [if_neg hc]
      refine .inr ⟨hc, ?_⟩
      unfold withNew
      cases hl : PsObj.lastIdx q.name (w.deref x.extended) with
      | none => rfl
      | some k =>
        dsimp only
        rw [erase_insert]
        have := lastIdx_lt hl
        rwa [deref_length fun id hid => (hids id (List.mem_append_right _ hid)).1] at this

theorem _root_.Verif.Owned.add {w : World V} {own mown : Nat → Option Nat} (o : Owned w own mown) {m : Nat} {x y : MetaObj} (q : PsProp V)
    (hx : w.metas[m]? = some x) (hids : ∀ id ∈ y.adapted ++ y.extended, id = w.props.length ∨ id ∈ x.adapted ++ x.extended)
    (hn : (x.adapted ++ x.extended).Nodup → (y.adapted ++ y.extended).Nodup) (hmade : mown m = none → q.construct = .ok q) :
    Owned { w with props := w.props ++ [q], metas := w.metas.set m y } (extend own w.props.length (mown m)) mown := by
  have hm : m < w.metas.length := (List.getElem?_eq_some_iff.mp hx).1
  have hmc : ∀ (k : Nat) (N : MetaObj), (w.metas.set m y)[k]? = some N → (k = m ∧ N = y) ∨ w.metas[k]? = some N := by
    intro k N h
    by_cases hk : k = m
    · subst hk
      rw [List.getElem?_set_self hm] at h
      exact .inl ⟨rfl, by simpa using h.symm⟩
    · rw [List.getElem?_set_ne (fun h => hk h.symm)] at h
      exact .inr h
  refine ⟨?_, ?_, ?_, ?_, ?_⟩
  · intro c k h
    obtain ⟨h1, h2⟩ := o.cls c k h
    exact ⟨by simpa using h1, h2⟩
  · intro i z h
    obtain ⟨h1, h2⟩ := o.inst i z h
    exact ⟨by simpa using h1, h2⟩
  · intro k N h id hid
    have old : ∀ {k : Nat} {N : MetaObj}, w.metas[k]? = some N → id ∈ N.adapted ++ N.extended →
        id < (w.props ++ [q]).length ∧ extend own w.props.length (mown m) id = mown k := by
      intro k N h hid
      obtain ⟨h1, h2⟩ := o.ids k N h id hid
      exact ⟨by simp; omega, by rw [extend_lt h1, h2]⟩
    rcases hmc k N h with ⟨rfl, rfl⟩ | h
    · rcases hids id hid with rfl | h1
      · exact ⟨by simp, extend_ge (Nat.le_refl _)⟩
      · exact old hx h1
    · exact old h hid
  · intro k N h hne
    rcases hmc k N h with ⟨rfl, rfl⟩ | h
    · exact hn (o.nodup k x hx hne)
    · exact o.nodup k N h hne
  · intro id p h hown
    dsimp only at h
    by_cases hlt : id < w.props.length
    · rw [extend_lt hlt] at hown
      rw [List.getElem?_append_left hlt] at h
      exact o.made id p h hown
    · rw [extend_ge (by omega)] at hown
      rw [List.getElem?_append_right (by omega)] at h
      have := List.mem_of_getElem? h
      rw [List.mem_singleton] at this
      exact this ▸ hmade hown

theorem set_same {α : Type} {l : List α} {m : Nat} {x : α} (h : l[m]? = some x) : l.set m x = l := by
  apply List.ext_getElem?
  intro k
  by_cases hk : m = k
  · subst hk
    rw [List.getElem?_set_self (List.getElem?_eq_some_iff.mp h).1, h]
  · rw [List.getElem?_set_ne hk]

theorem _root_.Verif.Owned.addNew {w : World V} {own mown : Nat → Option Nat} (o : Owned w own mown) {m : Nat} (hm : m < w.metas.length)
    {p : PsProp V} {force : Bool} (hp : p.CastsOnce) : ∃ own', Owned (w.addNew m p force).1 own' mown := by
  have hx : w.metas[m]? = some w.metas[m] := List.getElem?_eq_getElem hm
  generalize w.metas[m] = x at hx
  rcases addNew_cases w o hx p force with ⟨e, _, h⟩ | ⟨q, hq, ⟨_, _, h⟩ | ⟨_, h⟩⟩
  · rw [h]; exact ⟨own, o⟩
  · rw [h]
    have := o.add (y := x) q hx (fun id h => .inr h) id (fun _ => (construct_again hp hq).1)
    rw [set_same hx] at this
    exact ⟨_, this⟩
  · rw [h]
    refine ⟨_, o.add q hx (fun id h => ?_) (fun hn => withNew_nodup (fun id hid => (o.ids m x hx id hid).1) hn) (fun _ => (construct_again hp hq).1)⟩
    rcases List.mem_append.mp h with h | h
    · exact .inr (List.mem_append_left _ h)
    · rcases withNew_mem h with h | h
      · exact .inl h
      · exact .inr (List.mem_append_right _ h)

/-! ## Assigning -/

theorem setAttr_keeps {env : Scripts V} (he : env.OnlyAssign) (x : PsObj V) (name : PyStr) (v : Option V) :
    (x.setAttr env name v).1.cls = x.cls ∧ (x.setAttr env name v).1.typeNames = x.typeNames ∧
    (x.setAttr env name v).1.adapted.length = x.adapted.length ∧ (x.setAttr env name v).1.extended.length = x.extended.length := by
  have hpy : (x.setPyAttr name v).1.cls = x.cls ∧ (x.setPyAttr name v).1.typeNames = x.typeNames ∧
      (x.setPyAttr name v).1.adapted.length = x.adapted.length ∧ (x.setPyAttr name v).1.extended.length = x.extended.length := by
    unfold PsObj.setPyAttr
    split <;> exact ⟨rfl, rfl, rfl, rfl⟩
  have hprop : ∀ ext i p, (x.setProp env ext i p v).1.cls = x.cls ∧ (x.setProp env ext i p v).1.typeNames = x.typeNames ∧
      (x.setProp env ext i p v).1.adapted.length = x.adapted.length ∧ (x.setProp env ext i p v).1.extended.length = x.extended.length := by
    intro ext i p
    unfold PsObj.setProp
    split
    · exact he _ _ _
    · exact ⟨rfl, rfl, rfl, rfl⟩
    · exact ⟨rfl, rfl, rfl, rfl⟩
    · split
      · exact ⟨rfl, rfl, rfl, rfl⟩
      · split
        · exact ⟨rfl, rfl, rfl, by simp⟩
        · exact ⟨rfl, rfl, by simp, rfl⟩
  unfold PsObj.setAttr
  split
  · exact hpy
  · split
    · exact hprop _ _ _
    · split
      · exact hprop _ _ _
      · exact hpy

/-- What an instance is made of. -/
theorem _root_.Verif.Owned.at {w : World V} {own mown : Nat → Option Nat} (o : Owned w own mown) {i : Nat} {x : Inst V}
    (hx : w.insts[i]? = some x) : ∃ m, w.metas[x.metaId]? = some m ∧ mown x.metaId = some i ∧
      (∀ id ∈ m.adapted ++ m.extended, id < w.props.length ∧ own id = some i) ∧ (m.adapted ++ m.extended).Nodup ∧
      w.view i = some { cls := x.cls, attrs := x.attrs, typeNames := m.typeNames, adapted := w.deref m.adapted, extended := w.deref m.extended } := by
  obtain ⟨h1, h2⟩ := o.inst i x hx
  have hM : w.metas[x.metaId]? = some w.metas[x.metaId] := List.getElem?_eq_getElem h1
  refine ⟨_, hM, h2, fun id hid => ?_, o.nodup _ _ hM (by rw [h2]; simp), ?_⟩
  · have := o.ids _ _ hM id hid
    rwa [h2] at this
  · unfold World.view
    rw [hx]
    simp only [Option.bind_some]
    rw [hM]
    rfl

theorem setAttr_eq {w : World V} {own mown : Nat → Option Nat} (o : Owned w own mown) (env : Scripts V) {i : Nat} {x : Inst V} {m : MetaObj}
    (hx : w.insts[i]? = some x) (hm : w.metas[x.metaId]? = some m) (name : PyStr) (v : Option V) {y : PsObj V} (hy : w.view i = some y) :
    w.setAttr env i name v = ({ w with
      props := storeProps (m.adapted ++ m.extended) ((y.setAttr env name v).1.adapted ++ (y.setAttr env name v).1.extended) w.props
      insts := w.insts.set i { x with attrs := (y.setAttr env name v).1.attrs } }, (y.setAttr env name v).2) := by
  unfold World.setAttr
  rw [hx, hy]
  dsimp only
  rw [hm]

theorem _root_.Verif.Owned.set {w : World V} {own mown : Nat → Option Nat} (o : Owned w own mown) (env : Scripts V) (i : Nat)
    (name : PyStr) (v : Option V) : Owned (w.setAttr env i name v).1 own mown := by
  cases hx : w.insts[i]? with
  | none => unfold World.setAttr; rw [hx]; exact o
  | some x =>
    obtain ⟨m, hm, h2, hids, hn, hy⟩ := o.at hx
    rw [setAttr_eq o env hx hm name v hy]
    generalize ((PsObj.setAttr env _ name v).1.adapted ++ (PsObj.setAttr env _ name v).1.extended) = ps
    generalize (PsObj.setAttr env _ name v).1.attrs = at'
    refine ⟨o.cls, ?_, ?_, o.nodup, ?_⟩
    · intro j z h
      by_cases hj : i = j
      · subst hj
        dsimp only at h
        rw [List.getElem?_set_self (List.getElem?_eq_some_iff.mp hx).1] at h
        cases h
        exact o.inst i x hx
      · dsimp only at h
        rw [List.getElem?_set_ne hj] at h
        exact o.inst j z h
    · intro k M h id hid
      dsimp only
      rw [storeProps_length]
      exact o.ids k M h id hid
    · intro id p h hown
      dsimp only at h
      rw [storeProps_other _ _ _ _ (fun hm => by rw [(hids id hm).2] at hown; exact nomatch hown)] at h
      exact o.made id p h hown

/-! ## Each step -/

theorem deref_mem {w : World V} {ids : List Nat} {p : PsProp V} (h : p ∈ w.deref ids) : ∃ id ∈ ids, w.props[id]? = some p := by
  unfold deref at h
  obtain ⟨id, h1, h2⟩ := List.mem_filterMap.mp h
  exact ⟨id, h1, h2⟩

/-- The property objects of a class are as they were made. -/
theorem _root_.Verif.Owned.class_made {w : World V} {own mown : Nat → Option Nat} (o : Owned w own mown) {c k : Nat} {m : MetaObj}
    (hc : w.classes[c]? = some k) (hm : w.metas[k]? = some m) :
    constructAll (w.deref m.adapted) = .ok (w.deref m.adapted) ∧ constructAll (w.deref m.extended) = .ok (w.deref m.extended) := by
  have hids := o.ids k m hm
  rw [(o.cls c k hc).2] at hids
  constructor <;> refine constructAll_made _ fun p hp => ?_ <;> obtain ⟨id, h1, h2⟩ := deref_mem hp
  · exact o.made id p h2 (hids id (List.mem_append_left _ h1)).2
  · exact o.made id p h2 (hids id (List.mem_append_right _ h1)).2

theorem construct_eq {w : World V} {own mown : Nat → Option Nat} (o : Owned w own mown) {c k : Nat} {m : MetaObj}
    (hc : w.classes[c]? = some k) (hm : w.metas[k]? = some m) (cls : PyStr → Option (ClassAttr V)) :
    w.construct c cls = ({ w with
      props := w.props ++ (w.deref m.adapted ++ w.deref m.extended)
      metas := w.metas ++ [⟨m.typeNames, w.fresh 0 (w.deref m.adapted).length, w.fresh (w.deref m.adapted).length (w.deref m.extended).length⟩]
      insts := w.insts ++ [{ cls, metaId := w.metas.length }] }, .ok ()) := by
  obtain ⟨h1, h2⟩ := o.class_made hc hm
  unfold World.construct
  rw [hc, Option.bind_some, hm]
  dsimp only
  rw [h1, h2]
  rfl

theorem fresh_nodup (w : World V) (a b : Nat) : (w.fresh 0 a ++ w.fresh a b).Nodup := by
  rw [List.nodup_append]
  refine ⟨range'_nodup _ _, range'_nodup _ _, fun x hx y hy he => ?_⟩
  have := fresh_mem hx
  have := fresh_mem hy
  omega

theorem _root_.Verif.Owned.step {w : World V} {own mown : Nat → Option Nat} (o : Owned w own mown) (env : Scripts V) {op : WorldOp V}
    (ho : op.MakesProps) : ∃ own' mown', Owned (w.step env op).1 own' mown' := by
  cases op with
  | decorate base ns a e skip =>
    show ∃ own' mown', Owned (w.decorate base ns a e skip).1 own' mown'
    unfold World.decorate
    cases hb : (w.classes[base]?).bind (w.metas[·]?) with
    | none => exact ⟨own, mown, o⟩
    | some b =>
      cases ha : constructAll a with
      | error x => exact ⟨own, mown, o⟩
      | ok a' =>
        cases he : constructAll e with
        | error x => exact ⟨own, mown, o⟩
        | ok e' =>
          obtain ⟨k, hk, hbk⟩ := Option.bind_eq_some_iff.mp hb
          have hids := o.ids k b hbk
          rw [(o.cls base k hk).2] at hids
          refine ⟨_, _, o.grow none (a' ++ e') _ rfl rfl ?_ ?_ ?_ (fun h => absurd rfl h) ?_⟩
          · intro c m h
            dsimp only at h
            by_cases hlt : c < w.classes.length
            · rw [List.getElem?_append_left hlt] at h; exact .inl h
            · rw [List.getElem?_append_right (by omega)] at h
              have := List.mem_of_getElem? h
              exact .inr ⟨List.mem_singleton.mp this, rfl⟩
          · intro i y h; exact .inl h
          · intro id hid
            have key : id ∈ w.fresh 0 a'.length ∨ id ∈ w.fresh a'.length e'.length ∨ id ∈ b.adapted ++ b.extended := by
              cases skip with
              | true =>
                simp only [if_true] at hid
                rcases List.mem_append.mp hid with h | h
                · exact .inl h
                · exact .inr (.inl h)
              | false =>
                simp only [Bool.false_eq_true, if_false, List.mem_append] at hid
                rcases hid with (h | h) | (h | h)
                · exact .inl h
                · exact .inr (.inr (List.mem_append_left _ h))
                · exact .inr (.inl h)
                · exact .inr (.inr (List.mem_append_right _ h))
            rw [List.length_append]
            rcases key with h | h | h
            · have := fresh_mem h; left; omega
            · have := fresh_mem h; left; omega
            · exact .inr (hids id h)
          · intro _ p hp
            rcases List.mem_append.mp hp with hp | hp
            · exact constructAll_mem ha (fun q hq => ho q (List.mem_append_left _ hq)) p hp
            · exact constructAll_mem he (fun q hq => ho q (List.mem_append_right _ hq)) p hp
  | subclass base =>
    show ∃ own' mown', Owned (w.subclass base).1 own' mown'
    unfold World.subclass
    cases hb : w.classes[base]? with
    | none => exact ⟨own, mown, o⟩
    | some m =>
      refine ⟨own, mown, ?_, o.inst, o.ids, o.nodup, o.made⟩
      intro c k h
      dsimp only at h
      by_cases hlt : c < w.classes.length
      · rw [List.getElem?_append_left hlt] at h; exact o.cls c k h
      · rw [List.getElem?_append_right (by omega)] at h
        have := List.mem_singleton.mp (List.mem_of_getElem? h)
        exact this ▸ o.cls base m hb
  | construct c cls =>
    show ∃ own' mown', Owned (w.construct c cls).1 own' mown'
    cases hc : w.classes[c]? with
    | none => unfold World.construct; rw [hc]; exact ⟨own, mown, o⟩
    | some k =>
      have hk := (o.cls c k hc).1
      have hm : w.metas[k]? = some w.metas[k] := List.getElem?_eq_getElem hk
      rw [construct_eq o hc hm cls]
      refine ⟨_, _, o.grow (some w.insts.length) _ _ rfl rfl (fun c m h => .inl h) ?_ ?_ (fun _ => fresh_nodup _ _ _) (fun h => nomatch h)⟩
      · intro i y h
        dsimp only at h
        by_cases hlt : i < w.insts.length
        · rw [List.getElem?_append_left hlt] at h; exact .inl h
        · have hl := (List.getElem?_eq_some_iff.mp h).1
          rw [List.length_append, List.length_singleton] at hl
          have hi : i = w.insts.length := by omega
          subst hi
          rw [List.getElem?_append_right (by omega)] at h
          have := List.mem_singleton.mp (List.mem_of_getElem? h)
          exact .inr ⟨by rw [this], rfl⟩
      · intro id hid
        dsimp only at hid
        rw [List.length_append]
        rcases List.mem_append.mp hid with h | h <;> have := fresh_mem h <;> left <;> omega
  | set i name v => exact ⟨own, mown, o.set env i name v⟩
  | addToInst i p force =>
    unfold World.step
    dsimp only
    cases hx : w.insts[i]? with
    | none => exact ⟨own, mown, o⟩
    | some x =>
      obtain ⟨own', h⟩ := o.addNew (force := force) (o.inst i x hx).1 ho
      exact ⟨own', mown, h⟩
  | addToClass c p force =>
    unfold World.step
    dsimp only
    cases hx : w.classes[c]? with
    | none => exact ⟨own, mown, o⟩
    | some m =>
      obtain ⟨own', h⟩ := o.addNew (force := force) (o.cls c m hx).1 ho
      exact ⟨own', mown, h⟩
  | addShared i k force => exact ho.elim

theorem owned_start : Owned (World.start : World V) (fun _ => none) (fun _ => none) := by
  refine ⟨?_, ?_, ?_, ?_, ?_⟩
  · intro c m h
    have := List.mem_singleton.mp (List.mem_of_getElem? h)
    subst this
    exact ⟨by simp [World.start], rfl⟩
  · intro i x h; simp [World.start] at h
  · intro m M h id hid
    have := List.mem_singleton.mp (List.mem_of_getElem? h)
    subst this
    simp at hid
  · intro m M h hne; exact absurd rfl hne
  · intro id p h; simp [World.start] at h

theorem owned_run (env : Scripts V) : ∀ (ops : List (WorldOp V)) (w : World V), (∀ op ∈ ops, op.MakesProps) →
    (∃ own mown, Owned w own mown) → ∃ own mown, Owned (World.run env w ops) own mown
  | [], _, _, h => h
  | op :: ops, _, hm, ⟨_, _, o⟩ => owned_run env ops _ (fun x hx => hm x (List.mem_cons_of_mem _ hx)) (o.step env (hm op List.mem_cons_self))

theorem Reachable.owned {env : Scripts V} {w : World V} (h : World.Reachable env w) : ∃ own mown, Owned w own mown := by
  obtain ⟨ops, h1, rfl⟩ := h
  exact owned_run env ops _ h1 ⟨_, _, owned_start⟩

end World

end Verif
