import Verif.Proof.WorldStep

/-! # Classes and instances: what is seen of them after a step, lemmas for C87 -/

namespace Verif

variable {V : Type}

namespace World

theorem deref_withNew {w w' : World V} {x : MetaObj} {q : PsProp V} (hp : w'.props = w.props ++ [q])
    (hr : ∀ id ∈ x.extended, id < w.props.length) :
    w'.deref (w.withNew x q) = match PsObj.lastIdx q.name (w.deref x.extended) with
      | some k => ((w.deref x.extended).eraseIdx k).insertIdx k q
      | none => w.deref x.extended ++ [q] := by
  have h1 : ∀ id ∈ x.extended, (w'.props[id]?).getD anyProp = (w.props[id]?).getD anyProp := fun id hid => by
    rw [get_append hp (hr id hid)]
  have h2 : (w'.props[w.props.length]?).getD anyProp = q := by rw [hp]; simp
  have hl : w'.props.length = w.props.length + 1 := by rw [hp]; simp
  have hall : ∀ id ∈ w.withNew x q, id < w'.props.length := fun id hid => by
    rcases withNew_mem hid with rfl | h
    · omega
    · have := hr id h; omega
  have h3 : x.extended.map (fun id => (w'.props[id]?).getD anyProp) = w.deref x.extended := by
    rw [deref_map hr]
    exact List.map_congr_left h1
  rw [deref_map hall]
  unfold withNew
  cases hk : PsObj.lastIdx q.name (w.deref x.extended) with
  | none =>
    dsimp only
    rw [List.map_append, h3, List.map_singleton, h2]
  | some k =>
    dsimp only
    rw [erase_insert _ _ _ (lastIdx_lt hk), List.map_set, h3, h2]

/-- What is seen of an instance that gets a new property. -/
theorem view_addNew {w : World V} {own mown : Nat → Option Nat} (o : Owned w own mown) {i : Nat} {x : Inst V} (hx : w.insts[i]? = some x)
    {y : PsObj V} (hy : w.view i = some y) (p q : PsProp V) (hq : p.construct = .ok q) (force : Bool) :
    (w.addNew x.metaId p force).1.view i = some (y.addMember q force).1 ∧ (w.addNew x.metaId p force).2 = (y.addMember q force).2 := by
  obtain ⟨m, hm, _, hids, _, hv⟩ := o.at hx
  rw [hv] at hy
  cases hy
  have g : Grows w { w with props := w.props ++ [q] } := ⟨⟨_, rfl⟩, ⟨[], by simp⟩, ⟨[], by simp⟩, ⟨[], by simp⟩⟩
  rcases addNew_cases w o hm p force with ⟨e, h, _⟩ | ⟨q', h1, h⟩
  · rw [hq] at h; exact nomatch h
  · rw [hq] at h1
    cases h1
    rcases h with ⟨h1, h2, h3⟩ | ⟨h1, h2⟩
    · rw [h3]
      unfold PsObj.addMember
      rw [if_pos ⟨h1, h2⟩]
      exact ⟨by rw [← hv]; exact g.view o (List.getElem?_eq_some_iff.mp hx).1, rfl⟩
    · rw [h2]
      unfold PsObj.addMember
      rw [if_neg h1]
      have hmm : (w.metas.set x.metaId { m with extended := w.withNew m q })[x.metaId]? = some { m with extended := w.withNew m q } :=
        List.getElem?_set_self (List.getElem?_eq_some_iff.mp hm).1
      have hd := deref_withNew (w := w) (w' := { w with props := w.props ++ [q], metas := w.metas.set x.metaId { m with extended := w.withNew m q } })
        (q := q) rfl (fun id hid => (hids id (List.mem_append_right _ hid)).1)
      have ha : deref { w with props := w.props ++ [q], metas := w.metas.set x.metaId { m with extended := w.withNew m q } } m.adapted =
          w.deref m.adapted := deref_congr fun id hid =>
        List.getElem?_append_left (hids id (List.mem_append_left _ hid)).1
      constructor
      · unfold World.view
        rw [hx]
        simp only [Option.bind_some]
        rw [hmm]
        simp only [Option.map_some]
        rw [hd, ha]
        cases PsObj.lastIdx q.name (w.deref m.extended) <;> rfl
      · cases PsObj.lastIdx q.name (w.deref m.extended) <;> rfl

theorem view_set {w : World V} {own mown : Nat → Option Nat} (o : Owned w own mown) {env : Scripts V} (he : env.OnlyAssign) {i : Nat}
    {y : PsObj V} (hy : w.view i = some y) (name : PyStr) (v : Option V) :
    (w.setAttr env i name v).1.view i = some (y.setAttr env name v).1 ∧ (w.setAttr env i name v).2 = (y.setAttr env name v).2 := by
  cases hx : w.insts[i]? with
  | none => unfold World.view at hy; rw [hx] at hy; exact nomatch hy
  | some x =>
    obtain ⟨m, hm, _, hids, hn, hv⟩ := o.at hx
    rw [setAttr_eq o env hx hm name v hy]
    obtain ⟨h1, h2, h3, h4⟩ := setAttr_keeps he y name v
    rw [hv] at hy
    cases hy
    dsimp only at h1 h2 h3 h4
    generalize PsObj.setAttr env _ name v = r at h1 h2 h3 h4 ⊢
    refine ⟨?_, rfl⟩
    have hla := deref_length fun id hid => (hids id (List.mem_append_left _ hid)).1
    have hle := deref_length fun id hid => (hids id (List.mem_append_right _ hid)).1
    generalize hW : ({ w with
      props := storeProps (m.adapted ++ m.extended) (r.1.adapted ++ r.1.extended) w.props
      insts := w.insts.set i { x with attrs := r.1.attrs } } : World V) = W
    have hd : W.deref (m.adapted ++ m.extended) = r.1.adapted ++ r.1.extended := by
      rw [← hW]
      exact storeProps_deref { w with insts := w.insts.set i { x with attrs := r.1.attrs } } (m.adapted ++ m.extended)
        (r.1.adapted ++ r.1.extended) w.props hn (fun id hid => (hids id hid).1) (by simp; omega)
    have hpl : W.props.length = w.props.length := by rw [← hW]; exact storeProps_length _ _ _
    have hla' : (W.deref m.adapted).length = r.1.adapted.length := by
      rw [deref_length fun id hid => by rw [hpl]; exact (hids id (List.mem_append_left _ hid)).1]
      omega
    rw [deref_append] at hd
    obtain ⟨e1, e2⟩ := List.append_inj hd hla'
    have hi : W.insts[i]? = some { x with attrs := r.1.attrs } := by
      rw [← hW]; exact List.getElem?_set_self (List.getElem?_eq_some_iff.mp hx).1
    have hmm : W.metas[x.metaId]? = some m := by rw [← hW]; exact hm
    unfold World.view
    rw [hi]
    simp only [Option.bind_some]
    rw [hmm]
    simp only [Option.map_some]
    rw [e1, e2, ← h1, ← h2]

theorem view_construct {w : World V} {own mown : Nat → Option Nat} (o : Owned w own mown) {c : Nat} {k : PsClass V}
    (hc : w.classView c = some k) (cls : PyStr → Option (ClassAttr V)) :
    (w.construct c cls).2 = .ok () ∧ (w.construct c cls).1.insts.length = w.insts.length + 1 ∧
      (w.construct c cls).1.view w.insts.length = some (k.instance cls) := by
  unfold World.classView at hc
  obtain ⟨id, h1, h2⟩ := Option.bind_eq_some_iff.mp hc
  obtain ⟨m, h3, rfl⟩ := Option.map_eq_some_iff.mp h2
  rw [construct_eq o h1 h3 cls]
  refine ⟨rfl, by simp, ?_⟩
  unfold World.view
  dsimp only
  rw [List.getElem?_append_right (Nat.le_refl _), Nat.sub_self]
  simp only [List.getElem?_cons_zero, Option.bind_some]
  rw [List.getElem?_append_right (Nat.le_refl _), Nat.sub_self]
  simp only [List.getElem?_cons_zero, Option.map_some]
  generalize hW : ({ w with
      props := w.props ++ (w.deref m.adapted ++ w.deref m.extended)
      metas := w.metas ++ [⟨m.typeNames, w.fresh 0 (w.deref m.adapted).length, w.fresh (w.deref m.adapted).length (w.deref m.extended).length⟩]
      insts := w.insts ++ [{ cls := cls, metaId := w.metas.length }] } : World V) = W
  have hp : W.props = w.props ++ (w.deref m.adapted ++ w.deref m.extended) := by rw [← hW]
  have d1 : W.deref (w.fresh 0 (w.deref m.adapted).length) = w.deref m.adapted :=
    deref_range w.props (w.deref m.adapted) (w.deref m.extended) W (by rw [hp, List.append_assoc])
  have d2 : W.deref (w.fresh (w.deref m.adapted).length (w.deref m.extended).length) = w.deref m.extended := by
    have := deref_range (w.props ++ w.deref m.adapted) (w.deref m.extended) [] W (by rw [hp]; simp)
    rwa [List.length_append] at this
  rw [d1, d2]
  rfl

/-! ## The others -/

theorem view_addNew_other {w : World V} {own mown : Nat → Option Nat} (o : Owned w own mown) {k : Nat} (hk : k < w.metas.length)
    (p : PsProp V) (force : Bool) {j : Nat} (hj : j < w.insts.length) (hne : mown k ≠ some j) :
    (w.addNew k p force).1.view j = w.view j := by
  have hx : w.insts[j]? = some w.insts[j] := List.getElem?_eq_getElem hj
  obtain ⟨m, hm, h2, hids, _, hv⟩ := o.at hx
  have hkm : w.metas[k]? = some w.metas[k] := List.getElem?_eq_getElem hk
  rcases addNew_cases w o hkm p force with ⟨e, _, h⟩ | ⟨q, _, ⟨_, _, h⟩ | ⟨_, h⟩⟩
  · rw [h]
  · rw [h]
    exact Grows.view ⟨⟨_, rfl⟩, ⟨[], by simp⟩, ⟨[], by simp⟩, ⟨[], by simp⟩⟩ o hj
  · rw [h, hv]
    have hkne : k ≠ w.insts[j].metaId := fun h => hne (h ▸ h2)
    unfold World.view
    dsimp only
    rw [hx]
    simp only [Option.bind_some]
    rw [List.getElem?_set_ne hkne, hm]
    simp only [Option.map_some]
    congr 2 <;> refine deref_congr fun id hid => ?_
    · exact List.getElem?_append_left (hids id (List.mem_append_left _ hid)).1
    · exact List.getElem?_append_left (hids id (List.mem_append_right _ hid)).1

theorem classView_addNew_other {w : World V} {own mown : Nat → Option Nat} (o : Owned w own mown) {k : Nat} (hk : k < w.metas.length)
    (p : PsProp V) (force : Bool) {c : Nat} (hc : c < w.classes.length) (hne : w.classes[c]? ≠ some k) :
    (w.addNew k p force).1.classView c = w.classView c := by
  have hx : w.classes[c]? = some w.classes[c] := List.getElem?_eq_getElem hc
  obtain ⟨h1, _⟩ := o.cls c _ hx
  have hm : w.metas[w.classes[c]]? = some w.metas[w.classes[c]] := List.getElem?_eq_getElem h1
  have hids := o.ids _ _ hm
  have hkm : w.metas[k]? = some w.metas[k] := List.getElem?_eq_getElem hk
  rcases addNew_cases w o hkm p force with ⟨e, _, h⟩ | ⟨q, _, ⟨_, _, h⟩ | ⟨_, h⟩⟩
  · rw [h]
  · rw [h]
    exact Grows.classView ⟨⟨_, rfl⟩, ⟨[], by simp⟩, ⟨[], by simp⟩, ⟨[], by simp⟩⟩ o hc
  · rw [h]
    have hkne : k ≠ w.classes[c] := fun h => hne (by rw [hx, h])
    unfold World.classView
    dsimp only
    rw [hx]
    simp only [Option.bind_some]
    rw [List.getElem?_set_ne hkne, hm]
    simp only [Option.map_some]
    unfold metaView
    congr 2 <;> refine deref_congr fun id hid => ?_
    · exact List.getElem?_append_left (hids id (List.mem_append_left _ hid)).1
    · exact List.getElem?_append_left (hids id (List.mem_append_right _ hid)).1

/-- What is seen of a class that gets a new property. -/
theorem classView_addNew {w : World V} {own mown : Nat → Option Nat} (o : Owned w own mown) {c k : Nat} (hc : w.classes[c]? = some k)
    {y : PsClass V} (hy : w.classView c = some y) (p q : PsProp V) (hq : p.construct = .ok q) (force : Bool)
    (cls : PyStr → Option (ClassAttr V)) :
    ∃ z, (w.addNew k p force).1.classView c = some z ∧ z.instance cls = ((y.instance cls).addMember q force).1 ∧
      (w.addNew k p force).2 = ((y.instance cls).addMember q force).2 := by
  obtain ⟨h1, _⟩ := o.cls c _ hc
  have hm : w.metas[k]? = some w.metas[k] := List.getElem?_eq_getElem h1
  generalize w.metas[k] = m at hm
  have hids := o.ids _ _ hm
  have hv : w.classView c = some (w.metaView m) := by
    unfold World.classView
    rw [hc]
    simp only [Option.bind_some]
    rw [hm]
    rfl
  rw [hv] at hy
  cases hy
  rcases addNew_cases w o hm p force with ⟨e, h, _⟩ | ⟨q', h1, h⟩
  · rw [hq] at h; exact nomatch h
  · rw [hq] at h1
    cases h1
    rcases h with ⟨h1, h2, h3⟩ | ⟨h1, h2⟩
    · rw [h3]
      refine ⟨w.metaView m, ?_, ?_⟩
      · rw [← hv]
        exact Grows.classView ⟨⟨_, rfl⟩, ⟨[], by simp⟩, ⟨[], by simp⟩, ⟨[], by simp⟩⟩ o (List.getElem?_eq_some_iff.mp hc).1
      · unfold PsObj.addMember metaView PsClass.instance
        rw [if_pos ⟨h1, h2⟩]
        exact ⟨rfl, rfl⟩
    · rw [h2]
      generalize hW : ({ w with props := w.props ++ [q], metas := w.metas.set k { m with extended := w.withNew m q } } : World V) = W
      have hp : W.props = w.props ++ [q] := by rw [← hW]
      have hd := deref_withNew (w := w) hp (fun id hid => (hids id (List.mem_append_right _ hid)).1)
      have ha : W.deref m.adapted = w.deref m.adapted := deref_congr fun id hid => by
        rw [hp]
        exact List.getElem?_append_left (hids id (List.mem_append_left _ hid)).1
      refine ⟨W.metaView { m with extended := w.withNew m q }, ?_, ?_⟩
      · unfold World.classView
        rw [← hW]
        dsimp only
        rw [hc]
        simp only [Option.bind_some]
        rw [List.getElem?_set_self (List.getElem?_eq_some_iff.mp hm).1]
        rfl
      · unfold PsObj.addMember metaView PsClass.instance
        rw [if_neg h1]
        dsimp only
        rw [hd, ha]
        cases PsObj.lastIdx q.name (w.deref m.extended) <;> exact ⟨rfl, rfl⟩

theorem view_set_other {w : World V} {own mown : Nat → Option Nat} (o : Owned w own mown) (env : Scripts V) {i j : Nat} (hij : i ≠ j)
    (hj : j < w.insts.length) (name : PyStr) (v : Option V) : (w.setAttr env i name v).1.view j = w.view j := by
  cases hx : w.insts[i]? with
  | none => unfold World.setAttr; rw [hx]
  | some x =>
    obtain ⟨m, hm, _, hids, hn, hy⟩ := o.at hx
    rw [setAttr_eq o env hx hm name v hy]
    have hx' : w.insts[j]? = some w.insts[j] := List.getElem?_eq_getElem hj
    obtain ⟨m', hm', _, hids', _, hv⟩ := o.at hx'
    rw [hv]
    unfold World.view
    dsimp only
    rw [List.getElem?_set_ne hij, hx']
    simp only [Option.bind_some]
    rw [hm']
    simp only [Option.map_some]
    have key : ∀ id, own id = some j → id ∉ m.adapted ++ m.extended := fun id h hm => by
      have := (hids id hm).2
      rw [this] at h
      exact hij (by simpa using h)
    congr 2 <;> refine deref_congr fun id hid => storeProps_other _ _ _ _ (key id ?_)
    · exact (hids' id (List.mem_append_left _ hid)).2
    · exact (hids' id (List.mem_append_right _ hid)).2

theorem classView_set {w : World V} {own mown : Nat → Option Nat} (o : Owned w own mown) (env : Scripts V) (i : Nat) {c : Nat}
    (hc : c < w.classes.length) (name : PyStr) (v : Option V) : (w.setAttr env i name v).1.classView c = w.classView c := by
  cases hx : w.insts[i]? with
  | none => unfold World.setAttr; rw [hx]
  | some x =>
    obtain ⟨m, hm, _, hids, hn, hy⟩ := o.at hx
    rw [setAttr_eq o env hx hm name v hy]
    have hx' : w.classes[c]? = some w.classes[c] := List.getElem?_eq_getElem hc
    obtain ⟨h1, h2⟩ := o.cls c _ hx'
    have hm' : w.metas[w.classes[c]]? = some w.metas[w.classes[c]] := List.getElem?_eq_getElem h1
    have hids' := o.ids _ _ hm'
    rw [h2] at hids'
    unfold World.classView
    dsimp only
    rw [hx']
    simp only [Option.bind_some]
    rw [hm']
    simp only [Option.map_some]
    unfold metaView
    have key : ∀ id, own id = none → id ∉ m.adapted ++ m.extended := fun id h hm => by
      have := (hids id hm).2
      rw [this] at h
      exact nomatch h
    congr 2 <;> refine deref_congr fun id hid => storeProps_other _ _ _ _ (key id ?_)
    · exact (hids' id (List.mem_append_left _ hid)).2
    · exact (hids' id (List.mem_append_right _ hid)).2

theorem grows_decorate (w : World V) (base : Nat) (ns : List PyStr) (a e : List (PsProp V)) (skip : Bool) :
    Grows w (w.decorate base ns a e skip).1 := by
  have r : Grows w w := ⟨⟨[], by simp⟩, ⟨[], by simp⟩, ⟨[], by simp⟩, ⟨[], by simp⟩⟩
  unfold World.decorate
  split
  · exact ⟨⟨_, rfl⟩, ⟨_, rfl⟩, ⟨_, rfl⟩, ⟨[], by simp [alloc]⟩⟩
  · exact r
  · exact r
  · exact r

theorem grows_subclass (w : World V) (base : Nat) : Grows w (w.subclass base).1 := by
  unfold World.subclass
  split
  · exact ⟨⟨[], by simp⟩, ⟨[], by simp⟩, ⟨_, rfl⟩, ⟨[], by simp⟩⟩
  · exact ⟨⟨[], by simp⟩, ⟨[], by simp⟩, ⟨[], by simp⟩, ⟨[], by simp⟩⟩

theorem grows_construct (w : World V) (c : Nat) (cls : PyStr → Option (ClassAttr V)) : Grows w (w.construct c cls).1 := by
  have r : Grows w w := ⟨⟨[], by simp⟩, ⟨[], by simp⟩, ⟨[], by simp⟩, ⟨[], by simp⟩⟩
  unfold World.construct
  split
  · exact r
  · split
    · exact ⟨⟨_, rfl⟩, ⟨_, rfl⟩, ⟨[], by simp [alloc]⟩, ⟨_, rfl⟩⟩
    · exact r
    · exact r

theorem view_step {w : World V} {own mown : Nat → Option Nat} (o : Owned w own mown) (env : Scripts V) {op : WorldOp V} (ho : op.MakesProps)
    {j : Nat} (hj : j < w.insts.length) (hne : op.inst ≠ some j) : (w.step env op).1.view j = w.view j := by
  cases op with
  | decorate base ns a e skip => exact (grows_decorate w base ns a e skip).view o hj
  | subclass base => exact (grows_subclass w base).view o hj
  | construct c cls => exact (grows_construct w c cls).view o hj
  | set i name v => exact view_set_other o env (fun h => hne (by rw [h]; rfl)) hj name v
  | addToInst i p force =>
    unfold World.step
    dsimp only
    cases hx : w.insts[i]? with
    | none => rfl
    | some x =>
      obtain ⟨h1, h2⟩ := o.inst i x hx
      exact view_addNew_other o h1 p force hj (by rw [h2]; exact hne)
  | addToClass c p force =>
    unfold World.step
    dsimp only
    cases hx : w.classes[c]? with
    | none => rfl
    | some m =>
      obtain ⟨h1, h2⟩ := o.cls c m hx
      exact view_addNew_other o h1 p force hj (by rw [h2]; simp)
  | addShared i k force => exact ho.elim

theorem classView_step {w : World V} {own mown : Nat → Option Nat} (o : Owned w own mown) (env : Scripts V) {op : WorldOp V}
    (ho : op.MakesProps) {c : Nat} (hc : c < w.classes.length) (hne : ∀ d, op.cls = some d → ¬ w.SameMeta d c) :
    (w.step env op).1.classView c = w.classView c := by
  cases op with
  | decorate base ns a e skip => exact (grows_decorate w base ns a e skip).classView o hc
  | subclass base => exact (grows_subclass w base).classView o hc
  | construct k cls => exact (grows_construct w k cls).classView o hc
  | set i name v => exact classView_set o env i hc name v
  | addToInst i p force =>
    unfold World.step
    dsimp only
    cases hx : w.insts[i]? with
    | none => rfl
    | some x =>
      obtain ⟨h1, h2⟩ := o.inst i x hx
      refine classView_addNew_other o h1 p force hc fun h => ?_
      rw [(o.cls c _ h).2] at h2
      exact nomatch h2
  | addToClass d p force =>
    unfold World.step
    dsimp only
    cases hx : w.classes[d]? with
    | none => rfl
    | some m =>
      obtain ⟨h1, h2⟩ := o.cls d m hx
      refine classView_addNew_other o h1 p force hc fun h => hne d rfl ?_
      unfold SameMeta
      rw [hx, h]
  | addShared i k force => exact ho.elim

theorem insts_step {w : World V} (env : Scripts V) (op : WorldOp V) : w.insts.length ≤ (w.step env op).1.insts.length := by
  have hadd : ∀ m id force, (w.addMember m id force).1.insts = w.insts := by
    intro m id force; unfold addMember; split
    · split <;> rfl
    · rfl
  have hnew : ∀ m (p : PsProp V) force, (w.addNew m p force).1.insts = w.insts := by
    intro m p force; unfold addNew; split
    · rfl
    · unfold addMember alloc; split
      · split <;> rfl
      · rfl
  have hg : ∀ w', Grows w w' → w.insts.length ≤ w'.insts.length := fun w' g => by
    obtain ⟨is, h⟩ := g.insts; rw [h, List.length_append]; omega
  cases op with
  | decorate base ns a e skip => exact hg _ (grows_decorate w base ns a e skip)
  | subclass base => exact hg _ (grows_subclass w base)
  | construct k cls => exact hg _ (grows_construct w k cls)
  | set i name v =>
    show w.insts.length ≤ (w.setAttr env i name v).1.insts.length
    unfold World.setAttr
    split
    · split
      · simp
      · exact Nat.le_refl _
    · exact Nat.le_refl _
  | addToInst i p force =>
    unfold World.step; dsimp only; split
    · rw [hnew]; exact Nat.le_refl _
    · exact Nat.le_refl _
  | addToClass c p force =>
    unfold World.step; dsimp only; split
    · rw [hnew]; exact Nat.le_refl _
    · exact Nat.le_refl _
  | addShared i k force =>
    unfold World.step; dsimp only; split
    · rw [hadd]; exact Nat.le_refl _
    · exact Nat.le_refl _

theorem view_run (env : Scripts V) {j : Nat} : ∀ (ops : List (WorldOp V)) (w : World V), (∃ own mown, Owned w own mown) →
    (∀ op ∈ ops, op.MakesProps) → (∀ op ∈ ops, op.inst ≠ some j) → j < w.insts.length → (World.run env w ops).view j = w.view j
  | [], _, _, _, _, _ => rfl
  | op :: ops, w, ⟨own, mown, o⟩, hm, hne, hj => by
    have h1 := hm op List.mem_cons_self
    show (World.run env (w.step env op).1 ops).view j = _
    rw [view_run env ops _ (o.step env h1) (fun x hx => hm x (List.mem_cons_of_mem _ hx)) (fun x hx => hne x (List.mem_cons_of_mem _ hx))
      (Nat.lt_of_lt_of_le hj (insts_step env op)), view_step o env h1 hj (hne op List.mem_cons_self)]

end World

end Verif
