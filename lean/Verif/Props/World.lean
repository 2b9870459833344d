import Verif.Proof.WorldViews

/-! # C87: classes, instances and the properties they have in common -/

namespace Verif

variable {V : Type}

/-- A type of numbers that makes even numbers of all (for the examples). -/
private def even : Nat → Except Err Nat := fun n => .ok (2 * (n / 2))

private theorem even_once (p : PsProp Nat) (h : p.cast = even) : p.CastsOnce := by
  intro v w hv
  rw [h] at hv ⊢
  unfold even at hv ⊢
  cases hv
  congr 1
  omega

private def noCalls : Scripts Nat := ⟨fun _ _ => .ok none, fun _ o _ => (o, .ok ())⟩

private def propA : PsProp Nat := { name := txt! "a", cast := even, body := .note (some (some 7)) }

private def propB : PsProp Nat := { name := txt! "b", cast := even }

/-- A class with a property, two instances of it. -/
private def program : List (WorldOp Nat) :=
  [.decorate 0 [txt! "T"] [propA] [] false, .construct 1 (fun _ => none), .construct 1 (fun _ => none)]

private theorem program_makes : ∀ op ∈ program, op.MakesProps := by
  intro op hop
  simp only [program, List.mem_cons, List.not_mem_nil, or_false] at hop
  rcases hop with rfl | rfl | rfl
  · intro p hp
    simp at hp
    exact even_once p (by rw [hp]; rfl)
  · trivial
  · trivial

private theorem program_reachable : World.Reachable noCalls (World.run noCalls .start program) := ⟨program, program_makes, rfl⟩

/-- What is read of an attribute of an instance. -/
private def World.read (w : World Nat) (i : Nat) (name : PyStr) : Option (Except Err (Option Nat)) :=
  (w.view i).map fun o => o.getAttr noCalls 9 name

/-- C87, instances (full statement: nothing a program does elsewhere changes an instance; see `C87_shared_violated`). In a program that
makes the property objects it adds, an instance is changed by nothing but assignments to itself and properties added to itself, whatever
is done with its class, other classes and other instances. -/
theorem C87_instances_partial (env : Scripts V) (w : World V) (hw : w.Reachable env) (i : Nat) (hi : i < w.insts.length)
    (ops : List (WorldOp V)) (hm : ∀ op ∈ ops, op.MakesProps) (hne : ∀ op ∈ ops, op.inst ≠ some i) :
    (World.run env w ops).view i = w.view i :=
  World.view_run env ops w hw.owned hm hne hi

/-- The other instance and the class change, the instance does not. -/
example : let w := World.run noCalls .start program
    let ops : List (WorldOp Nat) := [.set 0 (txt! "a") (some 9), .addToClass 1 propB false, .addToInst 0 propB false]
    w.Reachable noCalls ∧ 1 < w.insts.length ∧ (∀ op ∈ ops, op.MakesProps) ∧ (∀ op ∈ ops, op.inst ≠ some 1) ∧
    (World.run noCalls w ops).read 0 (txt! "a") = some (.ok (some 8)) ∧ (World.run noCalls w ops).read 1 (txt! "a") = some (.ok (some 6)) := by
  refine ⟨program_reachable, by decide, ?_, ?_, by rfl, by rfl⟩
  · intro op hop
    simp only [List.mem_cons, List.not_mem_nil, or_false] at hop
    rcases hop with rfl | rfl | rfl
    · trivial
    · exact even_once propB rfl
    · exact even_once propB rfl
  · intro op hop
    simp only [List.mem_cons, List.not_mem_nil, or_false] at hop
    rcases hop with rfl | rfl | rfl <;> simp [WorldOp.inst]

/-- `add_member` does not copy: a property object given to two instances has one value for both. -/
theorem C87_shared_violated : ∃ (ops : List (WorldOp Nat)) (v : Nat),
    let w := World.run noCalls .start ops
    w.read 1 (txt! "b") = some (.ok none) ∧ (World.run noCalls w [.set 0 (txt! "b") (some v)]).read 1 (txt! "b") = some (.ok (some v)) :=
  ⟨[.construct 0 (fun _ => none), .construct 0 (fun _ => none), .addToInst 0 propB false, .addShared 1 0 false], 4, by rfl, by rfl⟩

/-- C87, classes (full statement: a class is changed by nothing but properties added to it; see `C87_subclass_violated`). What instances do
never changes a class, and a property that is added to a class is added to no class with a `PSObjectMeta` of its own: not to the classes it
is derived from, and not to those derived from it. -/
theorem C87_classes_partial (env : Scripts V) (w : World V) (hw : w.Reachable env) (c : Nat) (hc : c < w.classes.length)
    (op : WorldOp V) (hm : op.MakesProps) (hne : ∀ d, op.cls = some d → ¬ w.SameMeta d c) :
    (w.step env op).1.classView c = w.classView c := by
  obtain ⟨_, _, o⟩ := hw.owned
  exact World.classView_step o env hm hc hne

/-- A property is added to a class; the class it is derived from is another. -/
example : let w := World.run noCalls .start program
    w.Reachable noCalls ∧ 0 < w.classes.length ∧ (WorldOp.addToClass 1 propB false).MakesProps ∧
      (∀ d, (WorldOp.addToClass 1 propB false).cls = some d → ¬ w.SameMeta d 0) := by
  refine ⟨program_reachable, by decide, even_once propB rfl, fun d hd => ?_⟩
  cases hd
  unfold World.SameMeta
  decide

/-- A class without decorator has the `PSObjectMeta` of the class it is derived from: what is added to it is added to that class too, so
that all new instances of that have the property. -/
theorem C87_subclass_violated : ∃ (ops : List (WorldOp Nat)) (p : PsProp Nat),
    let w := World.run noCalls .start ops
    p.CastsOnce ∧ (World.run noCalls w [.construct 0 (fun _ => none)]).read 0 p.name = some (.error .attributeError) ∧
      (World.run noCalls w [.addToClass 1 p false, .construct 0 (fun _ => none)]).read 0 p.name = some (.ok none) :=
  ⟨[.subclass 0], propB, even_once propB rfl, by rfl, by rfl⟩

/-- C87, new instances: an instance has the type names and properties its class has at that time, with the values the class has, and
making it never fails. -/
theorem C87_new (env : Scripts V) (w : World V) (hw : w.Reachable env) (c : Nat) (k : PsClass V) (hc : w.classView c = some k)
    (cls : PyStr → Option (ClassAttr V)) :
    (w.step env (.construct c cls)).2 = .ok () ∧ (w.step env (.construct c cls)).1.insts.length = w.insts.length + 1 ∧
      (w.step env (.construct c cls)).1.view w.insts.length = some (k.instance cls) := by
  obtain ⟨_, _, o⟩ := hw.owned
  exact World.view_construct o hc cls

example : let w := World.run noCalls .start program
    w.Reachable noCalls ∧ (w.classView 1).isSome ∧
      (World.run noCalls w [.set 0 (txt! "a") (some 9), .construct 1 (fun _ => none)]).read 2 (txt! "a") = some (.ok (some 6)) :=
  ⟨program_reachable, by rfl, by rfl⟩

/-- C87, assignments: an assignment to an instance is `PsObj.setAttr` of what is seen of it (C34 says what that does), as if its
property objects were its own. -/
theorem C87_set (env : Scripts V) (he : env.OnlyAssign) (w : World V) (hw : w.Reachable env) (i : Nat) (o : PsObj V) (ho : w.view i = some o)
    (name : PyStr) (v : Option V) :
    (w.step env (.set i name v)).1.view i = some (o.setAttr env name v).1 ∧ (w.step env (.set i name v)).2 = (o.setAttr env name v).2 := by
  obtain ⟨_, _, h⟩ := hw.owned
  exact World.view_set h he ho name v

example : let w := World.run noCalls .start program
    noCalls.OnlyAssign ∧ w.Reachable noCalls ∧ (w.view 1).isSome ∧
      (w.step noCalls (.set 1 (txt! "a") (some 9))).1.read 1 (txt! "a") = some (.ok (some 8)) :=
  ⟨fun _ _ _ => ⟨rfl, rfl, rfl, rfl⟩, program_reachable, by rfl, by rfl⟩

private theorem made_construct {p : PsProp V} {r : Except Err (PsProp V)} (h : p.Made r) : p.construct = r := by
  unfold PsProp.construct PsProp.castValue
  cases h with
  | value h1 h2 => rw [h1]; dsimp only; rw [h2]; rfl
  | refused h1 h2 => rw [h1]; dsimp only; rw [h2]; rfl
  | other h =>
    obtain ⟨name, mandatory, cast, body⟩ := p
    cases body with
    | alias t => rfl
    | script g s => rfl
    | note v =>
      cases v with
      | none => rfl
      | some v =>
        cases v with
        | none => rfl
        | some v => exact absurd rfl (h v)

private theorem made_all {ps qs : List (PsProp V)} (h : MadeAll ps qs) : constructAll ps = .ok qs := by
  induction h with
  | nil => rfl
  | cons h _ ih => unfold constructAll; rw [made_construct h, ih]; rfl

/-- C87, decorated classes: a class has the properties it is given, made as they are given, before those its base class has at that
time. -/
theorem C87_decorated (env : Scripts V) (w : World V) (hw : w.Reachable env) (base : Nat) (k : PsClass V) (hb : w.classView base = some k)
    (typeNames : List PyStr) (a a' e e' : List (PsProp V)) (ha : MadeAll a a') (he : MadeAll e e') (skip : Bool) :
    (w.step env (.decorate base typeNames a e skip)).2 = .ok () ∧
    (w.step env (.decorate base typeNames a e skip)).1.classView w.classes.length =
      some (if skip then ⟨typeNames, a', e'⟩ else ⟨typeNames ++ k.typeNames, a' ++ k.adapted, e' ++ k.extended⟩) := by
  obtain ⟨_, _, h⟩ := hw.owned
  cases hx : w.classes[base]? with
  | none => unfold World.classView at hb; rw [hx] at hb; exact nomatch hb
  | some m =>
    cases hm : w.metas[m]? with
    | none => unfold World.classView at hb; rw [hx, Option.bind_some, hm] at hb; exact nomatch hb
    | some M =>
      have hk : w.metaView M = k := by
        unfold World.classView at hb
        rw [hx, Option.bind_some, hm] at hb
        exact Option.some.inj hb
      subst hk
      unfold World.step World.decorate
      dsimp only
      rw [hx, Option.bind_some, hm, made_all ha, made_all he]
      refine ⟨rfl, ?_⟩
      have h1 : ∀ W : World V, W.props = w.props ++ (a' ++ e') → W.deref (w.fresh 0 a'.length) = a' := fun W hW =>
        World.deref_range w.props a' e' W (by rw [hW, List.append_assoc])
      have h2 : ∀ W : World V, W.props = w.props ++ (a' ++ e') → W.deref (w.fresh a'.length e'.length) = e' := fun W hW => by
        have := World.deref_range (w.props ++ a') e' [] W (by rw [hW]; simp)
        rwa [List.length_append] at this
      have h3 : ∀ W : World V, W.props = w.props ++ (a' ++ e') → W.deref M.adapted = w.deref M.adapted := fun W hW =>
        World.deref_congr fun id hid => by
          rw [hW, List.getElem?_append_left (h.ids m M hm id (List.mem_append_left _ hid)).1]
      have h4 : ∀ W : World V, W.props = w.props ++ (a' ++ e') → W.deref M.extended = w.deref M.extended := fun W hW =>
        World.deref_congr fun id hid => by
          rw [hW, List.getElem?_append_left (h.ids m M hm id (List.mem_append_right _ hid)).1]
      cases skip with
      | true =>
        simp only [World.classView, World.alloc, World.metaView, List.getElem?_concat_length, Option.bind_some, Option.map_some, if_true]
        rw [h1 _ rfl, h2 _ rfl]
      | false =>
        simp only [World.classView, World.alloc, World.metaView, List.getElem?_concat_length, Option.bind_some, Option.map_some,
          Bool.false_eq_true, if_false, World.deref_append]
        rw [h1 _ rfl, h2 _ rfl, h3 _ rfl, h4 _ rfl]

example : MadeAll [propA, propB] [{ propA with body := .note (some (some 6)) }, propB] :=
  .cons (.value (v := 7) rfl rfl) (.cons (.other fun v h => nomatch h) .nil)

example : let w := World.run noCalls .start program
    w.Reachable noCalls ∧ (w.classView 1).isSome ∧
      (World.run noCalls w [.decorate 1 [txt! "U"] [] [{ propA with name := txt! "b" }] false, .construct 2 (fun _ => none)]).read 2 (txt! "b") =
        some (.ok (some 6)) :=
  ⟨program_reachable, by rfl, by rfl⟩

/-- C87, properties added to an instance: the instance gets the property as it is made, in the way of `PsObj.addMember` (C33), and a value
its type refuses is refused without a change to the instance. -/
theorem C87_add (env : Scripts V) (w : World V) (hw : w.Reachable env) (i : Nat) (o : PsObj V) (ho : w.view i = some o) (p : PsProp V)
    (force : Bool) :
    (∀ q, p.Made (.ok q) → (w.step env (.addToInst i p force)).1.view i = some (o.addMember q force).1 ∧
      (w.step env (.addToInst i p force)).2 = (o.addMember q force).2) ∧
    ∀ e, p.Made (.error e) → w.step env (.addToInst i p force) = (w, .error e) := by
  obtain ⟨_, _, h⟩ := hw.owned
  unfold World.step
  dsimp only
  cases hx : w.insts[i]? with
  | none => unfold World.view at ho; rw [hx] at ho; exact nomatch ho
  | some x =>
    refine ⟨fun q hq => World.view_addNew h hx ho p q (made_construct hq) force, fun e he => ?_⟩
    dsimp only
    unfold World.addNew
    rw [made_construct he]

example : let w := World.run noCalls .start program
    w.Reachable noCalls ∧ (w.view 1).isSome ∧ PsProp.Made { propA with name := txt! "b" } (.ok { propA with name := txt! "b", body := .note (some (some 6)) }) ∧
      (w.step noCalls (.addToInst 1 { propA with name := txt! "b" } false)).1.read 1 (txt! "b") = some (.ok (some 6)) :=
  ⟨program_reachable, by rfl, .value (v := 7) rfl rfl, by rfl⟩

/-- C87, properties added to a class: an instance made after that is as if the property had been added to an instance made before. -/
theorem C87_add_class (env : Scripts V) (w : World V) (hw : w.Reachable env) (c : Nat) (k : PsClass V) (hc : w.classView c = some k)
    (p q : PsProp V) (hq : p.Made (.ok q)) (force : Bool) (cls : PyStr → Option (ClassAttr V)) :
    ∃ k', (w.step env (.addToClass c p force)).1.classView c = some k' ∧ k'.instance cls = ((k.instance cls).addMember q force).1 ∧
      (w.step env (.addToClass c p force)).2 = ((k.instance cls).addMember q force).2 := by
  obtain ⟨_, _, h⟩ := hw.owned
  unfold World.step
  dsimp only
  cases hx : w.classes[c]? with
  | none => unfold World.classView at hc; rw [hx] at hc; exact nomatch hc
  | some m => exact World.classView_addNew h hx hc p q (made_construct hq) force cls

example : let w := World.run noCalls .start program
    w.Reachable noCalls ∧ (w.classView 1).isSome ∧ propB.Made (.ok propB) ∧
      (World.run noCalls w [.addToClass 1 propB false, .construct 1 (fun _ => none)]).read 2 (txt! "b") = some (.ok none) :=
  ⟨program_reachable, by rfl, .other (fun v h => nomatch h), by rfl⟩

end Verif
