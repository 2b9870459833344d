import Verif.Model.PSObject

/-!
# Classes, instances and the property objects they share

Models /repo/src/psrpcore/types/_base.py:122-190, 565-579, 774-797, 836-950 with the identity of property objects and of `PSObjectMeta`
objects: lists hold numbers of property objects, classes and instances hold the number of their `PSObjectMeta`. Not modelled: the members
of enums, which are made without `PSObject.__new__` and so have the `PSObjectMeta` of their class (C41, C70), and property objects that
are given to more than one decorator.
-/

namespace Verif

variable {V : Type}

/-- The lists of a `PSObjectMeta`, /repo/src/psrpcore/types/_base.py:122-141, with the numbers of the property objects in them. -/
structure MetaObj where
  typeNames : List PyStr := []
  adapted : List Nat := []
  extended : List Nat := []

/-- An instance, /repo/src/psrpcore/types/_base.py:565-579: what Python finds on its class, its `__dict__` and the number of the
`PSObjectMeta` in its attribute `PSObject`. -/
structure Inst (V : Type) where
  cls : PyStr → Option (ClassAttr V)
  metaId : Nat
  attrs : Dict PyStr (Option V) := []

/-- All property objects, all `PSObjectMeta` objects, for each class the `PSObjectMeta` in its attribute `PSObject`, and the instances
(/repo/src/psrpcore/types/_base.py:187, 577, 786). -/
structure World (V : Type) where
  props : List (PsProp V) := []
  metas : List MetaObj := []
  classes : List Nat := []
  insts : List (Inst V) := []

/-- At the start there is the class `PSObject`, /repo/src/psrpcore/types/_base.py:559-563. -/
def World.start : World V := { metas := [{ typeNames := [txt! "System.Object"] }], classes := [0] }

/-- What a property object is made of when its constructor is called, or when it is copied, /repo/src/psrpcore/types/_base.py:257-264,
457-458, 490-491, 534-541: the value of a note is cast. -/
def PsProp.construct (p : PsProp V) : Except Err (PsProp V) :=
  match p.body with
  | .note (some v) => (p.castValue v).map fun w => { p with body := .note (some w) }
  | _ => .ok p

/-- Property objects made one after the other (/repo/src/psrpcore/types/_base.py:178-180). -/
def constructAll : List (PsProp V) → Except Err (List (PsProp V))
  | [] => .ok []
  | p :: ps => do
    let q ← p.construct
    let qs ← constructAll ps
    return q :: qs

namespace World

/-- The property objects in a list (`getattr(self, prop_name)`, /repo/src/psrpcore/types/_base.py:179). -/
def deref (w : World V) (ids : List Nat) : List (PsProp V) := ids.filterMap (w.props[·]?)

/-- The properties of a `PSObjectMeta` as a class has them, /repo/src/psrpcore/types/_base.py:559-563, 786. -/
def metaView (w : World V) (m : MetaObj) : PsClass V := ⟨m.typeNames, w.deref m.adapted, w.deref m.extended⟩

/-- What is seen of a class: its `PSObjectMeta` (/repo/src/psrpcore/types/_base.py:559-563, 786). -/
def classView (w : World V) (c : Nat) : Option (PsClass V) :=
  (w.classes[c]?).bind fun m => (w.metas[m]?).map w.metaView

/-- What is seen of an instance (/repo/src/psrpcore/types/_base.py:565-579). -/
def view (w : World V) (i : Nat) : Option (PsObj V) :=
  (w.insts[i]?).bind fun x => (w.metas[x.metaId]?).map fun m =>
    { cls := x.cls, attrs := x.attrs, typeNames := m.typeNames, adapted := w.deref m.adapted, extended := w.deref m.extended }

/-- New property objects behind those there are (/repo/src/psrpcore/types/_base.py:457-458, 490-491, 534-541, 901, 924, 950). -/
def alloc (w : World V) (ps : List (PsProp V)) : World V := { w with props := w.props ++ ps }

/-- The numbers of the next `n` property objects (/repo/src/psrpcore/types/_base.py:180). -/
def fresh (w : World V) (skip n : Nat) : List Nat := List.range' (w.props.length + skip) n

/-- `@PSType(type_names, adapted_properties, extended_properties, skip_inheritance=skip)` on a class derived from `base`,
/repo/src/psrpcore/types/_base.py:774-786. The given properties are new property objects, those of the base class are shared. -/
def decorate (w : World V) (base : Nat) (typeNames : List PyStr) (adapted extended : List (PsProp V)) (skip : Bool) :
    World V × Except Err Unit :=
  match (w.classes[base]?).bind (w.metas[·]?), constructAll adapted, constructAll extended with
  | some b, .ok a, .ok e =>
    let m : MetaObj :=
      if skip then ⟨typeNames, w.fresh 0 a.length, w.fresh a.length e.length⟩
      else ⟨typeNames ++ b.typeNames, w.fresh 0 a.length ++ b.adapted, w.fresh a.length e.length ++ b.extended⟩
    ({ (w.alloc (a ++ e)) with metas := w.metas ++ [m], classes := w.classes ++ [w.metas.length] }, .ok ())
  | some _, .error e, _ => (w, .error e)
  | some _, .ok _, .error e => (w, .error e)
  | none, _, _ => (w, .error .typeError)

/-- `class C(Base): ...` without decorator, /repo/src/psrpcore/types/_base.py:559: `C.PSObject` is that of the base class. -/
def subclass (w : World V) (base : Nat) : World V × Except Err Unit :=
  match w.classes[base]? with
  | some m => ({ w with classes := w.classes ++ [m] }, .ok ())
  | none => (w, .error .typeError)

/-- `PSObject.__new__` and `set_instance`, /repo/src/psrpcore/types/_base.py:565-579, 169-190: the instance gets copies of the property
objects and a `PSObjectMeta` of its own. -/
def construct (w : World V) (c : Nat) (cls : PyStr → Option (ClassAttr V)) : World V × Except Err Unit :=
  match (w.classes[c]?).bind (w.metas[·]?) with
  | none => (w, .error .typeError)
  | some m =>
    match constructAll (w.deref m.adapted), constructAll (w.deref m.extended) with
    | .ok a, .ok e =>
      ({ (w.alloc (a ++ e)) with
          metas := w.metas ++ [⟨m.typeNames, w.fresh 0 a.length, w.fresh a.length e.length⟩]
          insts := w.insts ++ [{ cls, metaId := w.metas.length }] }, .ok ())
    | .error e, _ => (w, .error e)
    | .ok _, .error e => (w, .error e)

/-- The values of property objects are replaced (`self._value = ...`, /repo/src/psrpcore/types/_base.py:367). -/
def storeProps : List Nat → List (PsProp V) → List (PsProp V) → List (PsProp V)
  | id :: ids, p :: ps, props => storeProps ids ps (props.set id p)
  | _, _, props => props

/-- `obj.name = value`, /repo/src/psrpcore/types/_base.py:639-661: `PsObj.setAttr`, whose changes are made in the property objects of the
instance. A setter of a script property may assign to attributes and properties of the object; ones that add properties are not
modelled. -/
def setAttr (env : Scripts V) (w : World V) (i : Nat) (name : PyStr) (v : Option V) : World V × Except Err Unit :=
  match w.insts[i]?, w.view i with
  | some x, some o =>
    match w.metas[x.metaId]? with
    | some m =>
      let r := o.setAttr env name v
      ({ w with
          props := storeProps (m.adapted ++ m.extended) (r.1.adapted ++ r.1.extended) w.props
          insts := w.insts.set i { x with attrs := r.1.attrs } }, r.2)
    | none => (w, .error .typeError)
  | _, _ => (w, .error .typeError)

/-- `add_member(obj, prop, force)` on the `PSObjectMeta` with number `m`, /repo/src/psrpcore/types/_base.py:861-879: the property object
itself is put into the list. -/
def addMember (w : World V) (m : Nat) (id : Nat) (force : Bool) : World V × Except Err Unit :=
  match w.metas[m]?, w.props[id]? with
  | some x, some p =>
    if ((w.deref x.adapted).any (·.name = p.name) ∨ (w.deref x.extended).any (·.name = p.name)) ∧ force = false then
      (w, .error .runtimeError)
    else
      let ext := match PsObj.lastIdx p.name (w.deref x.extended) with
        | some k => (x.extended.eraseIdx k).insertIdx k id
        | none => x.extended ++ [id]
      ({ w with metas := w.metas.set m { x with extended := ext } }, .ok ())
  | _, _ => (w, .error .typeError)

/-- `add_alias_property`, `add_note_property` and `add_script_property`, /repo/src/psrpcore/types/_base.py:882-950: a new property object
is added. -/
def addNew (w : World V) (m : Nat) (p : PsProp V) (force : Bool) : World V × Except Err Unit :=
  match p.construct with
  | .error e => (w, .error e)
  | .ok q => addMember (w.alloc [q]) m w.props.length force

end World

/-- What a program does with classes and instances (/repo/src/psrpcore/types/_base.py:565, 639, 774, 836-950). -/
inductive WorldOp (V : Type)
  | decorate (base : Nat) (typeNames : List PyStr) (adapted extended : List (PsProp V)) (skip : Bool)
  | subclass (base : Nat)
  | construct (c : Nat) (cls : PyStr → Option (ClassAttr V))
  | set (i : Nat) (name : PyStr) (v : Option V)
  /-- `add_note_property(obj, ...)` and the like on an instance -/
  | addToInst (i : Nat) (p : PsProp V) (force : Bool)
  /-- the same on a class -/
  | addToClass (c : Nat) (p : PsProp V) (force : Bool)
  /-- `add_member(obj, prop)` on an instance with a property object that was made before -/
  | addShared (i : Nat) (id : Nat) (force : Bool)

/-- One step of a program (/repo/src/psrpcore/types/_base.py:565, 639, 774, 836-950). -/
def World.step (env : Scripts V) (w : World V) : WorldOp V → World V × Except Err Unit
  | .decorate base ns a e skip => w.decorate base ns a e skip
  | .subclass base => w.subclass base
  | .construct c cls => w.construct c cls
  | .set i name v => w.setAttr env i name v
  | .addToInst i p force =>
    match w.insts[i]? with
    | some x => w.addNew x.metaId p force
    | none => (w, .error .typeError)
  | .addToClass c p force =>
    match w.classes[c]? with
    | some m => w.addNew m p force
    | none => (w, .error .typeError)
  | .addShared i id force =>
    match w.insts[i]? with
    | some x => w.addMember x.metaId id force
    | none => (w, .error .typeError)

/-- A program: its steps one after the other, whether or not they raise (/repo/src/psrpcore/types/_base.py:565, 639, 774, 836-950). -/
def World.run (env : Scripts V) : World V → List (WorldOp V) → World V
  | w, [] => w
  | w, op :: ops => run env (w.step env op).1 ops

end Verif
