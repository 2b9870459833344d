import Verif.Model.World

/-! # What classes and instances should have to do with each other (specification for C87) -/

namespace Verif

variable {V : Type}

/-- The type of the property makes instances of itself: a value that was cast is not cast again. -/
def PsProp.CastsOnce (p : PsProp V) : Prop := ∀ v w, p.cast v = .ok w → p.cast w = .ok w

/-- What comes of making a property: the value it is given is converted to its type, which may raise; all else is as given. -/
inductive PsProp.Made : PsProp V → Except Err (PsProp V) → Prop
  | value {p : PsProp V} {v w : V} : p.body = .note (some (some v)) → p.cast v = .ok w →
      Made p (.ok { p with body := .note (some (some w)) })
  | refused {p : PsProp V} {v : V} {e : Err} : p.body = .note (some (some v)) → p.cast v = .error e → Made p (.error e)
  | other {p : PsProp V} : (∀ v, p.body ≠ .note (some (some v))) → Made p (.ok p)

/-- Each of the properties is made, in order. -/
inductive MadeAll : List (PsProp V) → List (PsProp V) → Prop
  | nil : MadeAll [] []
  | cons {p q : PsProp V} {ps qs : List (PsProp V)} : p.Made (.ok q) → MadeAll ps qs → MadeAll (p :: ps) (q :: qs)

/-- The step makes the property objects it adds: `add_note_property`, `add_alias_property`, `add_script_property`, or `add_member` with a
new property object. -/
def WorldOp.MakesProps : WorldOp V → Prop
  | .decorate _ _ a e _ => ∀ p ∈ a ++ e, p.CastsOnce
  | .addToInst _ p _ => p.CastsOnce
  | .addToClass _ p _ => p.CastsOnce
  | .addShared _ _ _ => False
  | _ => True

/-- The instance a step is about. -/
def WorldOp.inst : WorldOp V → Option Nat
  | .set i _ _ => some i
  | .addToInst i _ _ => some i
  | .addShared i _ _ => some i
  | _ => none

/-- The class a step adds a property to. -/
def WorldOp.cls : WorldOp V → Option Nat
  | .addToClass c _ _ => some c
  | _ => none

/-- What a program that makes all the property objects it adds can lead to. -/
def World.Reachable (env : Scripts V) (w : World V) : Prop :=
  ∃ ops, (∀ op ∈ ops, op.MakesProps) ∧ World.run env .start ops = w

/-- The setters of script properties assign to the object, but do not add or remove properties. -/
def Scripts.OnlyAssign (env : Scripts V) : Prop := ∀ s o v, let r := (env.set s o v).1
  r.cls = o.cls ∧ r.typeNames = o.typeNames ∧ r.adapted.length = o.adapted.length ∧ r.extended.length = o.extended.length

/-- Two classes have the same attribute `PSObject`: one of them is derived from the other and has no decorator. -/
def World.SameMeta (w : World V) (c d : Nat) : Prop := w.classes[c]? = w.classes[d]?

end Verif
