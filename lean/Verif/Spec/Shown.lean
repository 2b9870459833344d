import Verif.Model.Shown
import Verif.Spec.PSObject

/-! # What `vars` and `repr` should show (specification for C94) -/

namespace Verif

variable {V : Type}

/-- Names without repetitions, in the order of their first mention. -/
def firstMentions : List PyStr → List PyStr
  | [] => []
  | n :: ns => n :: (firstMentions ns).filter (fun m => decide (m ≠ n))

/-- The names of the properties of an object, each once: adapted ones, then those that are extended only. -/
def PsObj.names (o : PsObj V) : List PyStr := firstMentions (propNames (o.adapted ++ o.extended))

/-- No property is hidden by an attribute Python finds, and no attribute of the instance by a `@property` of
its class. -/
structure PsObj.NothingHidden (o : PsObj V) : Prop where
  props : ∀ n ∈ o.names, o.pyAttr n = none
  attrs : ∀ n v, o.attrs.get? n = some v → o.pyAttr n = some v

/-- The first of some names that cannot be read, with the error. -/
def FirstError (read : PyStr → Except Err (Option V)) (ns : List PyStr) (e : Err) : Prop :=
  ∃ a n b, ns = a ++ n :: b ∧ (∀ m ∈ a, ∃ v, read m = .ok v) ∧ read n = .error e

/-- What a program does with an object. -/
inductive ObjUse (V : Type)
  /-- `obj.name = value` -/
  | set (name : PyStr) (value : Option V)
  /-- `add_member(obj, prop, force)` -/
  | add (prop : PsProp V) (force : Bool)

/-- The object after some uses, whether or not they raise. -/
def PsObj.use (env : Scripts V) (o : PsObj V) : List (ObjUse V) → PsObj V
  | [] => o
  | .set n v :: ops => PsObj.use env (o.setAttr env n v).1 ops
  | .add p force :: ops => PsObj.use env (o.addMember p force).1 ops

/-- No member is added under a name that is an attribute at that time. -/
def UsedWell (env : Scripts V) (o : PsObj V) : List (ObjUse V) → Prop
  | [] => True
  | .set n v :: ops => UsedWell env (o.setAttr env n v).1 ops
  | .add p force :: ops => o.pyAttr p.name = none ∧ UsedWell env (o.addMember p force).1 ops

/-- `a=1, b=2` -/
def commaList : List (PyStr × PyStr) → PyStr
  | [] => []
  | [(n, v)] => n ++ txt! "=" ++ v
  | (n, v) :: rest => n ++ txt! "=" ++ v ++ txt! ", " ++ commaList rest

end Verif
