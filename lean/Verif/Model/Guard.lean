import Verif.Model.Common

/-!
# The guard of the operators of durations

Models `_ensure_types_and_self`, /repo/src/psrpcore/types/_primitive.py:47-63. Classes are of an arbitrary type; `isinstance` is a relation
between them.
-/

namespace Verif

/-- The list of classes of one guarded operator, /repo/src/psrpcore/types/_primitive.py:51. It lives as long as the class. -/
structure TypeGuard (C : Type) where
  types : List C

/-- What a guarded operator gives (/repo/src/psrpcore/types/_primitive.py:57, 59). -/
inductive Guarded (R : Type)
  | notImplemented
  | result (r : R)
deriving DecidableEq

/-- `_ensure_types_and_self(cls)`, /repo/src/psrpcore/types/_primitive.py:51. -/
def TypeGuard.new {C : Type} (c : C) : TypeGuard C := ⟨[c]⟩

/-- `wrapped(self, other)`, /repo/src/psrpcore/types/_primitive.py:54-59: the class of `self` is put into the list at each call. -/
def TypeGuard.call {C R : Type} (sub : C → C → Bool) (g : TypeGuard C) (self other : C) (f : R) : TypeGuard C × Guarded R :=
  let types := g.types ++ [self]
  (⟨types⟩, if types.any (sub other) then .result f else .notImplemented)

/-- Calls one after the other (/repo/src/psrpcore/types/_primitive.py:505-573). -/
def TypeGuard.calls {C : Type} (sub : C → C → Bool) (g : TypeGuard C) : List (C × C) → TypeGuard C
  | [] => g
  | (self, other) :: r => TypeGuard.calls sub (g.call sub self other ()).1 r

end Verif
