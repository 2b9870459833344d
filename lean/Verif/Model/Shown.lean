import Verif.Model.PSObject

/-!
# `vars` and `repr` of an object

The special case `__dict__` of `PSObject.__getattribute__` and `PSObject.__repr__`,
/repo/src/psrpcore/types/_base.py:663-692, 725-731. The item `PSObject` that every `__dict__` has is left
out. The `repr` of values is a parameter and does not raise.
-/

namespace Verif

namespace PsObj

variable {V : Type}

/-- `get_value`, /repo/src/psrpcore/types/_base.py:310-340. -/
def getValue (env : Scripts V) (fuel : Nat) (o : PsObj V) (p : PsProp V) : Except Err (Option V) :=
  match p.body with
  | .note v => .ok (v.getD none)
  | .script g _ =>
    match env.get g o with
    | .ok v => p.castValue v
    | .error e => .error e
  | .alias t =>
    match fuel with
    | 0 => .error .recursionError
    | fuel + 1 =>
      match getAttr env fuel o t with
      | .ok v => p.castValue v
      | .error e => .error e

/-- `{name: prop.get_value(self) for name, prop in ps_properties.items()}`,
/repo/src/psrpcore/types/_base.py:690, and the loop of line 730. -/
def readAll (env : Scripts V) (fuel : Nat) (o : PsObj V) :
    Dict PyStr (PsProp V) → Except Err (Dict PyStr (Option V))
  | [] => .ok []
  | (name, p) :: rest =>
    match o.getValue env fuel p with
    | .error e => .error e
    | .ok v =>
      match readAll env fuel o rest with
      | .error e => .error e
      | .ok vs => .ok ((name, v) :: vs)

/-- `vars(obj)`, /repo/src/psrpcore/types/_base.py:669-673, 685-692. The dict of the properties is made as
that of the constructor is. -/
def vars (env : Scripts V) (fuel : Nat) (o : PsObj V) : Except Err (Dict PyStr (Option V)) :=
  match o.readAll env fuel o.propEntries with
  | .error e => .error e
  | .ok vs => .ok (vs.foldl (fun d e => d.set e.1 e.2) o.attrs)

/-- `repr(obj)`, /repo/src/psrpcore/types/_base.py:725-731; `cls` is the name of the class. -/
def repr (env : Scripts V) (fuel : Nat) (shows : Option V → PyStr) (cls : PyStr) (o : PsObj V) :
    Except Err PyStr :=
  match o.readAll env fuel o.propEntries with
  | .error e => .error e
  | .ok vs => .ok (cls ++ txt! "(" ++
      List.intercalate (txt! ", ") (vs.map fun e => e.1 ++ txt! "=" ++ shows e.2) ++ txt! ")")

end PsObj

end Verif
