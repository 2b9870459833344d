import Verif.Model.Text

/-!
# The extended type system: properties, attribute access, type names

Models /repo/src/psrpcore/types/_base.py. Python values are of an arbitrary type `V`, with `none` for
`None`. The callables of script properties are numbers, what they do is a parameter (`Scripts`). Not
modelled: the special names `PSObject` and `__dict__`, `__getitem__` of the list and dict classes,
validation of the signatures of callables.
-/

namespace Verif

/-- Where a property has its value from, /repo/src/psrpcore/types/_base.py:422-544. -/
inductive PropBody (V : Type)
  /-- `PSNoteProperty`; `none` is the unset value. -/
  | note (value : Option (Option V))
  /-- `PSAliasProperty` -/
  | alias (target : PyStr)
  /-- `PSScriptProperty` -/
  | script (getter : Nat) (setter : Option Nat)

/-- `PSPropertyInfo`, /repo/src/psrpcore/types/_base.py:193-264. `cast` is what `ps_type` makes of a
value that is not `None` (line 371-372), the identity when there is no `ps_type`. -/
structure PsProp (V : Type) where
  name : PyStr
  mandatory : Bool := false
  cast : V → Except Err V := .ok
  body : PropBody V := .note none

/-- What Python finds for a name on the class of an object, /repo/src/psrpcore/types/_base.py:661, 678. -/
inductive ClassAttr (V : Type)
  /-- A method or a class attribute: attributes of the instance hide it. -/
  | plain (v : Option V)
  /-- A `@property` without setter: it hides attributes of the instance and refuses writes. -/
  | property (v : Option V)

/-- An instance of a `PSObject` class, /repo/src/psrpcore/types/_base.py:547-579, with the lists of its
`PSObjectMeta` (lines 122-141). -/
structure PsObj (V : Type) where
  cls : PyStr → Option (ClassAttr V) := fun _ => none
  attrs : Dict PyStr (Option V) := []
  typeNames : List PyStr := []
  adapted : List (PsProp V) := []
  extended : List (PsProp V) := []

/-- The callables of script properties, /repo/src/psrpcore/types/_base.py:331, 361. -/
structure Scripts (V : Type) where
  get : Nat → PsObj V → Except Err (Option V)
  set : Nat → PsObj V → Option V → PsObj V × Except Err Unit

variable {V : Type}

/-- `_cast`, /repo/src/psrpcore/types/_base.py:369-375. -/
def PsProp.castValue (p : PsProp V) : Option V → Except Err (Option V)
  | none => .ok none
  | some v => (p.cast v).map some

namespace PsObj

/-- `super().__getattribute__(item)`, /repo/src/psrpcore/types/_base.py:678: Python's own lookup. -/
def pyAttr (o : PsObj V) (name : PyStr) : Option (Option V) :=
  match o.cls name with
  | some (.property v) => some v
  | some (.plain v) => some ((o.attrs.get? name).getD v)
  | none => o.attrs.get? name

/-- `ps_properties[item]`, /repo/src/psrpcore/types/_base.py:669-673: later properties replace earlier
ones, extended ones come last. -/
def propOf (o : PsObj V) (name : PyStr) : Option (PsProp V) :=
  ((o.adapted ++ o.extended).filter (fun p => decide (p.name = name))).getLast?

/-- `__getattribute__` and `get_value`, /repo/src/psrpcore/types/_base.py:310-340, 663-692. `fuel` is
how many more aliases Python's recursion limit allows to follow. -/
def getAttr (env : Scripts V) : Nat → PsObj V → PyStr → Except Err (Option V)
  | fuel, o, name =>
    match o.pyAttr name with
    | some v => .ok v
    | none =>
      match o.propOf name with
      | none => .error .attributeError
      | some p =>
        match p.body with
        | .note v => .ok (v.getD none)
        | .script g _ =>
          match env.get g o with
          | .ok v => p.castValue v
          | .error e => .error e
        | .alias t =>
          match fuel with
          | 0 => .error .recursionError
          | fuel + 1 =>
            match getAttr env fuel o t with
            | .ok v => p.castValue v
            | .error e => .error e

/-- `super().__setattr__(key, value)`, /repo/src/psrpcore/types/_base.py:661. -/
def setPyAttr (o : PsObj V) (name : PyStr) (v : Option V) : PsObj V × Except Err Unit :=
  match o.cls name with
  | some (.property _) => (o, .error .attributeError)
  | _ => ({ o with attrs := o.attrs.set name v }, .ok ())

/-- The first property with the name and its place in the list, /repo/src/psrpcore/types/_base.py:654-655. -/
def findProp (name : PyStr) : List (PsProp V) → Option (Nat × PsProp V)
  | [] => none
  | p :: ps => if p.name = name then some (0, p) else (findProp name ps).map fun (i, q) => (i + 1, q)

/-- `set_value` of the property at place `i` of the extended (`ext`) or adapted list,
/repo/src/psrpcore/types/_base.py:342-367. -/
def setProp (env : Scripts V) (o : PsObj V) (ext : Bool) (i : Nat) (p : PsProp V) (v : Option V) :
    PsObj V × Except Err Unit :=
  match p.body with
  | .script _ (some s) => env.set s o v
  | .script _ none => (o, .error .valueError)
  | .alias _ => (o, .error .valueError)
  | .note _ =>
    match p.castValue v with
    | .error e => (o, .error e)
    | .ok w =>
      let q := { p with body := .note (some w) }
      (if ext then { o with extended := o.extended.set i q }
       else { o with adapted := o.adapted.set i q }, .ok ())

/-- `__setattr__`, /repo/src/psrpcore/types/_base.py:639-661. -/
def setAttr (env : Scripts V) (o : PsObj V) (name : PyStr) (v : Option V) : PsObj V × Except Err Unit :=
  if o.attrs.contains name then o.setPyAttr name v
  else
    match findProp name o.extended with
    | some (i, p) => o.setProp env true i p v
    | none =>
      match findProp name o.adapted with
      | some (i, p) => o.setProp env false i p v
      | none => o.setPyAttr name v

/-- The place of the last property with the name: `{p.name: i for i, p in enumerate(...)}[name]`,
/repo/src/psrpcore/types/_base.py:866-867. -/
def lastIdx (name : PyStr) : List (PsProp V) → Option Nat
  | [] => none
  | p :: ps =>
    match lastIdx name ps with
    | some i => some (i + 1)
    | none => if p.name = name then some 0 else none

/-- `add_member`, /repo/src/psrpcore/types/_base.py:836-879, on an instance or a class (both have the
two lists). -/
def addMember (o : PsObj V) (p : PsProp V) (force : Bool) : PsObj V × Except Err Unit :=
  if (o.adapted.any (·.name = p.name) ∨ o.extended.any (·.name = p.name)) ∧ force = false then
    (o, .error .runtimeError)
  else
    match lastIdx p.name o.extended with
    | some i => ({ o with extended := (o.extended.eraseIdx i).insertIdx i p }, .ok ())
    | none => ({ o with extended := o.extended ++ [p] }, .ok ())

/-! ## The default constructor -/

/-- `prop_entries`, /repo/src/psrpcore/types/_base.py:587-588: names in order of first mention, each
with the last property of that name. -/
def propEntries (o : PsObj V) : Dict PyStr (PsProp V) :=
  (o.adapted ++ o.extended).foldl (fun d p => d.set p.name p) []

/-- The loop that sets the properties, /repo/src/psrpcore/types/_base.py:613-617. -/
def initLoop (env : Scripts V) (entries : Dict PyStr (PsProp V)) :
    List (PyStr × Option V) → PsObj V → Except Err (PsObj V)
  | [], o => .ok o
  | (name, v) :: rest, o =>
    if entries.contains name then
      match o.setAttr env name v with
      | (o, .ok ()) => initLoop env entries rest o
      | (_, .error e) => .error e
    else .error .typeError

/-- `PSObject.__init__`, /repo/src/psrpcore/types/_base.py:581-617: positional and keyword arguments. -/
def init (env : Scripts V) (o : PsObj V) (args : List (Option V)) (kwargs : Dict PyStr (Option V)) :
    Except Err (PsObj V) :=
  let entries := o.propEntries
  if args.length > entries.length then .error .typeError
  else
    let callerArgs : Dict PyStr (Option V) := entries.keys.zip args
    if callerArgs.any (fun a => kwargs.contains a.1) then .error .typeError
    else
      let all := callerArgs ++ kwargs
      if entries.any (fun e => e.2.mandatory && !all.contains e.1) then .error .typeError
      else initLoop env entries all o

end PsObj

/-! ## Classes and type names -/

/-- The lists of the `PSObjectMeta` of a class, /repo/src/psrpcore/types/_base.py:122-141. -/
structure PsClass (V : Type) where
  typeNames : List PyStr
  adapted : List (PsProp V) := []
  extended : List (PsProp V) := []

/-- `PSType.__call__`, /repo/src/psrpcore/types/_base.py:774-786: what the decorator gets, then what the
class has inherited. The lists given to the decorator are not shared between decorators. -/
def PsClass.decorate (base : PsClass V) (typeNames : List PyStr) (adapted extended : List (PsProp V))
    (skipInheritance : Bool) : PsClass V :=
  if skipInheritance then ⟨typeNames, adapted, extended⟩
  else ⟨typeNames ++ base.typeNames, adapted ++ base.adapted, extended ++ base.extended⟩

/-- `PSObject.__new__` and `set_instance`, /repo/src/psrpcore/types/_base.py:565-579, 169-190: the
instance gets copies of the properties of its class. -/
def PsClass.instance (c : PsClass V) (cls : PyStr → Option (ClassAttr V)) : PsObj V where
  cls := cls
  typeNames := c.typeNames
  adapted := c.adapted
  extended := c.extended

/-- `Deserialized.` -/
def deserializedPrefix : PyStr := lit "Deserialized."

/-- What `ps_isinstance` is asked about: a type name, a class (or an object) with type names, or
anything else, which is left out, /repo/src/psrpcore/types/_base.py:955, 997-1001. -/
inductive TypeAsk
  | name (n : PyStr)
  | cls (typeNames : List PyStr)
  | other

/-- `strip_deserialized` of one name, /repo/src/psrpcore/types/_base.py:982-993. -/
def stripDeserialized (ignore : Bool) (n : PyStr) : PyStr :=
  if ignore && deserializedPrefix.isPrefixOf n then n.drop 13 else n

/-- The names asked about, /repo/src/psrpcore/types/_base.py:996-1001. -/
def askNames : List TypeAsk → Except Err (List PyStr)
  | [] => .ok []
  | .name n :: r => (askNames r).map (n :: ·)
  | .other :: r => askNames r
  | .cls [] :: _ => .error .indexError
  | .cls (n :: _) :: r => (askNames r).map (n :: ·)

/-- `ps_isinstance`, /repo/src/psrpcore/types/_base.py:953-1007. -/
def psIsInstance (typeNames : List PyStr) (asked : List TypeAsk) (ignore : Bool) : Except Err Bool :=
  (askNames asked).map fun names =>
    (typeNames.map (stripDeserialized ignore)).any fun t =>
      (names.map (stripDeserialized ignore)).contains t

/-- The type names `TypeRegistry.rehydrate` gives an object whose first type name is not registered,
/repo/src/psrpcore/types/_base.py:79-82. -/
def rehydratedNames (typeNames : List PyStr) : List PyStr := typeNames.map (deserializedPrefix ++ ·)

end Verif
