import Verif.Model.Text

/-!
# Property objects: getters, setters, values, copies

Models `PSPropertyInfo` and its classes, /repo/src/psrpcore/types/_base.py:193-544. Python values are of an arbitrary type `V`, with
`none` for `None`, objects are of an arbitrary type `O`.
-/

namespace Verif

/-- `inspect.Parameter.kind` (/repo/src/psrpcore/types/_base.py:395, 401). -/
inductive ParamKind
  | positionalOnly
  | positionalOrKeyword
  | varPositional
  | keywordOnly
  | varKeyword
deriving DecidableEq

/-- A parameter as `inspect.signature` lists it, /repo/src/psrpcore/types/_base.py:390. -/
structure FuncParam where
  kind : ParamKind
  /-- `param.default != inspect.Parameter.empty` (line 398) -/
  hasDefault : Bool := false
deriving DecidableEq

/-- A Python function (`types.FunctionType`, /repo/src/psrpcore/types/_base.py:384): its parameters, and the number of its code. -/
structure Func where
  code : Nat
  params : List FuncParam
deriving DecidableEq

/-- What a caller gives as getter or setter (/repo/src/psrpcore/types/_base.py:240-241). -/
inductive Given
  /-- `None` -/
  | none
  /-- a function, also one written with `lambda` -/
  | func (f : Func)
  /-- anything else, such as a bound method, a class or a number; `truthy` is its truth value -/
  | other (truthy : Bool)
deriving DecidableEq

/-- Truth value of what is given (/repo/src/psrpcore/types/_base.py:250, 254, 527). -/
def Given.truthy : Given → Bool
  | none => false
  | func _ => true
  | other b => b

/-- Whether a parameter takes positional arguments (/repo/src/psrpcore/types/_base.py:395). -/
def FuncParam.positional (p : FuncParam) : Bool := p.kind == .positionalOnly || p.kind == .positionalOrKeyword

/-- The loop over the parameters, /repo/src/psrpcore/types/_base.py:391-405: the counts of required and of all parameters. -/
def countParams (expected : Nat) : List FuncParam → Nat → Nat → Nat × Nat
  | [], required, total => (required, total)
  | p :: ps, required, total =>
    if p.positional then countParams expected ps (if p.hasDefault then required else required + 1) (total + 1)
    else if p.kind = .varPositional then (required, expected)
    else countParams expected ps required total

/-- `_validate_callable`, /repo/src/psrpcore/types/_base.py:377-419. -/
def validateCallable (g : Given) (expected : Nat) : Except Err Unit :=
  match g with
  | .func f =>
    let c := countParams expected f.params 0 0
    if c.1 > expected then .error .typeError
    else if c.2 < expected then .error .typeError
    else .ok ()
  | _ => .error .typeError

/-- Whether Python can bind `n` positional arguments to the parameters of a function when it is called
(/repo/src/psrpcore/types/_base.py:331, 361); if not the call is a `TypeError`. -/
def Func.binds (f : Func) (n : Nat) : Bool :=
  let pos := f.params.filter (·.positional)
  (decide (n ≤ pos.length) || f.params.any (·.kind = .varPositional)) && (pos.drop n).all (·.hasDefault) &&
    f.params.all (fun p => p.kind ≠ .keywordOnly || p.hasDefault)

/-- `ps_type` of a property: `isinstance(value, ps_type)` and `ps_type(value)`, /repo/src/psrpcore/types/_base.py:371-372. -/
structure PsTypeOf (V : Type) where
  isInstance : V → Bool
  make : V → Except Err V

/-- The three classes of properties, /repo/src/psrpcore/types/_base.py:422, 461, 493. -/
inductive PropKind
  | note
  | alias (target : PyStr)
  | script
deriving DecidableEq

/-- A getter: the function `lambda s: s[alias]` of an alias (/repo/src/psrpcore/types/_base.py:455), or one of the caller. -/
inductive PropGetter
  | alias (target : PyStr)
  | func (f : Func)
deriving DecidableEq

/-- `PSPropertyInfo`, /repo/src/psrpcore/types/_base.py:243-256. -/
structure PropInfo (V : Type) where
  kind : PropKind
  name : PyStr
  mandatory : Bool := false
  psType : Option (PsTypeOf V) := none
  /-- `none` is `_UnsetValue` -/
  value : Option (Option V) := none
  getter : Option PropGetter := none
  setter : Option Func := none

/-- What the functions of the caller, and indexing of the object, do (/repo/src/psrpcore/types/_base.py:331, 361, 455). The setter is
called with the object first. -/
structure Calls (O V : Type) where
  item : O → PyStr → Except Err (Option V)
  get : Nat → O → Except Err (Option V)
  set : Nat → O → Option V → O × Except Err Unit

variable {O V : Type}

namespace PropInfo

/-- `_cast`, /repo/src/psrpcore/types/_base.py:369-375. -/
def castTo (p : PropInfo V) : Option V → Except Err (Option V)
  | none => .ok none
  | some v =>
    match p.psType with
    | none => .ok (some v)
    | some t => if t.isInstance v then .ok (some v) else (t.make v).map some

/-- `prop.getter = g`, /repo/src/psrpcore/types/_base.py:276-288. -/
def setGetter (p : PropInfo V) (g : Given) : PropInfo V × Except Err Unit :=
  if p.value.isSome then (p, .error .valueError)
  else
    match g with
    | .none => (p, .error .valueError)
    | .other _ => (p, .error .typeError)
    | .func f =>
      match validateCallable (.func f) 1 with
      | .error e => (p, .error e)
      | .ok () => ({ p with getter := some (.func f) }, .ok ())

/-- `prop.setter = g`, /repo/src/psrpcore/types/_base.py:295-308. -/
def setSetter (p : PropInfo V) (g : Given) : PropInfo V × Except Err Unit :=
  if p.getter.isNone then (p, .error .valueError)
  else
    match g with
    | .none => ({ p with setter := none }, .ok ())
    | .other _ => (p, .error .typeError)
    | .func f =>
      match validateCallable (.func f) 2 with
      | .error e => (p, .error e)
      | .ok () => ({ p with setter := some f }, .ok ())

/-- `get_value`, /repo/src/psrpcore/types/_base.py:310-340. -/
def getValue (env : Calls O V) (p : PropInfo V) (o : O) : Except Err (Option V) :=
  match p.getter with
  | some (.alias t) => (env.item o t).bind p.castTo
  | some (.func f) => if f.binds 1 then (env.get f.code o).bind p.castTo else .error .typeError
  | none => .ok (p.value.getD none)

/-- `set_value`, /repo/src/psrpcore/types/_base.py:342-367: the property and the object afterwards. -/
def setValue (env : Calls O V) (p : PropInfo V) (v : Option V) (o : O) : (PropInfo V × O) × Except Err Unit :=
  match p.setter with
  | some f => if f.binds 2 then ((p, (env.set f.code o v).1), (env.set f.code o v).2) else ((p, o), .error .typeError)
  | none =>
    if p.getter.isSome then ((p, o), .error .valueError)
    else
      match p.castTo v with
      | .error e => ((p, o), .error e)
      | .ok w => (({ p with value := some w }, o), .ok ())

/-- `PSNoteProperty(name, value, mandatory, ps_type)`, /repo/src/psrpcore/types/_base.py:481-488, 234-264. No value is `none`. -/
def newNote (name : PyStr) (value : Option (Option V)) (mandatory : Bool) (psType : Option (PsTypeOf V)) : Except Err (PropInfo V) :=
  let p : PropInfo V := { kind := .note, name, mandatory, psType }
  match value with
  | none => .ok p
  | some v => (p.castTo v).map fun w => { p with value := some w }

/-- `PSAliasProperty(name, alias, ps_type)`, /repo/src/psrpcore/types/_base.py:448-455, 234-252. Its getter has one parameter, so
it is valid. -/
def newAlias (name target : PyStr) (psType : Option (PsTypeOf V)) : Except Err (PropInfo V) :=
  .ok { kind := .alias target, name, psType, getter := some (.alias target) }

/-- `PSScriptProperty(name, getter, setter, mandatory, ps_type)`, /repo/src/psrpcore/types/_base.py:516-532, 234-256. -/
def newScript (name : PyStr) (getter setter : Given) (mandatory : Bool) (psType : Option (PsTypeOf V)) : Except Err (PropInfo V) :=
  if getter = .none then .error .typeError
  else if mandatory && !setter.truthy then .error .typeError
  else
    let p : PropInfo V := { kind := .script, name, mandatory, psType }
    match (if getter.truthy then p.setGetter getter else (p, .ok ())) with
    | (_, .error e) => .error e
    | (p, .ok ()) =>
      match (if setter.truthy then p.setSetter setter else (p, .ok ())) with
      | (_, .error e) => .error e
      | (p, .ok ()) => .ok p

/-- What the getter of a property is as an argument of a constructor (/repo/src/psrpcore/types/_base.py:538). The function of an alias
is left out: only `PSAliasProperty` makes it, and its copy does not use it. -/
def getterGiven (p : PropInfo V) : Given :=
  match p.getter with
  | some (.func f) => .func f
  | _ => .none

/-- `copy`, /repo/src/psrpcore/types/_base.py:457-458, 490-491, 534-541. -/
def copy (p : PropInfo V) : Except Err (PropInfo V) :=
  match p.kind with
  | .note => newNote p.name p.value p.mandatory p.psType
  | .alias t => newAlias p.name t p.psType
  | .script => newScript p.name p.getterGiven (match p.setter with | some f => .func f | none => .none) p.mandatory p.psType

end PropInfo

end Verif
