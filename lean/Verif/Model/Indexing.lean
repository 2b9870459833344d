import Verif.Model.PSObject

/-!
# Indexing objects, collections, strings and byte arrays

Models `__getitem__` and `__setitem__` of /repo/src/psrpcore/types/_base.py:694-717, _collection.py:47-54, 86-96 and
_primitive.py:216-223, 861-871. Python values are of an arbitrary type `V`, with `none` for `None`. Not modelled: assigning to slices of lists,
steps of slices, and that Python takes `1`, `1.0` and `True` for the same key.
-/

namespace Verif

/-- What is between the brackets (/repo/src/psrpcore/types/_base.py:694). -/
inductive ItemKey
  | index (i : Int)
  | name (s : PyStr)
  /-- `a:b` -/
  | slice (a b : Option Int)
  /-- anything else, numbered; `hashable` is whether it can be a key of a dict -/
  | other (n : Nat) (hashable : Bool)
deriving DecidableEq

/-- Whether `hash(key)` is possible (dict, /repo/src/psrpcore/types/_collection.py:49, 54). Slices are not hashable before Python 3.12. -/
def ItemKey.hashable : ItemKey → Bool
  | .slice _ _ => false
  | .other _ h => h
  | _ => true

/-- What the object is beside a `PSObject` (/repo/src/psrpcore/types/_collection.py:18, 63; _primitive.py:206, 844). -/
inductive Contents (V : Type)
  /-- nothing, or something without items of its own such as a queue -/
  | plain
  /-- `_PSListBase`: lists and stacks -/
  | list (items : List (Option V))
  /-- `PSDictBase` -/
  | dict (entries : Dict ItemKey (Option V))
  /-- `PSStringBase` -/
  | text (s : PyStr)
  /-- `PSByteArray` -/
  | bytes (b : Bytes)

/-- An object and what it holds (/repo/src/psrpcore/types/_base.py:547). -/
structure ItemObj (V : Type) where
  held : Contents V
  obj : PsObj V

/-- What an index expression gives (/repo/src/psrpcore/types/_primitive.py:216-223, 861-871). -/
inductive Got (V : Type)
  | value (v : Option V)
  /-- a new list (of Python, not of the class) -/
  | values (vs : List (Option V))
  /-- a new string of the same class -/
  | text (s : PyStr)
  /-- a new byte array of the same class -/
  | bytes (b : Bytes)
deriving DecidableEq

/-- The place of an index in a sequence of `n` items, of `list.__getitem__`, `str.__getitem__` and `bytes.__getitem__`
(/repo/src/psrpcore/types/_collection.py:88, _primitive.py:223, 871). -/
def placeOf (n : Nat) (i : Int) : Option Nat :=
  let k := if i < 0 then i + n else i
  if 0 ≤ k ∧ k < n then some k.toNat else none

/-- The end of a slice (`slice.indices`, /repo/src/psrpcore/types/_primitive.py:223, 871). -/
def sliceEnd (n : Nat) (i : Int) : Nat :=
  if i < 0 then (i + n).toNat else min i.toNat n

/-- `seq[a:b]` (/repo/src/psrpcore/types/_primitive.py:223, 871). -/
def sliceOf {α : Type} (xs : List α) (a b : Option Int) : List α :=
  let lo := match a with | none => 0 | some i => sliceEnd xs.length i
  let hi := match b with | none => xs.length | some i => sliceEnd xs.length i
  (xs.take hi).drop lo

namespace ItemObj

variable {V : Type}

/-- `getattr(self, item)`, /repo/src/psrpcore/types/_base.py:714: only strings are names of attributes. -/
def attrItem (env : Scripts V) (fuel : Nat) (h : ItemObj V) : ItemKey → Except Err (Got V)
  | .name n => (h.obj.getAttr env fuel n).map .value
  | _ => .error .typeError

/-- `obj[key]`, /repo/src/psrpcore/types/_base.py:694-714, _collection.py:47-51, 86-90, _primitive.py:216-223, 861-871. The byte array
makes a byte array of the number it finds, as `bytes(number)` does (_primitive.py:871). -/
def getItem (env : Scripts V) (fuel : Nat) (h : ItemObj V) (key : ItemKey) : Except Err (Got V) :=
  match h.held with
  | .plain => h.attrItem env fuel key
  | .list items =>
    match key with
    | .index i =>
      match (placeOf items.length i).bind (items[·]?) with
      | some v => .ok (.value v)
      | none => .error .indexError
    | .slice a b => .ok (.values (sliceOf items a b))
    | _ => h.attrItem env fuel key
  | .dict entries =>
    if key.hashable then
      match entries.get? key with
      | some v => .ok (.value v)
      | none => h.attrItem env fuel key
    else .error .typeError
  | .text s =>
    match key with
    | .name n => h.attrItem env fuel (.name n)
    | .index i =>
      match (placeOf s.length i).bind (s[·]?) with
      | some c => .ok (.text [c])
      | none => .error .indexError
    | .slice a b => .ok (.text (sliceOf s a b))
    | .other _ _ => .error .typeError
  | .bytes s =>
    match key with
    | .name n => h.attrItem env fuel (.name n)
    | .index i =>
      match (placeOf s.length i).bind (s[·]?) with
      | some x => .ok (.bytes (List.replicate x.toNat 0))
      | none => .error .indexError
    | .slice a b => .ok (.bytes (sliceOf s a b))
    | .other _ _ => .error .typeError

/-- `setattr(self, key, value)`, /repo/src/psrpcore/types/_base.py:717: only strings are names of attributes. -/
def setAttrItem (env : Scripts V) (h : ItemObj V) (key : ItemKey) (v : Option V) : ItemObj V × Except Err Unit :=
  match key with
  | .name n => ({ h with obj := (h.obj.setAttr env n v).1 }, (h.obj.setAttr env n v).2)
  | _ => (h, .error .typeError)

/-- `obj[key] = value`, /repo/src/psrpcore/types/_base.py:716-717, _collection.py:53-54, 92-96. Strings and byte arrays have the one of
`PSObject`. Assigning to a slice of a list is left out, it is a `TypeError` for values that are not iterable. -/
def setItem (env : Scripts V) (h : ItemObj V) (key : ItemKey) (v : Option V) : ItemObj V × Except Err Unit :=
  match h.held with
  | .list items =>
    match key with
    | .name n => h.setAttrItem env (.name n) v
    | .index i =>
      match placeOf items.length i with
      | some k => ({ h with held := .list (items.set k v) }, .ok ())
      | none => (h, .error .indexError)
    | _ => (h, .error .typeError)
  | .dict entries =>
    if key.hashable then ({ h with held := .dict (entries.set key v) }, .ok ()) else (h, .error .typeError)
  | _ => h.setAttrItem env key v

end ItemObj

end Verif
