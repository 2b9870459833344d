import Verif.Model.Serializer
import Verif.Spec.StringEsc
import Verif.Spec.Version
import Verif.Spec.Duration
import Verif.Spec.DateTime
import Verif.Spec.Ints
import Verif.Spec.Numbers

/-! # What it means that an object graph comes back (specification for C41 to C43) -/

namespace Verif

/-! ## Primitives -/

/-- A text that survives escaping (the exact condition of C23). -/
def TextOk (s : PyStr) : Prop := IsText s ∧ ¬ HasBareHigh s ∧ ¬ HasSplitPair s ∧ ¬ HasMisread s

/-- The values whose own text form is faithful, by the theorems about each of them (C23, C25, C28, C30,
C52, C53, C81, C82, C83). -/
def Prim.Ok (E : TextEnv) : Prim → Prop
  | .int k v => k.InRange v
  | .plainInt v => -(2 ^ 31) ≤ v ∧ v < 2 ^ 63
  | .char c => 0 ≤ c ∧ c ≤ 65535
  | .str _ s => TextOk s
  | .bytes _ => True
  | .date d => d.Valid ∧ d.MinuteZone ∧ FourDigits E.year4 d.year ∧ d.nanosecond % 100 = 0
  | .duration d => d.Valid ∧ d.totalNs % 100 = 0 ∧ ¬ TensOfSeconds d.totalNs
  | .version v => v.WellFormed ∧ 0 ≤ v.major ∧ 0 ≤ v.minor ∧ (∀ b, v.build = some b → 0 ≤ b) ∧
      ∀ r, v.revision = some r → 0 ≤ r
  | .guid n => n < 2 ^ 128
  | .decimal _ => True
  | .float _ x => x.Ok
  | .secure _ => True
  | .progress r => TextOk r.activity ∧ r.activity ≠ [] ∧ TextOk r.status ∧ r.status ≠ [] ∧
      (∀ t, r.operation = some t → TextOk t ∧ t ≠ []) ∧
      ∀ v ∈ [r.activityId, r.parentId, r.percent, r.seconds], ∃ i, v = some i ∧ IntKind.psInt.InRange i

/-- What a primitive comes back as: itself, and a plain int as an `Int32` or an `Int64`, whichever it
fits first. -/
def Prim.norm : Prim → Prim
  | .plainInt v => if v < 2 ^ 31 then .int .psInt v else .int .psInt64 v
  | p => p

/-! ## Graphs -/

/-- The values an object refers to: its properties, and the entries of a container. -/
def PObj.values (o : PObj) : List PVal :=
  o.adapted.map Prod.snd ++ o.extended.map Prod.snd ++
    match o.data with
    | .list _ items => items
    | .queue items => items
    | .dict entries => entries.map Prod.fst ++ entries.map Prod.snd
    | _ => []

/-- The objects reachable from some values. -/
inductive Reach (H : Heap) (roots : List PVal) : Nat → Prop
  | root {a : Nat} (h : PVal.ref a ∈ roots) : Reach H roots a
  | step {a b : Nat} (h : Reach H roots a) (hb : PVal.ref b ∈ (H a).values) : Reach H roots b

/-- The primitives are faithful. -/
def PVal.Ok (E : TextEnv) : PVal → Prop
  | .prim p => p.Ok E
  | _ => True

/-- The value is not an object. -/
def PVal.IsPlain : PVal → Prop
  | .ref _ => False
  | _ => True

/-- A list, queue or dict. -/
def Data.IsContainer : Data → Prop
  | .list _ _ => True
  | .queue _ => True
  | .dict _ => True
  | _ => False

/-- The Python values a key of a dict is equal to; `none` for values that are not hashable, `some .nan` for those that are
equal to nothing but the object itself: NaNs, secure strings and progress records. -/
def PVal.hashClass : PVal → Option HKey
  | .nil => some .nil
  | .bool b => some (.num (if b then 1 else 0))
  | .prim (.int _ v) => some (.num v)
  | .prim (.plainInt v) => some (.num v)
  | .prim (.char c) => some (.num c)
  | .prim (.str _ s) => some (.text s)
  | .prim (.bytes b) => some (.bytes b)
  | .prim (.date d) => some (.date d.offset.isSome d.instantMicros)
  | .prim (.guid n) => some (.prim (.guid n))
  | .prim (.decimal (.finite neg coeff exp)) => some (.num (decimalValue neg coeff exp))
  | .prim (.decimal (.infinity neg)) => some (.infinity neg)
  | .prim (.decimal (.nan _ true _)) => none
  | .prim (.decimal (.nan _ false _)) => some .nan
  | .prim (.float _ (.finite neg units)) => some (.num (floatValue neg units))
  | .prim (.float _ (.infinity neg)) => some (.infinity neg)
  | .prim (.float _ .nan) => some .nan
  | .prim (.secure _) => some .nan
  | .prim (.duration _) => none
  | .prim (.version _) => none
  | .prim (.progress _) => some .nan
  | .ref _ => none

/-- The keys of a dict are plain hashable values, no two of them equal. -/
def KeysOk (entries : List (PVal × PVal)) : Prop :=
  (∀ e ∈ entries, e.1.IsPlain ∧ e.1.hashClass.isSome) ∧ entries.Pairwise fun a b => a.1.hashClass = b.1.hashClass → a.1.hashClass = some .nan

/-! ## What an object comes back as -/

/-- The class of the object that comes back (`none` is `PSObject`): the class registered for its type
names, or else the class of its data. -/
def resultClass (L : Lib) (o : PObj) : Option PyStr :=
  match o.data, L.reg.rehydrate o.types with
  | .ext p, _ => some p.norm.cls
  | _, .instance_ c => some c
  | .none, _ => none
  | .enum p, _ => some p.norm.cls
  | .list k _, _ => some k.cls
  | .queue _, _ => some (txt! "PSQueue")
  | .dict _, _ => some (txt! "PSDict")

/-- The type names of the object that comes back: those of its class if there is one registered, those it
had with `Deserialized.` in front otherwise, and the ones of the class of its data if it had none. -/
def resultTypes (L : Lib) (o : PObj) : List PyStr :=
  match o.data, o.types, L.reg.rehydrate o.types with
  | .ext p, _, _ => L.names p.norm.cls
  | _, _ :: _, .instance_ c => L.names c
  | _, t :: ts, .plain _ => (t :: ts).map ((txt! "Deserialized.") ++ ·)
  | _, [], _ =>
    match resultClass L o with
    | some c => L.names c
    | none => []

/-- The string form that comes back: only objects that are no container keep it, and the empty one is
lost. -/
def resultString (o : PObj) : Option PyStr :=
  match o.data with
  | .none => if o.toStr = some [] then none else o.toStr
  | .enum _ => if o.toStr = some [] then none else o.toStr
  | _ => none

/-- A member of a registered enum class. Its type names, string form and properties are those of the
class, not its own. -/
def IsMember (L : Lib) (o : PObj) : Prop :=
  ∃ p c, o.data = .enum p ∧ L.reg.rehydrate o.types = .instance_ c

/-- The class registered for the type names, if any, is made for this kind of object. Members of a
registered enum class have no properties. -/
def ClassOk (L : Lib) (o : PObj) : Prop :=
  ∀ c, L.reg.rehydrate o.types = .instance_ c → L.names c ≠ [] ∧
    match o.data with
    | .none => (L.info c).kind = .object
    | .ext _ => True
    | .enum p => (∃ m k v, (L.info c).kind = .enum m ∧ p.norm = .int k v ∧ m v = some (.int k v)) ∧
        o.adapted = [] ∧ o.extended = []
    | .list k _ => (L.info c).kind = .list k
    | .queue _ => (L.info c).kind = .queue
    | .dict _ => (L.info c).kind = .dict

/-- What the class of the object that comes back declares. -/
def Lib.declared (L : Lib) (o : PObj) : ClassInfo :=
  match resultClass L o with
  | some c => L.info c
  | none => {}

/-- The class declares no property twice, and those it declares with another default than `None` are
present. -/
def DeclaredOk (L : Lib) (o : PObj) : Prop :=
  (L.declared o).adapted.Nodup ∧ (L.declared o).extended.Nodup ∧
  ∀ n ∈ (L.declared o).preset, (n ∈ (L.declared o).adapted → n ∈ o.adapted.map Prod.fst) ∧
    (n ∈ (L.declared o).extended → n ∈ o.extended.map Prod.fst)

/-- The properties with those declared first, in the order of the declaration and `None` where there is
no value, then the others in their order. -/
def arranged {α : Type} (blank : α) (declared : List PyStr) (ps : List (PyStr × α)) : List (PyStr × α) :=
  declared.map (fun n => (n, (ps.lookup n).getD blank)) ++ ps.filter fun p => !declared.contains p.1

/-- The object together with the properties declared by the class of what comes back. An object that has
all of them first and in their order, as the instances of the class have, is left as it is
(`completed_eq`). -/
def Lib.completed (L : Lib) (o : PObj) : PObj :=
  { o with
    adapted := arranged .nil (L.declared o).adapted o.adapted
    extended := arranged .nil (L.declared o).extended o.extended }

/-- The heap with every object completed. -/
def Heap.completed (H : Heap) (L : Lib) : Heap := fun a => L.completed (H a)

/-- The conditions on a single object. -/
structure PObj.Ok (E : TextEnv) (L : Lib) (o : PObj) : Prop where
  /-- its values and its own value are faithful -/
  vals : ∀ v ∈ o.values, v.Ok E
  own : ∀ p, o.data = .ext p ∨ o.data = .enum p → p.Ok E
  /-- a primitive on the heap has properties (a progress record more than its own eight) -/
  ext : ∀ p, o.data = .ext p → o.extended ≠ [] ∨
    (match p with
    | .progress _ => 8
    | _ => 0) < o.adapted.length
  /-- names of properties are faithful texts and distinct -/
  names : ∀ q ∈ o.adapted ++ o.extended, TextOk q.1
  adapted : (o.adapted.map Prod.fst).Nodup
  extended : (o.extended.map Prod.fst).Nodup
  /-- the string form is not changed by reading escapes -/
  string : ∀ t, o.toStr = some t → deserializeString t = .ok t
  /-- the properties of containers are no objects -/
  plain : o.data.IsContainer → ∀ q ∈ o.adapted ++ o.extended, q.2.IsPlain
  keys : ∀ entries, o.data = .dict entries → KeysOk entries
  queue : ∀ items, o.data = .queue items → o.key ≠ none
  cls : ClassOk L o
  declared : DeclaredOk L o

/-- The conditions on the graph reachable from some values. -/
structure GraphOk (E : TextEnv) (L : Lib) (H : Heap) (roots : List PVal) : Prop where
  vals : ∀ v ∈ roots, v.Ok E
  objs : ∀ a, Reach H roots a → (H a).Ok E L
  /-- only one object is found under a key -/
  keys : ∀ a b, Reach H roots a → Reach H roots b → (H a).key ≠ none → (H a).key = (H b).key → a = b
  /-- objects with the same first type name have the same type names -/
  types : ∀ a b, Reach H roots a → Reach H roots b → (H a).types.head? = (H b).types.head? →
    (H a).types = (H b).types

/-! ## Matching -/

/-- Two lists of the same length match entry by entry. -/
inductive All2 {α β : Type} (R : α → β → Prop) : List α → List β → Prop
  | nil : All2 R [] []
  | cons {a : α} {b : β} {as : List α} {bs : List β} (h : R a b) (t : All2 R as bs) : All2 R (a :: as) (b :: bs)

/-- A new value stands for an old one, given which object each new object stands for. -/
def VMatch (φ : Nat → Option Nat) : PVal → DVal → Prop
  | .nil, d => d = .nil
  | .bool b, d => d = .bool b
  | .prim p, d => d = .prim p.norm
  | .ref a, d => ∃ b, d = .ref b ∧ φ b = some a

/-- The properties have the same names in the same order and their values match. -/
def PMatch (φ : Nat → Option Nat) (p : PyStr × PVal) (q : PyStr × DVal) : Prop :=
  p.1 = q.1 ∧ VMatch φ p.2 q.2

/-- The entries of dicts match. -/
def EMatch (φ : Nat → Option Nat) (p : PVal × PVal) (q : DVal × DVal) : Prop :=
  VMatch φ p.1 q.1 ∧ VMatch φ p.2 q.2

/-- The data matches. -/
def DataMatch (φ : Nat → Option Nat) : Data → DData → Prop
  | .none, d => d = .none
  | .ext p, d => d = .prim p.norm
  | .enum p, d => d = .prim p.norm
  | .list _ items, d => ∃ l, d = .list l ∧ All2 (VMatch φ) items l
  | .queue items, d => ∃ l, d = .queue l ∧ All2 (VMatch φ) items l
  | .dict entries, d => ∃ l, d = .dict l ∧ All2 (EMatch φ) entries l

/-- The new object `d` stands for `o`. -/
structure OMatch (L : Lib) (φ : Nat → Option Nat) (o : PObj) (d : DObj) : Prop where
  cls : d.cls = resultClass L o
  types : d.types = resultTypes L o
  string : IsMember L o ∨ d.toStr = resultString o
  data : DataMatch φ o.data d.data
  adapted : All2 (PMatch φ) (L.completed o).adapted d.adapted
  extended : All2 (PMatch φ) (L.completed o).extended d.extended

/-! ## Positions -/

/-- A position inside an object: a property by its place, an entry of a list or queue, a key or value of a
dict. -/
inductive Sel
  | adapted (i : Nat)
  | extended (i : Nat)
  | item (i : Nat)
  | key (i : Nat)
  | value (i : Nat)
deriving DecidableEq, Repr

/-- The value at a position of an object. -/
def PObj.at (o : PObj) : Sel → Option PVal
  | .adapted i => o.adapted[i]?.map Prod.snd
  | .extended i => o.extended[i]?.map Prod.snd
  | .item i =>
    match o.data with
    | .list _ l => l[i]?
    | .queue l => l[i]?
    | _ => none
  | .key i =>
    match o.data with
    | .dict l => l[i]?.map Prod.fst
    | _ => none
  | .value i =>
    match o.data with
    | .dict l => l[i]?.map Prod.snd
    | _ => none

/-- The value at a position of a new object. -/
def DObj.at (o : DObj) : Sel → Option DVal
  | .adapted i => o.adapted[i]?.map Prod.snd
  | .extended i => o.extended[i]?.map Prod.snd
  | .item i =>
    match o.data with
    | .list l => l[i]?
    | .queue l => l[i]?
    | _ => none
  | .key i =>
    match o.data with
    | .dict l => l[i]?.map Prod.fst
    | _ => none
  | .value i =>
    match o.data with
    | .dict l => l[i]?.map Prod.snd
    | _ => none

/-- The value one comes to from a value, going from object to object. -/
def PVal.at (H : Heap) : PVal → List Sel → Option PVal
  | v, [] => some v
  | .ref a, p :: ps =>
    match (H a).at p with
    | some v => PVal.at H v ps
    | none => none
  | _, _ :: _ => none

/-- The same on the new heap. -/
def DVal.at (heap : List DObj) : DVal → List Sel → Option DVal
  | v, [] => some v
  | .ref b, p :: ps =>
    match heap[b]? with
    | some d =>
      match d.at p with
      | some v => DVal.at heap v ps
      | none => none
    | none => none
  | _, _ :: _ => none

/-- What is left of the heap after serializing: queues that were written are empty. -/
def Heap.after (H : Heap) (s : SState) : Heap := fun a =>
  if a ∈ s.drained then { H a with data := .queue [] } else H a

/-- The collection classes of the library are what they are
(/repo/src/psrpcore/types/_collection.py:140-250), and no class is registered for `System.Object`
(/repo/src/psrpcore/types/_base.py:547-579). -/
structure Lib.Standard (L : Lib) : Prop where
  list : ∀ k : ListKind, (L.info k.cls).kind = .list k
  queue : (L.info (txt! "PSQueue")).kind = .queue
  dict : (L.info (txt! "PSDict")).kind = .dict
  prim : ∀ p : Prim, (L.info p.cls).kind.isEnum = false
  object : L.reg.types.get? (txt! "System.Object") = none

/-- The values of a progress record that come back. -/
structure Progress.Faithful (r : Progress) : Prop where
  activity : TextOk r.activity ∧ r.activity ≠ []
  status : TextOk r.status ∧ r.status ≠ []
  operation : ∀ t, r.operation = some t → TextOk t ∧ t ≠ []
  ints : ∀ v ∈ [r.activityId, r.parentId, r.percent, r.seconds], ∃ i, v = some i ∧ IntKind.psInt.InRange i

/-! ## Letters -/

/-- `d` is the small letter of the capital letter `c` (ASCII). -/
def SmallOf (c d : Nat) : Prop := 65 ≤ c ∧ c ≤ 90 ∧ d = c + 32

/-- Two texts are the same apart from capital and small letters. -/
def CaseEq (s t : PyStr) : Prop := All2 (fun c d => c = d ∨ SmallOf c d ∨ SmallOf d c) s t

end Verif
