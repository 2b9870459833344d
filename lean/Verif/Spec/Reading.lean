import Verif.Spec.Forms

/-! # What other peers write (specification for C69)

More texts stand for a value than the one this library writes: letters of either case, zeros in front, fewer digits of a
fraction, children and texts that are left out. Nothing here refers to the functions that read documents. -/

namespace Verif

/-! ## Texts -/

/-- `_xHHHH_` with digits in either case, at the start of a text, and what comes behind. -/
def EscapeAt (u : Nat) (t rest : PyStr) : Prop :=
  ∃ a b c d a' b' c' d', u = 4096 * a + 256 * b + 16 * c + d ∧ HexAny a a' ∧ HexAny b b' ∧ HexAny c c' ∧ HexAny d d' ∧
    t = 95 :: 120 :: a' :: b' :: c' :: d' :: 95 :: rest

/-- The UTF-16 units of a character. -/
def CharUnits (c : Nat) (us : List Nat) : Prop :=
  (c < 0x10000 ∧ us = [c]) ∨
    ∃ u v, IsHigh u ∧ IsLow v ∧ c = 0x10000 + 0x400 * (u - 0xD800) + (v - 0xDC00) ∧ us = [u, v]

/-- The UTF-16 units an escaped text stands for: those of the escapes, and those of the other characters. -/
inductive Unescaped : PyStr → List Nat → Prop
  | nil : Unescaped [] []
  | escape {u : Nat} {t rest : PyStr} {us : List Nat} (he : EscapeAt u t rest) (h : Unescaped rest us) : Unescaped t (u :: us)
  | plain {c : Nat} {t : PyStr} {cs us : List Nat} (hn : ∀ u rest, ¬ EscapeAt u (c :: t) rest) (hc : CharUnits c cs)
      (h : Unescaped t us) : Unescaped (c :: t) (cs ++ us)

/-- The text of some UTF-16 units: pairs are one character. -/
inductive Spelled : PyStr → List Nat → Prop
  | nil : Spelled [] []
  | single {c : Nat} {s : PyStr} {us : List Nat} (hc : IsHigh c → ∀ v, us.head? = some v → ¬ IsLow v) (h : Spelled s us) :
      Spelled (c :: s) (c :: us)
  | pair {u v : Nat} {s : PyStr} {us : List Nat} (hu : IsHigh u) (hv : IsLow v) (h : Spelled s us) :
      Spelled ((0x10000 + 0x400 * (u - 0xD800) + (v - 0xDC00)) :: s) (u :: v :: us)

/-- A text that an XML document can hold has no surrogates. -/
def NoSurrogates (t : PyStr) : Prop := ∀ c ∈ t, c < 0x110000 ∧ ¬ IsHigh c ∧ ¬ IsLow c

/-- The two characters the search for escapes can take for the start of one (C23). -/
def Misleading (t : PyStr) : Prop := ∃ pre post, t = pre ++ 0x5F00 :: 0x7800 :: post

/-- The fraction of a second as .NET and other peers write it: nothing, or one to seven digits. -/
def AnyFraction (us ns : Nat) (t : PyStr) : Prop :=
  (us = 0 ∧ ns = 0 ∧ t = []) ∨
    ∃ n f, Digits n f ∧ f ≠ [] ∧ f.length ≤ 7 ∧ t = 46 :: f ∧ 10 * us + ns / 100 = n * 10 ^ (7 - f.length) ∧ ns % 100 = 0

/-- A time zone: nothing, `Z`, or a sign, hours and minutes. -/
def AnyZone : Option Int → PyStr → Prop
  | none, t => t = []
  | some o, t => (o = 0 ∧ t = txt! "Z") ∨ ∃ h m h' m', h < 24 ∧ m < 60 ∧ Fixed 2 h h' ∧ Fixed 2 m m' ∧
      ((o = 60 * (60 * h + m) ∧ t = 43 :: h' ++ 58 :: m') ∨ (o = -(60 * (60 * h + m)) ∧ t = 45 :: h' ++ 58 :: m'))

/-- A date of the XML schema with at most seven digits behind the seconds. -/
def AnyDate (d : DateFields) (t : PyStr) : Prop :=
  ∃ y mo da h mi s f z, Fixed 4 d.year y ∧ Fixed 2 d.month mo ∧ Fixed 2 d.day da ∧ Fixed 2 d.hour h ∧ Fixed 2 d.minute mi ∧
    Fixed 2 d.second s ∧ AnyFraction d.microsecond d.nanosecond f ∧ AnyZone d.offset z ∧
    t = y ++ 45 :: mo ++ 45 :: da ++ 84 :: h ++ 58 :: mi ++ 58 :: s ++ f ++ z

/-- `nU`, or nothing for 0. -/
def AnyCount (unit n : Nat) (t : PyStr) : Prop := (n = 0 ∧ t = []) ∨ ∃ u, Digits n u ∧ u ≠ [] ∧ t = u ++ [unit]

/-- Seconds, in ticks of 100 ns, with up to seven digits behind the point, or nothing for 0. Of 10^8 seconds and more the
code takes a float, which is not modelled. -/
def AnySeconds (ticks : Nat) (t : PyStr) : Prop :=
  (ticks = 0 ∧ t = []) ∨ ∃ n u, Digits n u ∧ u ≠ [] ∧ n < 10 ^ 8 ∧
    ((ticks = 10000000 * n ∧ t = u ++ [83]) ∨
     ∃ m f, Digits m f ∧ f ≠ [] ∧ f.length ≤ 7 ∧ ticks = 10000000 * n + m * 10 ^ (7 - f.length) ∧ t = u ++ 46 :: f ++ [83])

/-- `PnDTnHnMnS` where any part may be missing, and the numbers may be larger than a day has hours: one part at least, and
one behind the `T`. -/
def AnyPeriod (ticks : Nat) (t : PyStr) : Prop :=
  ∃ d td, AnyCount 68 d td ∧
    ((td ≠ [] ∧ ticks = 864000000000 * d ∧ t = 80 :: td) ∨
     ∃ h m s th tm ts, AnyCount 72 h th ∧ AnyCount 77 m tm ∧ AnySeconds s ts ∧ th ++ tm ++ ts ≠ [] ∧
       ticks = 864000000000 * d + 36000000000 * h + 600000000 * m + s ∧ t = 80 :: td ++ 84 :: th ++ tm ++ ts)

/-- The same behind a minus sign or not. -/
def AnySpan (ticks : Int) (t : PyStr) : Prop :=
  ∃ n : Nat, (ticks = n ∧ AnyPeriod n t) ∨ (ticks = -(n : Int) ∧ ∃ u, t = 45 :: u ∧ AnyPeriod n u)

/-! ## Progress records -/

/-- The text of the first child with a tag; `none` if there is no such child or it has no text. -/
inductive ChildText (kids : List Xml) (tag : Tag) : Option PyStr → Prop
  | absent (h : ∀ x ∈ kids, x.tag ≠ tag) : ChildText kids tag none
  | empty {pre post : List Xml} {x : Xml} (hk : kids = pre ++ x :: post) (hp : ∀ y ∈ pre, y.tag ≠ tag) (ht : x.tag = tag)
      (he : x.text = []) : ChildText kids tag none
  | text {pre post : List Xml} {x : Xml} (hk : kids = pre ++ x :: post) (hp : ∀ y ∈ pre, y.tag ≠ tag) (ht : x.tag = tag)
      (he : x.text ≠ []) : ChildText kids tag (some x.text)

/-- A number of a progress record that may be left out, with what it is then. -/
def NumberOr (kids : List Xml) (tag : Tag) (default v : Int) : Prop :=
  (ChildText kids tag none ∧ v = default) ∨ ∃ t, ChildText kids tag (some t) ∧ IntegerText v t ∧ IntKind.psInt.InRange v

/-- A text of a progress record; reading undoes the escapes (C23). -/
def TextIs (kids : List Xml) (tag : Tag) (s : PyStr) : Prop := ∃ t, ChildText kids tag (some t) ∧ deserializeString t = .ok s

/-- The progress record some children stand for: activity, its number and its status are there, the rest may be left
out. -/
structure ProgressOf (kids : List Xml) (r : Progress) : Prop where
  activity : TextIs kids .AV r.activity
  status : TextIs kids .SD r.status
  id : ∃ i t, r.activityId = some i ∧ ChildText kids .AI (some t) ∧ IntegerText i t ∧ IntKind.psInt.InRange i
  operation : (ChildText kids .S none ∧ r.operation = none) ∨ ∃ s, r.operation = some s ∧ TextIs kids .S s
  parent : ∃ i, r.parentId = some i ∧ NumberOr kids .PI (-1) i
  percent : ∃ i, r.percent = some i ∧ NumberOr kids .PC (-1) i
  seconds : ∃ i, r.seconds = some i ∧ NumberOr kids .SR (-1) i
  type : (r.completed = false ∧ (ChildText kids .T none ∨ TextIs kids .T (txt! "Processing"))) ∨
    (r.completed = true ∧ TextIs kids .T (txt! "Completed"))

/-! ## Dicts -/

/-- The number a key is. `False` and `True` are 0 and 1. -/
inductive NumberKey : DVal → Rat → Prop
  | bool {b : Bool} : NumberKey (.bool b) (if b then 1 else 0)
  | int {k : IntKind} {v : Int} : NumberKey (.prim (.int k v)) v
  | plain {v : Int} : NumberKey (.prim (.plainInt v)) v
  | char {c : Int} : NumberKey (.prim (.char c)) c
  | decimal {neg : Bool} {coeff : Nat} {exp : Int} : NumberKey (.prim (.decimal (.finite neg coeff exp))) (decimalValue neg coeff exp)
  | float {k : FloatKind} {neg : Bool} {units : Nat} : NumberKey (.prim (.float k (.finite neg units))) (floatValue neg units)

/-- The infinity a key is. -/
inductive InfiniteKey : DVal → Bool → Prop
  | decimal {neg : Bool} : InfiniteKey (.prim (.decimal (.infinity neg))) neg
  | float {k : FloatKind} {neg : Bool} : InfiniteKey (.prim (.float k (.infinity neg))) neg

/-- Two keys Python takes for the same: numbers with one value, texts with one text, equal bytes or GUIDs, dates of one
microsecond if both or neither have a time zone, or `None`. -/
inductive SameKey : DVal → DVal → Prop
  | number {k l : DVal} {n : Rat} (hk : NumberKey k n) (hl : NumberKey l n) : SameKey k l
  | text {i j : StrKind} {s : PyStr} : SameKey (.prim (.str i s)) (.prim (.str j s))
  | bytes {b : Bytes} : SameKey (.prim (.bytes b)) (.prim (.bytes b))
  | infinite {k l : DVal} {neg : Bool} (hk : InfiniteKey k neg) (hl : InfiniteKey l neg) : SameKey k l
  | guid {n : Nat} : SameKey (.prim (.guid n)) (.prim (.guid n))
  | date {v w : DateFields} (kind : v.offset.isSome = w.offset.isSome) (time : v.instantMicros = w.instantMicros) :
      SameKey (.prim (.date v)) (.prim (.date w))
  | nil : SameKey .nil .nil

/-- The key of the first entry of its kind. -/
def FirstKey (es : List (DVal × DVal)) (k : DVal) : Prop :=
  ∃ pre v post, es = pre ++ (k, v) :: post ∧ ∀ e ∈ pre, ¬ SameKey e.1 k

/-- The value of the last entry with a key. -/
def LastValue (es : List (DVal × DVal)) (k v : DVal) : Prop :=
  ∃ pre l post, es = pre ++ (l, v) :: post ∧ SameKey l k ∧ ∀ e ∈ post, ¬ SameKey e.1 k

/-- The dict that some entries, one after another, make: each key once and with the value it was given last. -/
structure DictOf (es ds : List (DVal × DVal)) : Prop where
  entry : ∀ k v, (k, v) ∈ ds ↔ FirstKey es k ∧ LastValue es k v
  once : ds.Pairwise fun a b => ¬ SameKey a.1 b.1
  order : (ds.map Prod.fst).Sublist (es.map Prod.fst)

/-- The first child with a name. -/
def FirstNamed (name : PyStr) (x y : Xml) : Prop :=
  ∃ pre post, x.kids = pre ++ y :: post ∧ y.attrs.name = some name ∧ ∀ z ∈ pre, z.attrs.name ≠ some name

/-- A primitive Python has no hash for: durations, versions and signaling NaNs. -/
inductive UnhashablePrim : Prim → Prop
  | duration {d : Duration} : UnhashablePrim (.duration d)
  | version {v : PSVersion} : UnhashablePrim (.version v)
  | signaling {neg : Bool} {payload : Nat} : UnhashablePrim (.decimal (.nan neg true payload))

/-- A value Python has no hash for: such a primitive, with or without properties, a list or a dict. (The model refuses
also an address without an object, which no document leads to.) -/
inductive Unhashable (s : DState) : DVal → Prop
  | prim {p : Prim} (h : UnhashablePrim p) : Unhashable s (.prim p)
  | ext {b : Nat} {d : DObj} {p : Prim} (hd : s.heap[b]? = some d) (hp : d.data = .prim p) (h : UnhashablePrim p) :
      Unhashable s (.ref b)
  | list {b : Nat} {d : DObj} {l : List DVal} (hd : s.heap[b]? = some d) (hl : d.data = .list l) : Unhashable s (.ref b)
  | dict {b : Nat} {d : DObj} {l : List (DVal × DVal)} (hd : s.heap[b]? = some d) (hl : d.data = .dict l) :
      Unhashable s (.ref b)
  | missing {b : Nat} (h : s.heap[b]? = none) : Unhashable s (.ref b)

/-- An entry of a dict is read by `g`: its `Value` child and then its `Key` child, whatever was read before. -/
def EntryRead (g : Xml → DState → Except Err (DVal × DState)) (x : Xml) (e : DVal × DVal) : Prop :=
  ∃ xk xv s1 s2 s3, FirstNamed (txt! "Key") x xk ∧ FirstNamed (txt! "Value") x xv ∧
    g xv s1 = .ok (e.2, s2) ∧ g xk s2 = .ok (e.1, s3)

/-- An entry of a dict is refused by `g` with an error: a child is missing, or it is refused, or the key has no hash. -/
def EntryRefused (g : Xml → DState → Except Err (DVal × DState)) (x : Xml) (err : Err) : Prop :=
  (err = .valueError ∧ ∃ name, (name = txt! "Key" ∨ name = txt! "Value") ∧ ∀ y ∈ x.kids, y.attrs.name ≠ some name) ∨
  (∃ name y s1, (name = txt! "Key" ∨ name = txt! "Value") ∧ FirstNamed name x y ∧ g y s1 = .error err) ∨
  ∃ xk s1 k s2, FirstNamed (txt! "Key") x xk ∧ g xk s1 = .ok (k, s2) ∧ Unhashable s2 k

/-! ## Enums -/

/-- An enum type of .NET as /repo/src/psrpcore/types/_complex.py and _host.py declare it. -/
structure EnumType where
  /-- the name of the type -/
  name : PyStr
  /-- the name of the class -/
  cls : PyStr
  /-- whether the values may be combined -/
  flags : Bool
  /-- the values of the members -/
  values : List Nat

/-- The values of a type: those of its members, or all combinations of the bits of its members. -/
def EnumType.Has (e : EnumType) (v : Nat) : Prop :=
  if e.flags then ∀ i, v.testBit i = true → ∃ w ∈ e.values, w.testBit i = true else v ∈ e.values

/-- The enum types of the library; `BufferCellType` is missing, its class has the name of another type. -/
def enumTypes : List EnumType :=
  [⟨txt! "System.ConsoleColor", txt! "ConsoleColor", false, [0, 1, 2, 3, 4, 5, 6, 7, 8, 9, 10, 11, 12, 13, 14, 15]⟩,
   ⟨txt! "System.Management.Automation.ProgressRecordType", txt! "ProgressRecordType", false, [0, 1]⟩,
   ⟨txt! "System.Management.Automation.PSCredentialTypes", txt! "PSCredentialTypes", true, [1, 2, 3]⟩,
   ⟨txt! "System.Management.Automation.PSCredentialUIOptions", txt! "PSCredentialUIOptions", true, [0, 1, 2, 3]⟩,
   ⟨txt! "System.Management.Automation.SessionStateEntryVisibility", txt! "SessionStateEntryVisibility", false, [0, 1]⟩,
   ⟨txt! "System.Management.Automation.Runspaces.RunspacePoolState", txt! "RunspacePoolState", false,
    [0, 1, 2, 3, 4, 5, 6, 7, 8]⟩,
   ⟨txt! "System.Management.Automation.PSInvocationState", txt! "PSInvocationState", false, [0, 1, 2, 3, 4, 5, 6]⟩,
   ⟨txt! "System.Management.Automation.Runspaces.PSThreadOptions", txt! "PSThreadOptions", false, [0, 1, 2, 3]⟩,
   ⟨txt! "System.Threading.ApartmentState", txt! "ApartmentState", false, [0, 1, 2]⟩,
   ⟨txt! "System.Management.Automation.RemoteStreamOptions", txt! "RemoteStreamOptions", true, [0, 1, 2, 4, 8, 15]⟩,
   ⟨txt! "System.Management.Automation.ErrorCategory", txt! "ErrorCategory", false,
    [0, 1, 2, 3, 4, 5, 6, 7, 8, 9, 10, 11, 12, 13, 14, 15, 16, 17, 18, 19, 20, 21, 22, 23, 24, 25, 26, 27, 28, 29, 30, 31]⟩,
   ⟨txt! "System.Management.Automation.CommandTypes", txt! "CommandTypes", true, [1, 2, 4, 8, 16, 32, 64, 256, 383]⟩,
   ⟨txt! "System.Management.Automation.CommandOrigin", txt! "CommandOrigin", false, [0, 1]⟩,
   ⟨txt! "System.Management.Automation.Runspaces.PipelineResultTypes", txt! "PipelineResultTypes", true,
    [0, 1, 2, 3, 4, 5, 6, 7, 8]⟩,
   ⟨txt! "System.Management.Automation.Remoting.RemoteHostMethodId", txt! "HostMethodIdentifier", false,
    List.range' 1 56⟩,
   ⟨txt! "System.Management.Automation.Host.ControlKeyStates", txt! "ControlKeyStates", true,
    [0, 1, 2, 4, 8, 16, 32, 64, 128, 256]⟩,
   ⟨txt! "System.Management.Automation.Host.ReadKeyOptions", txt! "ReadKeyOptions", true, [1, 2, 4, 8]⟩]

/-- `<Obj RefId="..."><TN RefId="..."><T>name</T>...</TN><ToString>...</ToString><I32>v</I32></Obj>`, with any further
type names, with or without string form, and with any integer element. -/
def enumXml (ref : Attrs) (tn : PyStr) (name : PyStr) (more : List PyStr) (str : Option PyStr) (k : IntKind) (t : PyStr) :
    Xml :=
  .node .Obj ref []
    (.node .TN { refId := some tn } [] ((name :: more).map fun n => .node .T {} n []) ::
      (str.toList.map fun u => .node .ToString {} u []) ++ [.node (.int k) {} t []])

end Verif
