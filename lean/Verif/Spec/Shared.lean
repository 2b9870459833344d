import Verif.Model.Clixml
import Verif.Spec.Serializer

/-! # What reading one document does to the next

The members of an enum class have no metadata of their own. What is read into a member is read into the
class, and stays there for all documents that are read afterwards. -/

namespace Verif

/-- `z` is `x` or an element somewhere inside. -/
inductive Inside (z : Xml) : Xml → Prop
  | self : Inside z z
  | kid {x y : Xml} (h : y ∈ x.kids) (t : Inside z y) : Inside z x

/-- A child of an `Obj` that is no value: one of the groups, containers, the type names or the string
form. -/
def Tag.isPart : Tag → Bool
  | .Props | .MS | .ToString | .DCT | .QUE | .IE | .LST | .STK | .TN | .TNRef => true
  | _ => false

/-- The type names are not those of an enum class. -/
def NoEnum (L : Lib) (types : List PyStr) : Prop :=
  ∀ c, L.reg.rehydrate types = .instance_ c → (L.info c).kind.isEnum = false

/-- An `Obj` element that does not give properties to an enum class: no object and no reference is its value, and
it has no properties, or has type names that are no enum's, or has no value. -/
def PlainObj (L : Lib) (kids : List Xml) : Prop :=
  (∀ k ∈ kids, k.tag ≠ .Obj ∧ k.tag ≠ .Ref) ∧
  ((∀ k ∈ kids, k.tag = .Props ∨ k.tag = .MS → k.kids = []) ∨
   ((findTypes kids ≠ [] ∨ ∀ k ∈ kids, k.tag ≠ .TNRef) ∧ NoEnum L (findTypes kids)) ∨
   ∀ k ∈ kids, k.tag.isPart = true)

/-- No element gives properties to an enum class. -/
def Tame (L : Lib) (x : Xml) : Prop := ∀ y, Inside y x → y.tag = .Obj → PlainObj L y.kids

/-- What a reader with recursion limit `n` finds in the enum classes after it has read some documents, each by a
new serializer and without an error. -/
inductive After (E : TextEnv) (L : Lib) (n : Nat) : List (List Xml) → Dict PyStr DObj → Prop
  | none : After E L n [] []
  | doc {docs : List (List Xml)} {sh : Dict PyStr DObj} {xs : List Xml} {vs : List (DVal × ClixmlStream)} {s : DState}
      (h : After E L n docs sh) (r : readDoc E L n xs { shared := sh } = .ok (vs, s)) :
      After E L n (docs ++ [xs]) s.shared

/-- A document that gives no properties to enum classes, or that this library wrote from a graph that comes
back (C41). -/
def Harmless (E : TextEnv) (L : Lib) (n : Nat) (xs : List Xml) : Prop :=
  (∀ x ∈ xs, Tame L x) ∨ ∃ H vs m s, GraphOk E L H (vs.map Prod.fst) ∧ m < n ∧ serDoc E H m vs {} = .ok (xs, s)

/-- Two objects are the same apart from the string form. -/
def DObj.Alike (d d' : DObj) : Prop :=
  d.cls = d'.cls ∧ d.data = d'.data ∧ d.types = d'.types ∧ d.adapted = d'.adapted ∧ d.extended = d'.extended

/-- Two results of reading show the same objects, apart from the string forms of enum members. -/
def SameReading (L : Lib) : Except Err (List (DVal × ClixmlStream) × DState) →
    Except Err (List (DVal × ClixmlStream) × DState) → Prop
  | .error e, r => r = .error e
  | .ok (vs, s), r => ∃ s', r = .ok (vs, s') ∧ s'.heap = s.heap ∧
      ∀ (b : Nat) (d : DObj), s.heap[b]? = some d → (s.shown L d).Alike (s'.shown L d) ∧
        (L.enumClass d = none → s.shown L d = s'.shown L d)

end Verif
