import Verif.Model.Enum

/-! # What the theorems on enums and flags speak about (C44) -/

namespace Verif

/-- The class gives every value and every shown text one name, and the names can be told apart in a
list with commas. -/
structure CleanClass {α : Type} (ps : Bool) (ms : Members α) : Prop where
  values : (ms.map Prod.snd).Nodup
  names : (ms.map fun m => shownName ps m.1).Nodup
  nonempty : ∀ m ∈ ms, m.1 ≠ []
  comma : ∀ m ∈ ms, 44 ∉ m.1

/-- All bits of `a` are set in `b`. -/
def BitsIn (a b : Nat) : Prop := ∀ i, a.testBit i = true → b.testBit i = true

/-- The union of some flags. -/
def unionOf : List Nat → Nat
  | [] => 0
  | a :: as => a ||| unionOf as

/-- The value is a union of members of the class. -/
def IsUnion (ms : Members Nat) (v : Nat) : Prop := ∃ as, (∀ a ∈ as, a ∈ ms.map Prod.snd) ∧ v = unionOf as

/-- Split at comma and space. -/
def splitComma : PyStr → List PyStr
  | [] => [[]]
  | 44 :: 32 :: s => [] :: splitComma s
  | c :: s =>
    match splitComma s with
    | [] => [[c]]
    | h :: t => (c :: h) :: t

/-- Reading a text the way .NET does: the union of the members the text lists. -/
def readFlags (ps : Bool) (ms : Members Nat) (text : PyStr) : Option Nat :=
  if text = [] then some 0
  else ((splitComma text).mapM fun n => (ms.find? fun m => shownName ps m.1 = n).map Prod.snd).map unionOf

end Verif
