import Verif.Model.Indexing

/-! # What is at an index (specification for C88) -/

namespace Verif

/-- `k` is the place of index `i` in a sequence of `n` items: counted from the front, or from the end if the index is negative. -/
def AtIndex (n : Nat) (i : Int) (k : Nat) : Prop := k < n ∧ ((0 ≤ i ∧ i = k) ∨ (i < 0 ∧ i = (k : Int) - n))

/-- The end of a slice as a place, which may be in front of or behind the sequence. -/
def slicePlace (n : Nat) (i : Int) : Int := if i < 0 then n + i else i

/-- The items of `xs` at the places from `a` on and before `b`. -/
def Between {α : Type} (xs : List α) (a b : Option Int) : List α :=
  (xs.zipIdx.filter fun p => decide (slicePlace xs.length (a.getD 0) ≤ p.2 ∧ (p.2 : Int) < slicePlace xs.length (b.getD xs.length))).map (·.1)

/-- What is an entry of a list or a dict, not an attribute. -/
def ItemKey.isEntry {V : Type} : ItemKey → Contents V → Prop
  | .index _, .list _ => True
  | _, .dict _ => True
  | _, _ => False

/-- Two keys of the same entry. Slices of a list count as keys of all its entries. -/
def SameEntry {V : Type} : Contents V → ItemKey → ItemKey → Prop
  | .list items, .index i, .index j => ∃ k, AtIndex items.length i k ∧ AtIndex items.length j k
  | .list _, .index _, .slice _ _ => True
  | _, k, k' => k = k'

/-- What can be a key of a dict: all but slices and other objects without a hash. -/
inductive ItemKey.IsKey : ItemKey → Prop
  | index {i : Int} : IsKey (.index i)
  | name {n : PyStr} : IsKey (.name n)
  | other {n : Nat} : IsKey (.other n true)

/-- What is no key of an object that is no dict, and no name either. -/
inductive ItemKey.Foreign {V : Type} : ItemKey → Contents V → Prop
  | other {n : Nat} {h : Bool} {c : Contents V} : (∀ d, c ≠ .dict d) → Foreign (.other n h) c
  | index {i : Int} : Foreign (.index i) .plain
  | slice {a b : Option Int} : Foreign (.slice a b) .plain

end Verif
