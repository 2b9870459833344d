import Verif.Model.PSObject

/-! # What attribute access and type tests should do (specification for C33-C35, C55, C56) -/

namespace Verif

variable {V : Type}

/-- The names of properties. -/
def propNames (ps : List (PsProp V)) : List PyStr := ps.map (·.name)

/-- No name occurs twice among the extended properties, nor among the adapted ones. -/
def PsObj.UniqueNames (o : PsObj V) : Prop :=
  (propNames o.extended).Nodup ∧ (propNames o.adapted).Nodup

/-- The value of a property: of a note what is stored, of a script what its getter gives, of an alias
what its target reads as. -/
def PsProp.valueIn (env : Scripts V) (fuel : Nat) (o : PsObj V) (p : PsProp V) : Except Err (Option V) :=
  match p.body with
  | .note none => .ok none
  | .note (some v) => .ok v
  | .script g _ => (env.get g o).bind p.castValue
  | .alias t =>
    match fuel with
    | 0 => .error .recursionError
    | fuel + 1 => (o.getAttr env fuel t).bind p.castValue

/-- The property is a note. -/
def PsProp.IsNote (p : PsProp V) : Prop := ∃ v, p.body = .note v

/-- A number of `add_member` calls, whether or not they raise. -/
def addMembers (o : PsObj V) (calls : List (PsProp V × Bool)) : PsObj V :=
  calls.foldl (fun o c => (o.addMember c.1 c.2).1) o

/-- The name a question of `ps_isinstance` is about. -/
def TypeAsk.Asks : TypeAsk → PyStr → Prop
  | .name n, m => m = n
  | .cls ns, m => ns.head? = some m
  | .other, _ => False

/-- A name without one leading `Deserialized.`, if that is to be ignored. -/
def SameType (ignore : Bool) (a b : PyStr) : Prop :=
  ∃ c, (a = c ∨ ignore = true ∧ a = deserializedPrefix ++ c) ∧
    (b = c ∨ ignore = true ∧ b = deserializedPrefix ++ c) ∧
    (ignore = true → a = c → ¬ ∃ d, c = deserializedPrefix ++ d) ∧
    (ignore = true → b = c → ¬ ∃ d, c = deserializedPrefix ++ d)

/-- An object as the class of a plain definition makes it: notes only, no name twice, no Python
attribute of the name of a property. -/
def PsObj.Plain (o : PsObj V) : Prop :=
  (∀ p ∈ o.adapted ++ o.extended, p.IsNote ∧ o.cls p.name = none) ∧
  (propNames (o.adapted ++ o.extended)).Nodup ∧ o.attrs = []

end Verif
