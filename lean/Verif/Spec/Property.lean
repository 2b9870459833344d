import Verif.Model.Property

/-! # What property objects should do (specification for C86) -/

namespace Verif

variable {O V : Type}

/-- The parameters of a function, in the order Python wants them: `def f(a, b=0, /, c=0, *args, d, e=0, **kwargs)`. For each one whether it
has a default. -/
structure Signature where
  posOnly : List Bool := []
  posOrKw : List Bool := []
  varArgs : Bool := false
  kwOnly : List Bool := []
  varKw : Bool := false

namespace Signature

/-- All parameters positional arguments go to. -/
def positional (s : Signature) : List Bool := s.posOnly ++ s.posOrKw

/-- The parameters as `inspect.signature` lists them. -/
def params (s : Signature) : List FuncParam :=
  s.posOnly.map (FuncParam.mk .positionalOnly) ++ s.posOrKw.map (FuncParam.mk .positionalOrKeyword) ++
    (if s.varArgs then [FuncParam.mk .varPositional false] else []) ++ s.kwOnly.map (FuncParam.mk .keywordOnly) ++
    (if s.varKw then [FuncParam.mk .varKeyword false] else [])

/-- Python refuses a positional parameter without default behind one with default. -/
def Legal (s : Signature) : Prop := s.positional.Pairwise fun a b => a = true → b = true

/-- `f(x1, ..., xn)` is a call of the function: each of its positional parameters behind the first `n` has a default, each keyword-only one
has, and there are no more arguments than parameters unless there is `*args`. -/
def Takes (s : Signature) (n : Nat) : Prop :=
  (∀ i (h : i < s.positional.length), n ≤ i → s.positional[i] = true) ∧ (∀ b ∈ s.kwOnly, b = true) ∧
    (s.positional.length < n → s.varArgs = true)

end Signature

/-- What a caller can do with a property. -/
inductive PropOp (V : Type)
  | getter (g : Given)
  | setter (g : Given)
  | value (v : Option V)

/-- A caller uses a property, whether or not that raises. -/
def PropInfo.after (env : Calls O V) : List (PropOp V) → PropInfo V × O → PropInfo V × O
  | [], s => s
  | .getter g :: ops, (p, o) => after env ops ((p.setGetter g).1, o)
  | .setter g :: ops, (p, o) => after env ops ((p.setSetter g).1, o)
  | .value v :: ops, (p, o) => after env ops (p.setValue env v o).1

/-- A property a constructor has made. -/
def PropInfo.Constructed (p : PropInfo V) : Prop :=
  (∃ n v m t, PropInfo.newNote n v m t = .ok p) ∨ (∃ n a t, PropInfo.newAlias n a t = .ok p) ∨
    (∃ n g s m t, PropInfo.newScript n g s m t = .ok p)

/-- The class of the property makes instances of itself. -/
def PropInfo.TypeMakes (p : PropInfo V) : Prop := ∀ t, p.psType = some t → ∀ v w, t.make v = .ok w → t.isInstance w = true

end Verif
