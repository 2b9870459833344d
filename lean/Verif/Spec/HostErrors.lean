import Verif.Model.HostErrors
import Verif.Spec.Written

/-! # What is shown of the error of a failed host call -/

namespace Verif

/-- An object with the properties of a record under type names that no class is registered for, or under none. -/
def IsLooseRecord (L : Lib) (H : Heap) (val : Nat → PVal) (valInfo : InvocationInfo Nat → PVal) (o : Notes Nat) (v : PVal) : Prop :=
  ∃ a, v = .ref a ∧ (H a).data = .none ∧ (∀ t, (H a).types.head? = some t → L.reg.types.get? t = none) ∧ (H a).adapted = [] ∧
    All2 (fun n q => q.1 = n.1 ∧ (sentView L H val valInfo).IsNote n.2 q.2) o (H a).extended

/-- The object has these properties and no others. -/
def HasNotes (w : View DVal) (o : Notes Nat) (d : DVal) : Prop :=
  (∀ name v, o.lookup name = some v → ∃ x, w.attr d name = .ok x ∧ w.IsNote v x) ∧
  ∀ name, o.lookup name = none → w.attr d name = .error .attributeError

/-- The result is an error record, and it tells what `r` tells: the instance of `ErrorRecord` that the deserializer made from the properties
of `r`, or the one that `FromPSObjectForRemoting` makes from an object with these properties. -/
def ErrorShown.Tells (L : Lib) (s : DState) (w : View DVal) (root : PyStr → PyStr) (r : ErrorRecord Nat) : ErrorShown → Prop
  | .value d => ∃ o, IsReadRecord L s w .error o d ∧ (Written.error r).ReadFrom root o
  | .made d => ∃ o, HasNotes w o d ∧ (Written.error r).ReadFrom root o

/-- The message is the response to a failed host call of a pipeline or of the pool. -/
def Letter.FailedCall (pipeline : Bool) (v : PVal) : Letter → Prop
  | .pipelineHostResponse _ _ _ v' => pipeline = true ∧ v' = v
  | .runspacePoolHostResponse _ _ _ v' => pipeline = false ∧ v' = v
  | _ => False

/-- The event of the message is there, and what it shows as the error. The values it speaks of stand for the sender's. -/
def ErrorOf (L : Lib) (val : Nat → PVal) (valInfo : InvocationInfo Nat → PVal) (p : Post) (i : Mail (Except Err Incoming))
    (P : DState → View DVal → ErrorShown → Prop) : Prop :=
  i.type = p.letter.type ∧ i.pid = p.pid ∧ ∃ x ds e φ g, i.object = .ok (.object x ds) ∧ readEvent L i.type (.object x ds) = .ok e ∧
    e.error L ds = some g ∧ P ds (seenView L ds φ val valInfo) g ∧
    ∀ b a, φ b = some a → a ≠ p.addr → ∃ y, ds.heap[b]? = some y ∧ OMatch L φ (p.heap a) (ds.shown L y)

end Verif
