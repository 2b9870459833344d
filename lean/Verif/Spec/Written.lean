import Verif.Spec.Contents
import Verif.Spec.Records

/-! # What arrives of the records a server writes -/

namespace Verif

/-! ## Values of the two ends -/

/-- `obj.name` at the sender: of two properties the extended one. -/
def Heap.attr (H : Heap) (v : PVal) (name : PyStr) : Except Err PVal :=
  match v with
  | .ref a =>
    match (((H a).adapted ++ (H a).extended).filter (·.1 = name)).getLast? with
    | none => .error .attributeError
    | some q => .ok q.2
  | _ => .error .attributeError

/-- How an end sees values: what a value is at its top, its properties by name, and which of its values are the ones that records speak
of by number, and the invocation infos. -/
structure View (V : Type) where
  look : V → Node V
  attr : V → PyStr → Except Err V
  leaf : Nat → V → Prop
  info : InvocationInfo Nat → V → Prop

/-- What the sender sees. -/
def sentView (L : Lib) (H : Heap) (val : Nat → PVal) (valInfo : InvocationInfo Nat → PVal) : View PVal where
  look := (H.completed L).look
  attr := (H.completed L).attr
  leaf i v := v = val i
  info i v := v = valInfo i

/-- What the receiver sees. The values stand for those of the sender. -/
def seenView (L : Lib) (s : DState) (φ : Nat → Option Nat) (val : Nat → PVal) (valInfo : InvocationInfo Nat → PVal) : View DVal where
  look := s.look L
  attr := s.attr L
  leaf i d := VMatch φ (val i) d
  info i d := VMatch φ (valInfo i) d

/-- What `.Message` finds on a value: nothing, `None`, or a text. -/
def View.HasMessage {V : Type} (w : View V) (v : V) : Option (Option PyStr) → Prop
  | none => w.attr v (txt! "Message") = .error .attributeError
  | some none => ∃ x, w.attr v (txt! "Message") = .ok x ∧ w.look x = .nil
  | some (some s) => ∃ x, w.attr v (txt! "Message") = .ok x ∧ w.look x = .str s

/-- The value `v` is the value of a property of a record. -/
def View.IsNote {V : Type} (w : View V) : NoteVal Nat → V → Prop
  | .nil, v => w.look v = .nil
  | .bool b, v => w.look v = .bool b
  | .int n, v => w.look v = .int n
  | .enum n, v => w.look v = .enum n
  | .str s, v => w.look v = .str s
  | .list l, v => ∃ vs, w.look v = .list vs ∧ All2 w.leaf l vs
  | .dict l, v => ∃ vs, w.look v = .dict vs ∧ All2 (fun p q => w.leaf p.1 q.1 ∧ w.leaf p.2 q.2) l vs
  | .value i, v => w.leaf i v
  | .exception e, v => w.leaf e.value v ∧ w.HasMessage v e.message
  | .info i, v => w.info i v

/-! ## Records -/

/-- A record, its values by numbers. -/
inductive Written
  | error (r : ErrorRecord Nat)
  | debug (r : InformationalRecord Nat)
  | verbose (r : InformationalRecord Nat)
  | warning (r : InformationalRecord Nat)

/-- Its kind. -/
def Written.kind : Written → RecordClass
  | error _ => .error
  | debug _ => .debug
  | verbose _ => .verbose
  | warning _ => .warning

/-- The note properties that are serialized for it. -/
def Written.notes : Written → Except Err (Notes Nat)
  | error r => r.send
  | debug r => .ok r.toRemoting
  | verbose r => .ok r.toRemoting
  | warning r => .ok r.toRemoting

/-- Conditions on an informational record: the invocation info that is sent holds members and is complete. -/
def InformationalRecord.Ready (r : InformationalRecord Nat) : Prop := ∀ i, r.Sends i → i.Valid ∧ i.Complete

/-- The conditions of C65 and C66. -/
def Written.Ready : Written → Prop
  | error r => r.Valid ∧ (∃ e, r.exception = .exception e) ∧ (∀ i, r.Sends i → i.Complete) ∧ r.NoEmptyTexts
  | debug r => r.Ready
  | verbose r => r.Ready
  | warning r => r.Ready

/-- An informational record was made of the properties: the same message, and the invocation, if it was sent. -/
def InformationalRecord.ReadFrom (root : PyStr → PyStr) (r : InformationalRecord Nat) (o : Notes Nat) : Prop :=
  ∃ r', InformationalRecord.fromRemoting root o = .ok r' ∧ r'.message = r.message ∧
    (∀ i, r.Sends i → r'.pipelineIterationInfo = r.pipelineIterationInfo ∧ ∃ j, r'.invocationInfo = some j ∧ i.Keeps j) ∧
    ((∀ i, ¬ r.Sends i) → r'.invocationInfo = none ∧ r'.pipelineIterationInfo = none)

/-- The record that `FromPSObjectForRemoting` makes of the properties tells what the record that was written tells: the same error and
the same text of its category, the same message, and of the invocation, if it was sent, the call, the place and the command. -/
def Written.ReadFrom (root : PyStr → PyStr) : Written → Notes Nat → Prop
  | error r, o => ∃ r', ErrorRecord.fromRemoting root o = .ok r' ∧ r.SameError r' ∧
      (∃ shown, r.categoryInfo.shown = .ok shown ∧ r'.categoryInfo.shown = .ok shown) ∧
      (∃ f, r'.exception = .exception f ∧ f.remoteInfo = some r.invocationInfo) ∧
      (∀ i, r.Sends i → r'.pipelineIterationInfo = r.pipelineIterationInfo ∧ ∃ j, r'.invocationInfo = some j ∧ i.Keeps j) ∧
      ((∀ i, ¬ r.Sends i) → r'.invocationInfo = none ∧ r'.pipelineIterationInfo = none)
  | debug r, o => r.ReadFrom root o
  | verbose r, o => r.ReadFrom root o
  | warning r, o => r.ReadFrom root o

/-- The first type name of a record, the one of its class. -/
def RecordClass.typeName : RecordClass → PyStr
  | error => txt! "System.Management.Automation.ErrorRecord"
  | debug => txt! "System.Management.Automation.DebugRecord"
  | verbose => txt! "System.Management.Automation.VerboseRecord"
  | warning => txt! "System.Management.Automation.WarningRecord"

/-- The class whose `FromPSObjectForRemoting` the receiver calls. -/
def RecordClass.cls : RecordClass → PyStr
  | error => txt! "ErrorRecord"
  | debug => txt! "DebugRecord"
  | verbose => txt! "VerboseRecord"
  | warning => txt! "WarningRecord"

/-- The classes of the records are registered for their type names and declare no extended properties. -/
def Lib.HasRecords (L : Lib) : Prop :=
  ∀ k : RecordClass, L.reg.types.get? k.typeName = some k.cls ∧ (L.info k.cls).extended = []

/-- The object that is serialized for a record: `PSObject()` with these note properties and the type names of the record. -/
def IsRecordObject (L : Lib) (H : Heap) (val : Nat → PVal) (valInfo : InvocationInfo Nat → PVal) (k : RecordClass) (o : Notes Nat)
    (v : PVal) : Prop :=
  ∃ a, v = .ref a ∧ (H a).data = .none ∧ (H a).types.head? = some k.typeName ∧ (H a).adapted = [] ∧
    All2 (fun n q => q.1 = n.1 ∧ (sentView L H val valInfo).IsNote n.2 q.2) o (H a).extended

/-- The object that the receiver gives to `FromPSObjectForRemoting` of the class of the record: under each of the names the value that
was sent, under the other names that the class declares `None`, under all others nothing. -/
def IsReadRecord (L : Lib) (s : DState) (w : View DVal) (k : RecordClass) (o : Notes Nat) (d : DVal) : Prop :=
  (∃ b x, d = .ref b ∧ s.heap[b]? = some x ∧ (s.shown L x).cls = some k.cls) ∧
  (∀ name v, o.lookup name = some v → ∃ x, w.attr d name = .ok x ∧ w.IsNote v x) ∧
  ∀ name, o.lookup name = none → w.attr d name = if name ∈ (L.info k.cls).adapted then .ok .nil else .error .attributeError

/-- The messages with a record: those of `write_error` and so on, and those that tell why a state was entered or a host call failed. -/
def Letter.Carries (k : RecordClass) (v : PVal) : Letter → Prop
  | .record k' v' => k' = k ∧ v' = v
  | .runspacePoolState _ v' => k = .error ∧ v' = v
  | .pipelineState _ v' => k = .error ∧ v' = v
  | .runspacePoolHostResponse _ _ _ v' => k = .error ∧ v' = v
  | .pipelineHostResponse _ _ _ v' => k = .error ∧ v' = v
  | _ => False

/-- The property `record`, `reason` or `error` of their events. -/
def EventView.Carries (k : RecordClass) (d : DVal) : EventView → Prop
  | .record t d' => t = k.type ∧ d' = d
  | .runspacePoolState _ d' => k = .error ∧ d' = d
  | .pipelineState _ d' => k = .error ∧ d' = d
  | .runspacePoolHostResponse _ _ _ d' => k = .error ∧ d' = d
  | .pipelineHostResponse _ _ _ d' => k = .error ∧ d' = d
  | _ => False

/-- The record was written into the message. -/
def Written.Sent (L : Lib) (H : Heap) (val : Nat → PVal) (valInfo : InvocationInfo Nat → PVal) (r : Written) (l : Letter) : Prop :=
  ∃ o v, r.notes = .ok o ∧ l.Carries r.kind v ∧ IsRecordObject L H val valInfo r.kind o v

/-- The event of the message shows the record. The values it speaks of stand for the sender's. -/
def RecordArrives (L : Lib) (root : PyStr → PyStr) (val : Nat → PVal) (valInfo : InvocationInfo Nat → PVal) (r : Written) (p : Post)
    (i : Mail (Except Err Incoming)) : Prop :=
  i.type = p.letter.type ∧ i.pid = p.pid ∧ ∃ x ds e φ o d, i.object = .ok (.object x ds) ∧ readEvent L i.type (.object x ds) = .ok e ∧
    e.Carries r.kind d ∧ IsReadRecord L ds (seenView L ds φ val valInfo) r.kind o d ∧ r.ReadFrom root o ∧
    ∀ b a, φ b = some a → a ≠ p.addr → ∃ y, ds.heap[b]? = some y ∧ OMatch L φ (p.heap a) (ds.shown L y)

end Verif
