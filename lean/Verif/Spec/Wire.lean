import Verif.Model.Wire
import Verif.Spec.Transport
import Verif.Spec.Clixml
import Verif.Spec.XmlText

/-! # Objects that arrive -/

namespace Verif

/-- The incoming object stands for the outgoing one. `φ` tells which old object a new object stands for, as for documents
(`Spec/Serializer.lean`). -/
def SameObject (L : Lib) : Outgoing → Incoming → Prop
  | .endOfInput, i => i = .endOfInput
  | .object H v, i => ∃ d ds φ, i = .object d ds ∧ VMatch φ v d ∧
      ∀ b a, φ b = some a → ∃ d, ds.heap[b]? = some d ∧ OMatch L φ (H a) (ds.shown L d)

/-- The event is that of the message that was sent: the type, the pipeline and the object are the same. -/
def Arrives (L : Lib) (o : Mail Outgoing) (i : Mail (Except Err Incoming)) : Prop :=
  i.type = o.type ∧ i.pid = o.pid ∧ ∃ x, i.object = .ok x ∧ SameObject L o.object x

/-- The messages the property is about: `None` only as pipeline output, `EndOfPipelineInput` for itself, and other objects whose
graph comes back and whose texts XML can hold. -/
def Sendable (E : TextEnv) (L : Lib) (t : MsgType) : Outgoing → Prop
  | .endOfInput => t = .EndOfPipelineInput
  | .object H v => (v = .nil → t = .PipelineOutput) ∧ t ≠ .EndOfPipelineInput ∧ GraphOk E L H [v] ∧ GraphXmlOk E H [v]

/-- The inputs: such messages, with data for which the size fits four bytes, for a pipeline with an id that is not all zeros, and
amounts `data_to_send` accepts. -/
def WireOp.Legal (E : TextEnv) (L : Lib) (n : Nat) : WireOp → Prop
  | .send t o pid _ => Sendable E L t o ∧ (∀ t' data, messageData E n t o = .ok (t', data) → data.length + 40 < 2 ^ 32) ∧
      ∀ p, pid = some p → p.bytes ≠ List.replicate 16 0
  | .flush (some a) => 22 ≤ a
  | _ => True

/-- The messages of a history. -/
def mails : List WireOp → List (Mail Outgoing)
  | [] => []
  | .send t o pid _ :: ops => ⟨t, pid, o⟩ :: mails ops
  | _ :: ops => mails ops

/-- A fresh pair of pools. -/
def WireLink.fresh (client : Bool) (rpid : UUID) : WireLink := { link := Link.fresh client rpid }

end Verif
