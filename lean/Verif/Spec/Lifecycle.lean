import Verif.Spec.Pool

/-! # The life of a pipeline -/

namespace Verif
open Pool

/-- The operation raised `InvalidPipelineState` and changed nothing. -/
def RefusedPipe (p : Pool) (r : Res Ret) : Prop := r = (p, .error .invalidPipelineState)

/-- The operation succeeded, pipeline `h` is in state `s`, and nothing else changed. -/
def MovesLocally (p : Pool) (h : Nat) (s : PipeState) (r : Res Ret) : Prop :=
  r = ({ p with pipes := p.pipes.modify h fun q => { q with state := s } }, .ok .none)

/-- The operation succeeded, pipeline `h` is in state `s`, and one message of the given type and content
is queued for the pipeline with id `pid`. -/
def MovesSending (p : Pool) (h : Nat) (pid : UUID) (s : PipeState) (t : MsgType) (c : Option Obj) (r : Res Ret) :
    Prop :=
  Sends p r .none t c (some pid) .default ∧
    r.1.pipes = (p.pipes.modify h fun q => { q with state := s }) ∧ r.1.table = p.table ∧ r.1.state = p.state

/-- The type of the message of every kind of record. -/
def recordType : RecordKind → MsgType
  | .error => .ErrorRecord
  | .debug => .DebugRecord
  | .verbose => .VerboseRecord
  | .warning => .WarningRecord
  | .progress => .ProgressRecord
  | .information => .InformationRecord

end Verif
