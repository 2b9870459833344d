import Verif.Model.Events

/-! # The property `error` of the events of host responses -/

namespace Verif

/-- What the property `error` gives, /repo/src/psrpcore/_events.py:725-731, 1101-1103. -/
inductive ErrorShown
  /-- the value as it was read -/
  | value (d : DVal)
  /-- `ErrorRecord.FromPSObjectForRemoting(d)` -/
  | made (d : DVal)
deriving DecidableEq

/-- `isinstance(me, ErrorRecord)`, /repo/src/psrpcore/_events.py:728. No registered class is derived from `ErrorRecord`: `ErrorRecordMsg`
is only the class of a message (/repo/src/psrpcore/types/_psrp.py:589-593). -/
def DState.isErrorRecord (s : DState) (L : Lib) (d : DVal) : Bool :=
  match d with
  | .ref b =>
    match s.heap[b]? with
    | some x => (s.shown L x).cls == some (txt! "ErrorRecord")
    | none => false
  | _ => false

/-- `PipelineHostResponseEvent.error`, /repo/src/psrpcore/_events.py:725-731. -/
def pipelineHostError (L : Lib) (s : DState) (me : DVal) : ErrorShown :=
  if s.truth me && !s.isErrorRecord L me then .made me else .value me

/-- `RunspacePoolHostResponseEvent.error`, /repo/src/psrpcore/_events.py:1101-1103. -/
def poolHostError (me : DVal) : ErrorShown := .value me

/-- The property `error` of the event of a host response, of either class (/repo/src/psrpcore/_events.py:725-731, 1101-1103). -/
def EventView.error (L : Lib) (s : DState) : EventView → Option ErrorShown
  | .pipelineHostResponse _ _ _ me => some (pipelineHostError L s me)
  | .runspacePoolHostResponse _ _ _ me => some (poolHostError me)
  | _ => none

end Verif
