import Verif.Spec.Session

/-! # What the theorems about host calls in a session speak about (C80) -/

namespace Verif

/-- One step of a session with its result. -/
abbrev SessionEntry := SessionOp × Except Err Ret

/-- The ids of the pipeline objects the server made, in the order in which it made them. -/
def SessionTrace.pipelines (tr : SessionTrace) : List UUID :=
  tr.filterMap fun e => match e with
    | (.server (.newPipe pid), _) => some pid
    | _ => none

/-- The pipeline a receiver takes a message to belong to: the nil UUID stands for none. -/
def seenBy (pid : Option UUID) : Option UUID := if pid = some EMPTY_UUID then none else pid

/-- A host call: its pipeline, if it is not one of the pool, its id, its method and its parameters. -/
structure MadeCall where
  pid : Option UUID
  ci : Int
  method : HostMethod
  params : Val

/-- The step `e` of the server makes the host call `c`: `host_call` of the pool or of one of its
pipelines returned the id. `pipelines` are the ids of the pipelines of the server. -/
def MadeCall.MadeBy (pipelines : List UUID) (c : MadeCall) (e : SessionEntry) : Prop :=
  e = (.server (.hostCall c.method c.params c.pid), .ok (.ci c.ci)) ∨
  ∃ (h : Nat) (u : UUID), pipelines[h]? = some u ∧ c.pid = some u ∧
    e = (.server (.pipeHostCall h c.method c.params), .ok (.ci c.ci))

/-- The message `m` is the host call `c` as it left the server. -/
def MadeCall.Sent (c : MadeCall) (m : Msg) : Prop :=
  m.pid = c.pid ∧
  ((m.type = .PipelineHostCall ∧ m.content = some (.msg (.pipelineHostCall c.ci c.method c.params))) ∨
   (m.type = .RunspacePoolHostCall ∧ m.content = some (.msg (.runspacePoolHostCall c.ci c.method c.params))))

/-- In the step `e` the client gets an event with the host call `c`. -/
def MadeCall.ShownBy (c : MadeCall) (e : SessionEntry) : Prop :=
  ∃ m, MadeCall.Sent { c with pid := seenBy c.pid } m ∧ e = (.toClient, .ok (.event m))

/-- In the step `e` the client answers the call `ci` with these values: `host_response` of the pool or
of a pipeline returned. -/
def AnsweredBy (ci : Int) (a b : Option Val) (e : SessionEntry) : Prop :=
  e = (.client (.hostResponse ci a b), .ok .none) ∨
  ∃ h : Nat, e = (.client (.pipeHostResponse h ci a b), .ok .none)

/-- The message `m` is the answer to the host call `c` with these values: the answer of a pipeline if
the client saw the call as one of a pipeline, and else of the pool. -/
def MadeCall.Answer (c : MadeCall) (a b : Option Val) (m : Msg) : Prop :=
  m.pid = seenBy c.pid ∧
  ((m.pid ≠ none ∧ m.type = .PipelineHostResponse ∧
      m.content = some (.msg (.pipelineHostResponse c.ci c.method a b))) ∨
   (m.pid = none ∧ m.type = .RunspacePoolHostResponse ∧
      m.content = some (.msg (.runspacePoolHostResponse c.ci c.method a b))))

/-- The message is a response to a host call with this id. -/
def Msg.IsHostReply (m : Msg) (ci : Int) : Prop :=
  ∃ mi a b, (m.type = .PipelineHostResponse ∧ m.content = some (.msg (.pipelineHostResponse ci mi a b))) ∨
    (m.type = .RunspacePoolHostResponse ∧ m.content = some (.msg (.runspacePoolHostResponse ci mi a b)))

/-- In the step `e` the server gets an event with the message `m`. -/
def ServerSees (m : Msg) (e : SessionEntry) : Prop := e = (.toServer, .ok (.event m))

/-- The steps the theorems allow: calls of the API and deliveries, but no `connect` of the server, with
which the server starts to count its calls anew. -/
def SessionOp.KeepsCount (op : SessionOp) : Prop := op.IsApi ∧ op ≠ .server .connect

/-- The peer can read the value. -/
def Readable (v : Option Val) : Prop := ∀ x, v = some x → x.deserializeFails = none

end Verif
