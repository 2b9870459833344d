import Verif.Spec.Lifecycle
import Verif.Props.Guards

/-! # The life of a pipeline (C60) -/

namespace Verif
open Pool

/-- Starting a client pipeline is refused unless it was not started yet, was stopped or has completed. -/
theorem C60_client_start_refused {p : Pool} {h : Nat} {q : Pipe} (hq : p.pipes[h]? = some q)
    (hs : q.state ∉ [PipeState.NotStarted, .Stopped, .Completed]) :
    RefusedPipe p (ClientOp.step p (.pipeStart h)) := by
  unfold RefusedPipe
  simp only [ClientOp.step, pipeStartClient]
  rw [onPipe_some hq, if_pos hs]
  rfl

/-- Otherwise it queues the message that describes the pipeline, as long as that serializes, and the
pipeline runs. -/
theorem C60_client_start {p : Pool} {h : Nat} {q : Pipe} {k : PipeKind} {v : Val} (hq : p.pipes[h]? = some q)
    (hs : q.state ∈ [PipeState.NotStarted, .Stopped, .Completed]) (hk : q.kind = some k.type)
    (hm : q.metadata = some (.msg (k.body v))) (hf : (Obj.msg (k.body v)).serializeFails p.cipher = none) :
    MovesSending p h q.pid .Running k.type (some (.msg (k.body v))) (ClientOp.step p (.pipeStart h)) := by
  unfold MovesSending
  simp only [ClientOp.step, pipeStartClient, pipePrepare]
  rw [onPipe_some hq, if_neg (not_not_intro hs), hk, hm, prepare_typed (by cases k <;> simp [PipeKind.body]) hf]
  exact ⟨⟨rfl, _, rfl, rfl, rfl, rfl, rfl⟩, rfl, rfl, rfl⟩

/-- If it does not serialize, nothing changes. -/
theorem C60_client_start_fails {p : Pool} {h : Nat} {q : Pipe} {k : PipeKind} {v : Val} {e : Err}
    (hq : p.pipes[h]? = some q) (hs : q.state ∈ [PipeState.NotStarted, .Stopped, .Completed])
    (hm : q.metadata = some (.msg (k.body v))) (hf : (Obj.msg (k.body v)).serializeFails p.cipher = some e) :
    ClientOp.step p (.pipeStart h) = (p, .error e) := by
  simp only [ClientOp.step, pipeStartClient, pipePrepare]
  rw [onPipe_some hq, if_neg (not_not_intro hs), hm, prepare_fails (by cases k <;> simp [PipeKind.body]) hf]
  rfl

/-- The hypotheses of `C60_client_start` on the pipeline hold for every pipeline made by the program. -/
theorem C60_client_new {p : Pool} {pid : UUID} {k : PipeKind} {v : Val} :
    ∃ q, (ClientOp.step p (.newPipe pid k v)).1.pipes[p.pipes.length]? = some q ∧ q.state = .NotStarted ∧
      q.pid = pid ∧ q.kind = some k.type ∧ q.metadata = some (.msg (k.body v)) := by
  refine ⟨{ pid := pid, kind := some k.type, metadata := some (.msg (k.body v)) }, ?_, rfl, rfl, rfl, rfl⟩
  simp [ClientOp.step, newPipe]

/-- `begin_stop` on either side is refused unless the pipeline runs or is being stopped already. -/
theorem C60_begin_stop_refused {p : Pool} {h : Nat} {q : Pipe} (hq : p.pipes[h]? = some q)
    (hs : q.state ∉ [PipeState.Running, .Stopping]) :
    RefusedPipe p (ClientOp.step p (.base (.pipeBeginStop h))) ∧
      RefusedPipe p (ServerOp.step p (.base (.pipeBeginStop h))) := by
  unfold RefusedPipe
  simp only [ClientOp.step, ServerOp.step, BaseOp.step, pipeBeginStop]
  rw [onPipe_some hq, if_pos hs]
  exact ⟨rfl, rfl⟩

/-- A client that begins to stop sends nothing; that is left to the transport. -/
theorem C60_client_begin_stop {p : Pool} {h : Nat} {q : Pipe} (hq : p.pipes[h]? = some q) (hc : p.isClient = true)
    (hs : q.state ∈ [PipeState.Running, .Stopping]) :
    MovesLocally p h .Stopping (ClientOp.step p (.base (.pipeBeginStop h))) := by
  unfold MovesLocally
  simp only [ClientOp.step, BaseOp.step, pipeBeginStop, pipeChangeState]
  rw [onPipe_some hq, if_neg (not_not_intro hs), onPipe_some hq, if_pos hc]
  rfl

/-- A change of the state of a pipeline on the server is announced. -/
theorem server_change {p : Pool} {h : Nat} {q : Pipe} {s : PipeState} {e : Option Val} {r : Res Unit}
    (hq : p.pipes[h]? = some q) (hc : p.isClient = false)
    (hf : ∀ v ∈ e, Val.serializeFails p.cipher v = none) (hr : r = p.pipeChangeState h s e) :
    MovesSending p h q.pid s .PipelineState (some (.msg (.pipelineState s e))) (r.ret fun _ => .none) := by
  subst hr
  unfold MovesSending
  simp only [pipeChangeState]
  have hfe : (Obj.msg (.pipelineState s e)).serializeFails p.cipher = none := by
    cases e with
    | none => rfl
    | some v => simp [Obj.serializeFails, Obj.vals, Body.vals, hf v rfl]
  rw [onPipe_some hq, if_neg (by rw [hc]; simp), prepare_body (by simp) hfe]
  exact ⟨⟨rfl, _, rfl, rfl, rfl, rfl, rfl⟩, rfl, rfl, rfl⟩

/-- A server that begins to stop announces it. -/
theorem C60_server_begin_stop {p : Pool} {h : Nat} {q : Pipe} (hq : p.pipes[h]? = some q) (hc : p.isClient = false)
    (hs : q.state ∈ [PipeState.Running, .Stopping]) :
    MovesSending p h q.pid .Stopping .PipelineState (some (.msg (.pipelineState .Stopping none)))
      (ServerOp.step p (.base (.pipeBeginStop h))) := by
  simp only [ServerOp.step, BaseOp.step]
  refine server_change hq hc (by rintro _ ⟨⟩) ?_
  unfold pipeBeginStop
  rw [onPipe_some hq, if_neg (not_not_intro hs)]

/-- Starting a server pipeline is refused unless it was not started yet, was stopped or has completed. -/
theorem C60_server_start_refused {p : Pool} {h : Nat} {q : Pipe} (hq : p.pipes[h]? = some q)
    (hs : q.state ∉ [PipeState.NotStarted, .Stopped, .Completed]) :
    RefusedPipe p (ServerOp.step p (.pipeStart h)) := by
  unfold RefusedPipe
  simp only [ServerOp.step, pipeStartServer]
  rw [onPipe_some hq, if_pos hs]
  rfl

/-- Otherwise it runs, and that is announced. -/
theorem C60_server_start {p : Pool} {h : Nat} {q : Pipe} (hq : p.pipes[h]? = some q) (hc : p.isClient = false)
    (hs : q.state ∈ [PipeState.NotStarted, .Stopped, .Completed]) :
    MovesSending p h q.pid .Running .PipelineState (some (.msg (.pipelineState .Running none)))
      (ServerOp.step p (.pipeStart h)) := by
  simp only [ServerOp.step]
  refine server_change hq hc (by rintro _ ⟨⟩) ?_
  unfold pipeStartServer
  rw [onPipe_some hq, if_neg (not_not_intro hs)]

/-- Stopping is refused unless the pipeline runs, is being stopped or was stopped. -/
theorem C60_stop_refused {p : Pool} {h : Nat} {q : Pipe} (hq : p.pipes[h]? = some q)
    (hs : q.state ∉ [PipeState.Running, .Stopping, .Stopped]) :
    RefusedPipe p (ServerOp.step p (.pipeStop h)) := by
  unfold RefusedPipe
  simp only [ServerOp.step, pipeStop]
  simp only [List.mem_cons, List.not_mem_nil, or_false, not_or] at hs
  rw [onPipe_some hq, if_neg hs.2.2, if_pos (by simp [hs.1, hs.2.1])]
  rfl

/-- A stopped pipeline can be stopped again without effect. -/
theorem C60_stop_again {p : Pool} {h : Nat} {q : Pipe} (hq : p.pipes[h]? = some q) (hs : q.state = .Stopped) :
    ServerOp.step p (.pipeStop h) = (p, .ok .none) := by
  simp only [ServerOp.step, pipeStop]
  rw [onPipe_some hq, if_pos hs]
  rfl

/-- Otherwise it is stopped, and that is announced with an error record. -/
theorem C60_stop {p : Pool} {h : Nat} {q : Pipe} (hq : p.pipes[h]? = some q) (hc : p.isClient = false)
    (hs : q.state ∈ [PipeState.Running, .Stopping]) :
    ∃ e, MovesSending p h q.pid .Stopped .PipelineState (some (.msg (.pipelineState .Stopped (some e))))
      (ServerOp.step p (.pipeStop h)) := by
  refine ⟨stoppedError, ?_⟩
  simp only [ServerOp.step]
  refine server_change hq hc (by rintro _ ⟨⟩; rfl) ?_
  unfold pipeStop
  rw [onPipe_some hq, if_neg (by intro hh; rw [hh] at hs; simp at hs), if_neg (not_not_intro hs)]

/-- Completing is never refused: it is announced in whatever state the pipeline is. -/
theorem C60_complete {p : Pool} {h : Nat} {q : Pipe} (hq : p.pipes[h]? = some q) (hc : p.isClient = false) :
    MovesSending p h q.pid .Completed .PipelineState (some (.msg (.pipelineState .Completed none)))
      (ServerOp.step p (.pipeComplete h)) :=
  server_change hq hc (by rintro _ ⟨⟩) rfl

/-- Closing is refused while the pipeline runs (or is disconnected). -/
theorem C60_close_refused {p : Pool} {h : Nat} {q : Pipe} (hq : p.pipes[h]? = some q)
    (hs : q.state = .Running ∨ q.state = .Disconnected) :
    RefusedPipe p (ClientOp.step p (.base (.pipeClose h))) ∧ RefusedPipe p (ServerOp.step p (.base (.pipeClose h))) := by
  unfold RefusedPipe
  simp only [ClientOp.step, ServerOp.step, BaseOp.step, pipeClose]
  rw [onPipe_some hq, if_pos (by rcases hs with hs | hs <;> simp [hs])]
  exact ⟨rfl, rfl⟩

/-- In the other states it takes the pipeline out of the table of the pool, and does nothing else. (A
Python dict holds every key once.) -/
theorem C60_close {p : Pool} {h : Nat} {q : Pipe} (hq : p.pipes[h]? = some q) (hn : p.table.keys.Nodup)
    (hs : q.state ≠ .Running) (hd : q.state ≠ .Disconnected) :
    ∃ t, t.get? q.pid = none ∧ (∀ pid, pid ≠ q.pid → t.get? pid = p.table.get? pid) ∧
      ClientOp.step p (.base (.pipeClose h)) = ({ p with table := t }, .ok .none) ∧
      ServerOp.step p (.base (.pipeClose h)) = ({ p with table := t }, .ok .none) := by
  refine ⟨p.table.erase q.pid, Dict.get?_erase_self _ _ hn, fun pid hp => Dict.get?_erase_ne _ (Ne.symm hp), ?_, ?_⟩ <;>
    simp only [ClientOp.step, ServerOp.step, BaseOp.step, pipeClose] <;>
    rw [onPipe_some hq, if_neg (by cases hx : q.state <;> simp_all)] <;> rfl

/-- C14: the records are queued with the type of their kind (see `C14_server_record` for the rest). -/
theorem C14_record_types (p : Pool) (h : Nat) (q : Pipe) (k : RecordKind) (v : Val)
    (hq : p.pipes[h]? = some q) (hs : q.state = .Running)
    (hv : k = .information → p.PeerAtLeast Pwsh5)
    (hf : (Obj.val v).serializeFails p.cipher = none) :
    Sends p (ServerOp.step p (.pipeWriteRecord h k v)) .none (recordType k) (some (.val v))
      (some q.pid) .default := by
  have := C14_server_record p h q k v hq hs hv hf
  cases k <;> exact this

-- a client pipeline that completed and is started again, a server pipeline that runs
example : (exampleClient .Opened).pipes[0]? = some examplePipe ∧ examplePipe.kind = some PipeKind.powerShell.type ∧
    examplePipe.metadata = some (.msg (PipeKind.powerShell.body { tag := 2 })) ∧
    { examplePipe with state := PipeState.Completed }.state ∈ [PipeState.NotStarted, .Stopped, .Completed] ∧
    examplePipe.state ∈ [PipeState.Running, .Stopping] := ⟨rfl, rfl, rfl, by decide, by decide⟩

example : (exampleServer .Opened).isClient = false ∧ ∃ q, (exampleServer .Opened).pipes[0]? = some q ∧
    q.state = .Running := ⟨rfl, _, rfl, rfl⟩

-- a new pipeline is started, which sends what it was made of; a second start is refused
example : MovesSending (ClientOp.step (exampleClient .Opened) (.newPipe EMPTY_UUID .powerShell { tag := 3 })).1 2 EMPTY_UUID
    .Running PipeKind.powerShell.type (some (.msg (PipeKind.powerShell.body { tag := 3 })))
    (ClientOp.step (ClientOp.step (exampleClient .Opened) (.newPipe EMPTY_UUID .powerShell { tag := 3 })).1 (.pipeStart 2)) :=
  C60_client_start (q := { pid := EMPTY_UUID, kind := some PipeKind.powerShell.type, metadata := some (.msg (PipeKind.powerShell.body { tag := 3 })) }) rfl (by decide) rfl rfl (by decide +kernel)
example : RefusedPipe (exampleClient .Opened) (ClientOp.step (exampleClient .Opened) (.pipeStart 0)) :=
  C60_client_start_refused (q := examplePipe) rfl (by decide)

-- a pipeline with a secure string cannot be started without a key
example : let p := (ClientOp.step (exampleClient .Opened) (.newPipe EMPTY_UUID .powerShell { tag := 3, needsKey := true })).1
    ClientOp.step p (.pipeStart 2) = (p, .error .missingCipher) :=
  C60_client_start_fails (k := .powerShell) (v := { tag := 3, needsKey := true })
    (q := { pid := EMPTY_UUID, kind := some PipeKind.powerShell.type, metadata := some (.msg (PipeKind.powerShell.body { tag := 3, needsKey := true })) }) rfl (by decide) rfl (by decide +kernel)

-- stopping: begun by the client, refused for a stopped pipeline, done by the server, done again
example : MovesLocally (exampleClient .Opened) 0 .Stopping (ClientOp.step (exampleClient .Opened) (.base (.pipeBeginStop 0))) :=
  C60_client_begin_stop (q := examplePipe) rfl rfl (by decide)
example : RefusedPipe (exampleServer .Opened) (ServerOp.step (exampleServer .Opened) (.base (.pipeBeginStop 1))) :=
  (C60_begin_stop_refused (q := { pid := EMPTY_UUID, state := .Stopped }) rfl (by decide)).2
example : ∃ e, MovesSending (exampleServer .Opened) 0 EMPTY_UUID .Stopped .PipelineState
    (some (.msg (.pipelineState .Stopped (some e)))) (ServerOp.step (exampleServer .Opened) (.pipeStop 0)) :=
  C60_stop (q := { pid := EMPTY_UUID, state := .Running }) rfl rfl (by decide)
example : ServerOp.step (exampleServer .Opened) (.pipeStop 1) = (exampleServer .Opened, .ok .none) :=
  C60_stop_again (q := { pid := EMPTY_UUID, state := .Stopped }) rfl rfl
example : RefusedPipe (ServerOp.step (exampleServer .Opened) (.pipeComplete 0)).1
    (ServerOp.step (ServerOp.step (exampleServer .Opened) (.pipeComplete 0)).1 (.pipeStop 0)) :=
  C60_stop_refused (q := { pid := EMPTY_UUID, state := .Completed }) rfl (by decide)

-- a stopped pipeline is started again by the server
example : MovesSending (exampleServer .Opened) 1 EMPTY_UUID .Running .PipelineState
    (some (.msg (.pipelineState .Running none))) (ServerOp.step (exampleServer .Opened) (.pipeStart 1)) :=
  C60_server_start (q := { pid := EMPTY_UUID, state := .Stopped }) rfl rfl (by decide)

-- closing: refused while the pipeline runs, and done when it is stopped
example : RefusedPipe (exampleServer .Opened) (ServerOp.step (exampleServer .Opened) (.base (.pipeClose 0))) :=
  (C60_close_refused (q := { pid := EMPTY_UUID, state := .Running }) rfl (.inl rfl)).2
example : ∃ t, t.get? EMPTY_UUID = none ∧
    ServerOp.step (exampleServer .Opened) (.base (.pipeClose 1)) = ({ exampleServer .Opened with table := t }, .ok .none) := by
  obtain ⟨t, h1, _, _, h2⟩ := C60_close (p := exampleServer .Opened) (h := 1) (q := { pid := EMPTY_UUID, state := .Stopped })
    rfl (by decide +kernel) (by decide) (by decide)
  exact ⟨t, h1, h2⟩

end Verif
