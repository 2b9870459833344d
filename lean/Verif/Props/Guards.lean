import Verif.Proof.Guards

/-! # Guards of the pool and pipeline operations (C12, C14, C19, C45, C48) -/

namespace Verif
open Pool

/-! ## C12: runspace pool state guards -/

/-- C12 for the operations common to both sides. -/
theorem C12_base (p : Pool) (op : BaseOp) (g : Guard) (hg : baseGuard op = some g)
    (hr : op.Ready p) : Obeys g p (op.step p) := by
  cases op <;> simp only [baseGuard, Option.some.injEq, reduceCtorEq] at hg <;> subst hg <;>
    simp only [BaseOp.step]
  · exact obeys_always rfl rfl keeps_state_change (avoids_ret (avoids_change rfl))
  · refine obeys_checked rfl ?_ ?_ <;> intro h <;> unfold close <;>
      rw [if_neg (show ¬ p.table ≠ [] from not_not_intro hr)]
    · rw [if_pos h]
    · rw [if_neg (not_not_intro h)]
      exact ⟨keeps_state_change, avoids_change rfl⟩
  · exact obeys_always rfl rfl keeps_state_change (avoids_ret (avoids_change rfl))
  · refine obeys_checked rfl ?_ ?_ <;> intro h <;> unfold disconnect
    · rw [if_pos h]
    · rw [if_neg (not_not_intro h)]
      exact ⟨keeps_state_change, avoids_change rfl⟩
  · refine obeys_checked rfl ?_ ?_ <;> intro h <;> unfold reconnect
    · rw [if_pos h]
    · rw [if_neg (not_not_intro h)]
      exact ⟨keeps_state_change, avoids_change rfl⟩

/-- C12 for the client. -/
theorem C12_client (p : Pool) (op : ClientOp) (g : Guard) (hg : clientGuard op = some g)
    (hr : op.Ready p) : Obeys g p (op.step p) := by
  cases op <;> simp only [clientGuard, Option.some.injEq, reduceCtorEq] at hg <;>
    (try subst hg) <;> simp only [ClientOp.step]
  · exact C12_base p _ g hg hr
  · refine obeys_opening rfl ?_ ?_ ?_ <;> intro h <;> unfold open_
    · exact ⟨_, if_pos h⟩
    · intro h'; rw [if_neg h, if_pos (by simpa using h')]
    · intro h'
      rw [if_neg h, if_neg (by simpa using h')]
      constructor
      · refine keeps_next (I := fun q => q.state = .Opening) keeps_state_change fun p _ h => ?_
        refine keeps_next (keeps_state_prepare h) fun p _ h => ?_
        split
        · exact h
        · exact keeps_state_prepare h
      · refine avoids_next (avoids_change rfl) fun _ _ _ => avoids_next (avoids_prepare rfl) ?_
        intro _ _ _
        split
        · simp [Avoids]
        · exact avoids_prepare rfl
  · refine obeys_opening rfl ?_ ?_ ?_ <;> intro h <;> unfold connectClient
    · exact ⟨_, if_pos h⟩
    · intro h'; rw [if_neg h, if_pos h']
    · intro h'
      rw [if_neg h, if_neg (not_not_intro h')]
      constructor
      · refine keeps_next (I := fun q => q.state = .Connecting) keeps_state_change fun p _ h => ?_
        exact keeps_next (keeps_state_prepare h) fun p _ h => keeps_state_prepare h
      · exact avoids_next (avoids_change rfl) fun _ _ _ => avoids_next (avoids_prepare rfl)
          fun _ _ _ => avoids_prepare rfl
  · refine obeys_checked rfl ?_ ?_ <;> intro h <;> unfold getAvailableRunspaces
    · rw [if_pos (by simpa using h)]
    · rw [if_neg (by simpa using h)]
      exact ⟨keeps_next (I := fun q => q.state = p.state) (keeps_state_prepare rfl) fun _ _ h => h,
        avoids_next (avoids_prepare rfl) fun _ _ _ => by simp [Avoids]⟩
  · refine obeys_checked rfl ?_ ?_ <;> intro h <;> unfold exchangeKeyOp <;>
      rw [if_neg (by rw [show p.keyRequested = false from hr]; simp)]
    · rw [if_pos (by simpa using h)]
    · rw [if_neg (by simpa using h)]
      exact ⟨keeps_next (I := fun q => q.state = p.state) (keeps_state_prepare rfl) fun _ _ h => h,
        avoids_next (avoids_prepare rfl) fun _ _ _ => by simp [Avoids]⟩
  · have hv : ¬ p.theirVersion.lt Pwsh5 = true := by
      rw [gate_iff]; exact not_not_intro hr
    refine obeys_checked rfl ?_ ?_ <;> intro h <;> unfold resetRunspaceState <;> rw [if_neg hv]
    · rw [if_pos (by simpa using h)]
    · rw [if_neg (by simpa using h)]
      exact ⟨keeps_next (I := fun q => q.state = p.state) (keeps_state_prepare rfl) fun _ _ h => h,
        avoids_next (avoids_prepare rfl) fun _ _ _ => by simp [Avoids]⟩
  · refine obeys_checked rfl ?_ ?_ <;> intro h
    · unfold hostResponse
      rw [if_pos (by simpa using h)]
    · exact hostResponse_guard p _ _ _ (by simpa using h)
  · refine obeys_always rfl rfl ?_ (avoids_ret ?_)
    · show Keeps (fun q => q.state = p.state) _
      refine keeps_ret ?_
      unfold setMaxRunspaces
      split
      · rfl
      · simp only [nextCi]
        split
        · rfl
        · exact keeps_next (keeps_state_prepare rfl) fun _ _ h => h
    · unfold setMaxRunspaces
      split
      · simp [Avoids]
      · simp only [nextCi]
        split
        · simp [Avoids]
        · exact avoids_next (avoids_prepare rfl) fun _ _ _ => by simp [Avoids]
  · refine obeys_always rfl rfl ?_ (avoids_ret ?_)
    · show Keeps (fun q => q.state = p.state) _
      refine keeps_ret ?_
      unfold setMinRunspaces
      split
      · rfl
      · simp only [nextCi]
        split
        · rfl
        · exact keeps_next (keeps_state_prepare rfl) fun _ _ h => h
    · unfold setMinRunspaces
      split
      · simp [Avoids]
      · simp only [nextCi]
        split
        · simp [Avoids]
        · exact avoids_next (avoids_prepare rfl) fun _ _ _ => by simp [Avoids]

/-- C12 for the server. -/
theorem C12_server (p : Pool) (op : ServerOp) (g : Guard) (hg : serverGuard op = some g)
    (hr : op.Ready p) : Obeys g p (op.step p) := by
  cases op <;> simp only [serverGuard, Option.some.injEq, reduceCtorEq] at hg <;>
    (try subst hg) <;> simp only [ServerOp.step]
  · exact C12_base p _ g hg hr
  · refine obeys_opening rfl ?_ ?_ ?_ <;> intro h <;> unfold connectServer
    · exact ⟨_, if_pos h⟩
    · intro h'; rw [if_neg h, if_pos (by simpa using h')]
    · intro h'
      rw [if_neg h, if_neg (by simpa using h')]
      exact ⟨keeps_state_change, avoids_change rfl⟩
  · refine obeys_checked rfl ?_ ?_ <;> intro h <;> unfold requestKey <;>
      rw [if_neg (by rw [show p.keyRequested = false from hr]; simp)]
    · rw [if_pos (by simpa using h)]
    · rw [if_neg (by simpa using h)]
      exact ⟨keeps_next (I := fun q => q.state = p.state) (keeps_state_prepare rfl) fun _ _ h => h,
        avoids_next (avoids_prepare rfl) fun _ _ _ => by simp [Avoids]⟩
  · refine obeys_checked rfl ?_ ?_ <;> intro h <;> unfold sendEvent
    · rw [if_pos (by simpa using h)]
    · rw [if_neg (by simpa using h)]
      exact ⟨keeps_state_prepare rfl, avoids_prepare rfl⟩
  · refine obeys_checked rfl ?_ ?_ <;> intro h <;> unfold setBroken
    · rw [if_pos h]
    · rw [if_neg (not_not_intro h)]
      exact ⟨keeps_state_change, avoids_change rfl⟩
  · rename_i m _ _
    refine obeys_checked rfl ?_ ?_ <;> intro h <;> unfold hostCall
    · rw [if_pos (by simpa using h)]
    · rw [if_neg (by simpa using h)]
      by_cases hv : m.isVoid = true <;> simp only [hv, if_true, nextCi] <;>
      exact ⟨keeps_next (I := fun q => q.state = p.state) (keeps_state_prepare rfl) fun _ _ h => h,
        avoids_next (avoids_prepare rfl) fun _ _ _ => by simp [Avoids]⟩
  · refine obeys_always rfl rfl ?_ (avoids_ret ?_) <;> unfold availabilityResponse
    · split
      · rfl
      · split
        · rfl
        · refine keeps_state_prepare ?_
          unfold runServerHandler
          split <;> rfl
    · split
      · simp [Avoids]
      · split
        · simp [Avoids]
        · exact avoids_prepare rfl

/-- A running client pipeline, for the examples. -/
def examplePipe : Pipe :=
  { pid := EMPTY_UUID, state := .Running, kind := some .CreatePipeline,
    metadata := some (.msg (.createPipeline { tag := 2 })) }

/-- A client in a given state, for the examples. -/
def exampleClient (s : PoolState) : Pool :=
  { newClient EMPTY_UUID { tag := 1 } 0 0 none 1 5 7 with
    state := s
    theirs := some ourCapability
    pipes := [examplePipe, { pid := EMPTY_UUID, state := .Stopped }] }

/-- A server in a given state, for the examples. -/
def exampleServer (s : PoolState) : Pool :=
  { newServer { tag := 1 } 9 with
    state := s
    theirs := some ourCapability
    pipes := [{ pid := EMPTY_UUID, state := .Running }, { pid := EMPTY_UUID, state := .Stopped }] }

-- allowed, ignored and refused cases of C12
example : (ClientOp.open_.step (exampleClient .BeforeOpen)).1.state = .Opening := by decide +kernel
example : ClientOp.open_.step (exampleClient .Opened) = (exampleClient .Opened, .ok .none) := by
  decide +kernel
example : ClientOp.open_.step (exampleClient .Broken)
    = (exampleClient .Broken, .error .invalidPoolState) := by decide +kernel
example : ClientOp.resetRunspaceState.Ready (exampleClient .Opened) :=
  ⟨ourCapability, rfl, by simp [PSVersion.Before, ourCapability, Pwsh5, compBefore]⟩
example : ServerOp.Ready (exampleServer .Opened) (.base .close) ∧
    (ServerOp.step (exampleServer .Opened) (.base .close)).1.state = .Closed :=
  ⟨rfl, by decide +kernel⟩

/-! ## C14: pipeline data only flows while running -/

/-- C14 (refusal), client: on a pipeline that is not running, input, end of input and host
responses are refused and nothing changes. -/
theorem C14_client_refused (p : Pool) (op : ClientOp) (h : Nat) (q : Pipe)
    (hd : op.dataOf = some h) (hq : p.pipes[h]? = some q) (hs : q.state ≠ .Running) :
    op.step p = (p, .error .invalidPipelineState) := by
  cases op <;> simp [ClientOp.dataOf] at hd <;> subst hd <;>
    simp [ClientOp.step, pipeSend, pipeSendEof, pipeHostResponse, onPipe_some hq, hs, Res.ret,
      Except.map]

/-- C14 (acceptance), client: on a running pipeline they are not refused for that reason. -/
theorem C14_client_accepted (p : Pool) (op : ClientOp) (h : Nat) (q : Pipe)
    (hd : op.dataOf = some h) (hq : p.pipes[h]? = some q) (hs : q.state = .Running) :
    (op.step p).2 ≠ .error .invalidPipelineState := by
  cases op <;> simp [ClientOp.dataOf] at hd <;> subst hd <;> refine avoids_ret ?_
  · unfold pipeSend
    rw [onPipe_some hq, if_neg (not_not_intro hs)]
    exact avoids_prepare rfl
  · unfold pipeSendEof
    rw [onPipe_some hq, if_neg (not_not_intro hs)]
    exact avoids_prepare rfl
  · unfold pipeHostResponse hostResponse
    rw [onPipe_some hq, if_neg (not_not_intro hs)]
    split
    · simp [Avoids]
    · split
      · simp [Avoids]
      · split
        · simp [Avoids]
        · exact avoids_next (avoids_prepare rfl) fun _ _ _ => by simp [Avoids]

/-- C14: an object sent to a running pipeline that can be serialized is queued for that
pipeline. -/
theorem C14_client_send (p : Pool) (h : Nat) (q : Pipe) (o : Obj) (hq : p.pipes[h]? = some q)
    (hs : q.state = .Running) (ho : o ≠ .msg .endOfPipelineInput)
    (hf : o.serializeFails p.cipher = none) :
    Sends p (ClientOp.step p (.pipeSend h (some o))) .none .PipelineInput (some o) (some q.pid)
      .default := by
  simp only [ClientOp.step, pipeSend, pipePrepare]
  rw [onPipe_some hq, if_neg (not_not_intro hs), prepare_typed ho hf]
  exact ⟨rfl, _, rfl, rfl, rfl, rfl, rfl⟩

/-- C14: the end of input of a running pipeline is queued for that pipeline. -/
theorem C14_client_eof (p : Pool) (h : Nat) (q : Pipe) (hq : p.pipes[h]? = some q)
    (hs : q.state = .Running) :
    Sends p (ClientOp.step p (.pipeSendEof h)) .none .EndOfPipelineInput none (some q.pid)
      .default := by
  simp only [ClientOp.step, pipeSendEof, pipePrepare]
  rw [onPipe_some hq, if_neg (not_not_intro hs)]
  exact ⟨rfl, _, rfl, rfl, rfl, rfl, rfl⟩

/-- C14 (refusal), server. For `write_information` the protocol version is checked first (C19). -/
theorem C14_server_refused (p : Pool) (op : ServerOp) (h : Nat) (q : Pipe)
    (hd : op.dataOf = some h) (hq : p.pipes[h]? = some q) (hs : q.state ≠ .Running)
    (hv : (∃ v, op = .pipeWriteRecord h .information v) → p.PeerAtLeast Pwsh5) :
    op.step p = (p, .error .invalidPipelineState) := by
  cases op <;> simp only [ServerOp.dataOf, Option.some.injEq, reduceCtorEq] at hd <;> subst hd
  · simp [ServerOp.step, pipeHostCall, onPipe_some hq, hs, Res.ret, Except.map]
  · simp [ServerOp.step, pipeWriteOutput, onPipe_some hq, hs, Res.ret, Except.map]
  · rename_i k v
    have : ¬ (k = .information ∧ p.theirVersion.lt Pwsh5 = true) := by
      rintro ⟨rfl, h2⟩
      exact (gate_iff p).mp h2 (hv ⟨v, rfl⟩)
    simp only [ServerOp.step, pipeWriteRecord, onPipe_some hq]
    rw [if_neg this, if_pos hs]
    rfl

/-- C14 (acceptance), server. -/
theorem C14_server_accepted (p : Pool) (op : ServerOp) (h : Nat) (q : Pipe)
    (hd : op.dataOf = some h) (hq : p.pipes[h]? = some q) (hs : q.state = .Running) :
    (op.step p).2 ≠ .error .invalidPipelineState := by
  cases op <;> simp [ServerOp.dataOf] at hd <;> subst hd <;> refine avoids_ret ?_
  · rename_i m _
    unfold pipeHostCall hostCall
    rw [onPipe_some hq, if_neg (not_not_intro hs)]
    split
    · simp [Avoids]
    · exact avoids_next (avoids_prepare rfl) fun _ _ _ => by simp [Avoids]
  · unfold pipeWriteOutput
    rw [onPipe_some hq, if_neg (not_not_intro hs)]
    exact avoids_prepare rfl
  · unfold pipeWriteRecord
    rw [onPipe_some hq]
    split
    · simp [Avoids]
    · rw [if_neg (not_not_intro hs)]
      exact avoids_prepare rfl

/-- C14: an output object of a running pipeline that can be serialized is queued for it. -/
theorem C14_server_output (p : Pool) (h : Nat) (q : Pipe) (o : Obj) (hq : p.pipes[h]? = some q)
    (hs : q.state = .Running) (ho : o ≠ .msg .endOfPipelineInput)
    (hf : o.serializeFails p.cipher = none) :
    Sends p (ServerOp.step p (.pipeWriteOutput h (some o))) .none .PipelineOutput (some o)
      (some q.pid) .default := by
  simp only [ServerOp.step, pipeWriteOutput, pipePrepare]
  rw [onPipe_some hq, if_neg (not_not_intro hs), prepare_typed ho hf]
  exact ⟨rfl, _, rfl, rfl, rfl, rfl, rfl⟩

/-- C14: a record of a running pipeline that can be serialized is queued for it. -/
theorem C14_server_record (p : Pool) (h : Nat) (q : Pipe) (k : RecordKind) (v : Val)
    (hq : p.pipes[h]? = some q) (hs : q.state = .Running)
    (hv : k = .information → p.PeerAtLeast Pwsh5)
    (hf : (Obj.val v).serializeFails p.cipher = none) :
    Sends p (ServerOp.step p (.pipeWriteRecord h k v)) .none k.type (some (.val v))
      (some q.pid) .default := by
  have : ¬ (k = .information ∧ p.theirVersion.lt Pwsh5 = true) := by
    rintro ⟨h1, h2⟩
    exact (gate_iff p).mp h2 (hv h1)
  simp only [ServerOp.step, pipeWriteRecord, pipePrepare]
  rw [onPipe_some hq, if_neg this, if_neg (not_not_intro hs), prepare_typed (by simp) hf]
  exact ⟨rfl, _, rfl, rfl, rfl, rfl, rfl⟩

/-- C14: a host call of a running pipeline on an opened pool, with parameters that can be
serialized, is queued for it under the returned call id. -/
theorem C14_server_hostCall (p : Pool) (h : Nat) (q : Pipe) (mi : HostMethod) (mp : Val)
    (hq : p.pipes[h]? = some q) (hs : q.state = .Running) (ho : p.state = .Opened)
    (hf : (Obj.val mp).serializeFails p.cipher = none) :
    ∃ ci, Sends p (ServerOp.step p (.pipeHostCall h mi mp)) (.ci ci) .PipelineHostCall
      (some (.msg (.pipelineHostCall ci mi mp))) (some q.pid) .prompt_response := by
  simp only [ServerOp.step, pipeHostCall, hostCall]
  rw [onPipe_some hq, if_neg (not_not_intro hs), if_neg (not_not_intro ho)]
  by_cases hv : mi.isVoid = true <;> simp only [hv, if_true, nextCi]
  · rw [prepare_body (by simp [callBody]) hf]
    exact ⟨_, rfl, _, rfl, rfl, rfl, rfl, rfl⟩
  · refine ⟨p.ciCount, ?_⟩
    rw [prepare_body (by simp [callBody]) (by exact hf)]
    exact ⟨rfl, _, rfl, rfl, rfl, rfl, rfl⟩

-- a running and a stopped pipeline
example : (exampleClient .Opened).pipes[0]? = some examplePipe := rfl
example : ClientOp.step (exampleClient .Opened) (.pipeSendEof 1)
    = (exampleClient .Opened, .error .invalidPipelineState) := by decide +kernel
example : (ServerOp.step (exampleServer .Opened) (.pipeHostCall 0 .ReadLine { tag := 3 })).2
    = .ok (.ci 1) := by decide +kernel
-- an object that cannot be serialized yet
example : (ClientOp.step (exampleClient .Opened)
    (.pipeSend 0 (some (.val { tag := 4, needsKey := true })))).2 = .error .missingCipher := by
  decide +kernel

/-! ## C19: protocol version gates -/

/-- C19: `reset_runspace_state` is refused, without any effect, unless the peer is known to
speak version 2.3 or later. -/
theorem C19_reset_refused (p : Pool) (h : ¬ p.PeerAtLeast Pwsh5) :
    ClientOp.step p .resetRunspaceState = (p, .error .invalidProtocolVersion) := by
  simp [ClientOp.step, resetRunspaceState, (gate_iff p).mpr h, Res.ret, Except.map]

/-- C19: otherwise it is not refused for that reason. -/
theorem C19_reset_accepted (p : Pool) (h : p.PeerAtLeast Pwsh5) :
    (ClientOp.step p .resetRunspaceState).2 ≠ .error .invalidProtocolVersion := by
  have hv : ¬ p.theirVersion.lt Pwsh5 = true := by
    rw [gate_iff]; exact not_not_intro h
  refine avoids_ret ?_
  unfold resetRunspaceState
  rw [if_neg hv]
  split
  · simp [Avoids]
  · exact avoids_next (avoids_prepare rfl) fun _ _ _ => by simp [Avoids]

/-- C19: `write_information` is refused, without any effect, unless the peer is known to
speak version 2.3 or later. -/
theorem C19_information_refused (p : Pool) (n : Nat) (q : Pipe) (v : Val)
    (hq : p.pipes[n]? = some q) (h : ¬ p.PeerAtLeast Pwsh5) :
    ServerOp.step p (.pipeWriteRecord n .information v) = (p, .error .invalidProtocolVersion) := by
  simp [ServerOp.step, pipeWriteRecord, onPipe_some hq, (gate_iff p).mpr h, Res.ret, Except.map]

/-- C19: otherwise it is not refused for that reason, and no other record ever is. -/
theorem C19_record_accepted (p : Pool) (n : Nat) (q : Pipe) (k : RecordKind) (v : Val)
    (hq : p.pipes[n]? = some q) (h : k = .information → p.PeerAtLeast Pwsh5) :
    (ServerOp.step p (.pipeWriteRecord n k v)).2 ≠ .error .invalidProtocolVersion := by
  have : ¬ (k = .information ∧ p.theirVersion.lt Pwsh5 = true) := by
    rintro ⟨h1, h2⟩
    exact (gate_iff p).mp h2 (h h1)
  refine avoids_ret ?_
  unfold pipeWriteRecord
  rw [onPipe_some hq, if_neg this]
  split
  · simp [Avoids]
  · exact avoids_prepare rfl

-- a peer of version 2.2 (and one not heard of yet) is too old, one of version 2.3 is not
example : ¬ Pool.PeerAtLeast { exampleClient .Opened with theirs := none } Pwsh5 := by
  rintro ⟨c, h, _⟩; cases h
example : ¬ Pool.PeerAtLeast { exampleClient .Opened with
    theirs := some { ourCapability with protocolVersion := Pwsh3 } } Pwsh5 := by
  rintro ⟨c, h, hc⟩
  cases h
  exact hc (by simp [PSVersion.Before, Pwsh3, Pwsh5])
example : (exampleClient .Opened).PeerAtLeast Pwsh5 :=
  ⟨_, rfl, by simp [PSVersion.Before, ourCapability, Pwsh5, compBefore]⟩
example : (ClientOp.step (exampleClient .Opened) .resetRunspaceState).2 = .ok (.ci 1) := by
  decide +kernel

/-! ## C45: null pipeline input keeps its message type -/

/-- C45 as stated fails: `send(None)` queues a message of type PIPELINE_OUTPUT. -/
theorem C45_send_violated : ∃ (p : Pool) (h : Nat) (q : Pipe), p.pipes[h]? = some q ∧
    q.state = .Running ∧
    Sends p (ClientOp.step p (.pipeSend h none)) .none .PipelineOutput none (some q.pid) .default :=
  ⟨exampleClient .Opened, 0, _, rfl, rfl, rfl, _, rfl, rfl, rfl, rfl, rfl⟩

/-- C45: every object other than `None` and the internal end-of-input marker is queued as
PIPELINE_INPUT, if it is queued at all. Missing: `None`, for which the claim is false. -/
theorem C45_send_partial (p : Pool) (h : Nat) (q : Pipe) (o : Obj) (hq : p.pipes[h]? = some q)
    (hs : q.state = .Running) (ho : o ≠ .msg .endOfPipelineInput) :
    Sends p (ClientOp.step p (.pipeSend h (some o))) .none .PipelineInput (some o) (some q.pid)
      .default ∨
    ∃ e, ClientOp.step p (.pipeSend h (some o)) = (p, .error e) := by
  cases hf : o.serializeFails p.cipher with
  | none => exact Or.inl (C14_client_send p h q o hq hs ho hf)
  | some e =>
    right
    refine ⟨e, ?_⟩
    simp only [ClientOp.step, pipeSend, pipePrepare]
    rw [onPipe_some hq, if_neg (not_not_intro hs), prepare_fails ho hf]
    rfl

example : Sends (exampleClient .Opened)
    (ClientOp.step (exampleClient .Opened) (.pipeSend 0 (some (.val { tag := 4 })))) .none
    .PipelineInput (some (.val { tag := 4 })) (some EMPTY_UUID) .default :=
  
  C14_client_send _ 0 examplePipe (.val { tag := 4 }) rfl rfl (by simp) rfl

/-! ## C48: void host calls never wait for an answer -/

/-- C48: the void methods are exactly those without an answering method (all 56 of them). -/
theorem C48_void_iff_no_answer (m : HostMethod) : m.isVoid = true ↔ m.answeredBy = none := by
  cases m <;> decide

/-- C48: the numbers the methods travel as are 1 to 56, one for each method, so that the peer always knows which
method was called and by this whether to answer. -/
theorem C48_method_numbers :
    (∀ m n : HostMethod, m.value = n.value → m = n) ∧ ∀ v, (∃ m : HostMethod, m.value = v) ↔ 1 ≤ v ∧ v ≤ 56 := by
  have inj : ∀ m n : HostMethod, m.value = n.value → m = n := by
    have key : ∀ m : HostMethod, HostMethod.all.find? (fun x => x.value = m.value) = some m := by
      intro m; cases m <;> decide +kernel
    intro m n h
    have hm := key m
    rw [h, key n] at hm
    exact (Option.some.inj hm).symm
  have cover : ∀ v ∈ List.range' 1 56, ∃ m ∈ HostMethod.all, m.value = v := by decide +kernel
  refine ⟨inj, fun v => ⟨?_, fun h => ?_⟩⟩
  · rintro ⟨m, rfl⟩
    cases m <;> decide
  · obtain ⟨m, _, e⟩ := cover v (by simp [List.mem_range'_1]; omega)
    exact ⟨m, e⟩

/-- C48: a host call returns -100 exactly for the methods that return nothing, and takes a
call id exactly for the others. -/
theorem C48_hostCall (p : Pool) (m : HostMethod) (v : Val) (pid : Option UUID) (n : Int)
    (h : (ServerOp.step p (.hostCall m v pid)).2 = .ok (.ci n)) :
    (n = -100 ↔ m.answeredBy = none) ∧
    (ServerOp.step p (.hostCall m v pid)).1.ciCount =
      if m.answeredBy = none then p.ciCount else p.ciCount + 1 := by
  have hn : (p.hostCall m v pid).2 = .ok n := by
    simp only [ServerOp.step, Res.ret] at h
    cases hr : (p.hostCall m v pid).2 with
    | ok a => rw [hr] at h; simp [Except.map] at h; rw [h]
    | error e => rw [hr] at h; cases h
  obtain ⟨h1, h2⟩ := hostCall_ok hn
  simp only [← C48_void_iff_no_answer]
  refine ⟨?_, h2⟩
  rw [h1]
  split <;> simp_all

-- a void and a value returning method
example : (ServerOp.step (exampleServer .Opened) (.hostCall .WriteLine1 { tag := 3 } none)).2
    = .ok (.ci (-100)) := by decide +kernel
example : (ServerOp.step (exampleServer .Opened) (.hostCall .ReadLine { tag := 3 } none)).2
    = .ok (.ci 1) := by decide +kernel

end Verif
