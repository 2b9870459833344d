import Verif.Proof.States
import Verif.Proof.Keys
import Verif.Props.Session

/-! # C22: the state messages mirror the server -/

namespace Verif
open Pool Session

/-! ## The pool -/

/-- C22: each operation of a server that does not build state messages itself announces the state
of the pool it leads to, once, or announces nothing and leaves the state as it was or makes it one
of those that are not announced. Partial: an error given to `set_broken` has to be serializable,
see `C22_pool_violated`. -/
theorem C22_pool_step_partial (p : Pool) (hp : p.isClient = false) (op : ServerOp)
    (hr : op.NotRaw [.RunspacePoolState])
    (hb : ∀ v, op = .setBroken v → v.serializeFails p.cipher = none) :
    ∃ new, (op.step p).1.sendBuffer = p.sendBuffer ++ new ∧
      (poolStates new = [(op.step p).1.state] ∨
       poolStates new = [] ∧
        ((op.step p).1.state = p.state ∨ (op.step p).1.state.silent = true)) := by
  obtain ⟨new, h1, h2⟩ := step_announces hp hr hb
  refine ⟨new, h1, ?_⟩
  rcases h2 with h | h
  · exact Or.inr h
  · exact Or.inl h.1

/-- C22: over every history of a server the announced states of the pool are, but for repetitions,
the states the pool went through that are announced at all, in order, and the last one announced is
the last such state. Partial as before. -/
theorem C22_pool_partial (p : Pool) (hp : FreshServer p) (ops : List ServerOp)
    (hr : ∀ op ∈ ops, op.NotRaw [.RunspacePoolState])
    (hb : ∀ v, ServerOp.setBroken v ∈ ops → v.serializeFails (some p.sessionKey) = none) :
    squash (poolStates (runServer p ops).1.sendBuffer) =
      squash ((serverStates p ops).filter PoolState.announced) ∧
    (poolStates (runServer p ops).1.sendBuffer).getLast? =
      ((serverStates p ops).filter PoolState.announced).getLast? := by
  obtain ⟨_, _, h3, h4, _⟩ := states_run hp ops hr hb
  exact ⟨h3, h4⟩

theorem mirror_open {s : Session} (h : OpenSession s) : Mirror s := by
  have g := good_open h
  obtain ⟨k, ds, hk, hd, hs, hdr⟩ := h
  obtain ⟨h1, h2, _⟩ := C21_handshake k hk ds hd s hs hdr
  have ht : s.toClient = [] := by simp [toClient, hdr.2]
  have hk := (keys_config k).run (.client .open_ :: ds) (fun op ho => by
    rcases List.mem_cons.mp ho with rfl | ho
    · trivial
    · have := hd op ho
      cases op <;> first | trivial | exact this.elim)
  rw [← hs] at hk
  exact { cl := g.cl, sv := g.sv, sciph := by rw [hk.scipher]; rfl, cst := by rw [h1]; simp, posC := g.posC,
          toC := by rw [ht]; simp, agree := by rw [ht, h1, h2]; simp [poolStates] }

/-- C22: in an open session, whatever is called on either side, as long as the client does not
close, disconnect or reconnect the pool itself, once nothing is in flight the client reports the
state of the server's pool, if that is a state that is announced. Partial: an error given to
`set_broken` has to be one that can be sent and read, see `C22_pool_violated` and
`C22_session_violated`. -/
theorem C22_session_partial (s0 : Session) (h0 : OpenSession s0) (ops : List SessionOp)
    (ha : ∀ op ∈ ops, op.IsApi) (hm : ∀ op ∈ ops, op.Mirrored) (s : Session)
    (hs : s = (s0.run ops).1) (hd : s.Drained) (hann : s.server.state.announced = true) :
    s.client.state = s.server.state := by
  have g := (mirror_open h0).run ops ha hm
  rw [← hs] at g
  have := g.agree hann
  rw [show s.toClient = [] from by simp [toClient, hd.2]] at this
  exact this

/-- C22 fails for an error that cannot be serialized: the server's pool is broken, no message says
so, and the client still takes the pool for opened when everything was delivered. -/
theorem C22_pool_violated :
    ∃ (s0 : Session) (v : Val) (s : Session), OpenSession s0 ∧
      s = (s0.run [.server (.setBroken v)]).1 ∧ s.Drained ∧
      s.server.sendBuffer = s0.server.sendBuffer ∧
      s.server.state = .Broken ∧ s.client.state = .Opened :=
  ⟨exampleOpen, { tag := 1, serializeError := some 1 }, _, exampleOpen_open, rfl,
    by unfold Drained; decide +kernel, by decide +kernel, by decide +kernel, by decide +kernel⟩

/-- C22 fails for an error that can be sent but not read: the message is sent and delivered, the
client raises and still takes the pool for opened. Errors like that exist, for instance one whose text
has a lone surrogate (`C23_violated`). -/
theorem C22_session_violated :
    ∃ (s0 : Session) (v : Val) (s : Session), OpenSession s0 ∧
      s = (s0.run [.server (.setBroken v), .toClient]).1 ∧ s.Drained ∧
      poolStates s.server.sendBuffer = poolStates s0.server.sendBuffer ++ [.Broken] ∧
      (.toClient, .error (.raised 1)) ∈ (s0.run [.server (.setBroken v), .toClient]).2 ∧
      s.server.state = .Broken ∧ s.client.state = .Opened :=
  ⟨exampleOpen, { tag := 1, deserializeError := some 1 }, _, exampleOpen_open, rfl,
    by unfold Drained; decide +kernel, by decide +kernel, by decide +kernel, by decide +kernel,
    by decide +kernel⟩

/-! ## Pipelines -/

/-- C22: each operation of a server that does not build state messages itself leaves the existing
pipelines and their states alone and announces no pipeline state, or announces one state for one
pipeline object, which is then in that state while all others are unchanged. -/
theorem C22_pipe_step (p : Pool) (hp : p.isClient = false) (op : ServerOp)
    (hr : op.NotRaw [.PipelineState]) :
    ∃ new, (op.step p).1.sendBuffer = p.sendBuffer ++ new ∧
      ((∀ pid, pipeStates pid new = []) ∧
          (∀ h, h < p.pipes.length → (op.step p).1.pipeState h = p.pipeState h) ∨
       ∃ h q s, p.pipes[h]? = some q ∧ pipeStates q.pid new = [s] ∧
          (∀ pid, pid ≠ q.pid → pipeStates pid new = []) ∧
          (op.step p).1.pipeState h = some s ∧
          ∀ h', h' ≠ h → (op.step p).1.pipeState h' = p.pipeState h') := by
  obtain ⟨new, h1, h2⟩ := step_pipes hp hr
  have hst : ∀ (x : Pool) (h : Nat), x.pipeState h = ((view x)[h]?).map Prod.snd := by
    intro x h; simp [pipeState, view]; rfl
  refine ⟨new, h1, ?_⟩
  rcases h2 with ⟨h2, hv⟩ | ⟨h, q, s, m, e, hq, hv, rfl, ht, hp, hc, _⟩
  · refine Or.inl ⟨fun pid => pipeStates_quiet h2, fun h hh => ?_⟩
    rw [hst, hst]
    rcases hv with hv | ⟨pid, _, hv⟩
    · rw [hv]
    · rw [hv, List.getElem?_append_left (by rw [view_length]; exact hh)]
  · refine Or.inr ⟨h, q, s, hq, by simp [pipeStates, ht, hc, hp], fun pid hpid => ?_, ?_, fun h' hh => ?_⟩
    · simp [pipeStates, ht, hc, hp, hpid.symm]
    · simp [pipeState, hv, hq]
    · simp [pipeState, hv, hh.symm]

/-- C22: a client that receives a pipeline state message for one of its listed pipelines puts that
pipeline into the announced state, and the other pipelines stay as they are. -/
theorem C22_client_pipe (p : Pool) (m : Msg) (st : PipeState) (e : Option Val) (pid : UUID) (h : Nat)
    (ht : m.type = .PipelineState) (hc : m.content = some (.msg (.pipelineState st e)))
    (he : ∀ v, e = some v → v.deserializeFails = none) (hpid : m.pid = some pid)
    (hl : p.table.get? pid = some h) (hh : h < p.pipes.length) :
    ((ClientOp.recv m).step p).2 = .ok (.event m) ∧
    ((ClientOp.recv m).step p).1.pipeState h = some st ∧
    ∀ h', h' ≠ h → ((ClientOp.recv m).step p).1.pipeState h' = p.pipeState h' := by
  have hdf : Obj.deserializeFails (.msg (.pipelineState st e)) = none := by
    cases e with
    | none => simp [Obj.deserializeFails, Obj.vals, Body.vals]
    | some v => simp [Obj.deserializeFails, Obj.vals, Body.vals, he v rfl]
  have hstep : (ClientOp.recv m).step p =
      (p.updPipe h fun q => { q with state := st }, .ok (.event m)) := by
    simp only [ClientOp.step, Res.ret, recvClient, decode]
    rw [if_neg (by rw [ht]; simp), hc]
    simp only [hdf, processClient, ht, clientPipelineState]
    rw [hpid]
    simp only [Option.bind_some, hl]
    rfl
  rw [hstep]
  refine ⟨rfl, ?_, fun h' hne => ?_⟩
  · simp [pipeState, updPipe, List.getElem?_eq_getElem hh]
  · simp [pipeState, updPipe, hne.symm]

/-- C22: in a session, from any moment at which a client pipeline and a server pipeline are the
only ones with some id, and the client lists its one: whatever is called on either side, as long as
the program does not start, stop or close that client pipeline itself and makes no other with the
same id, once nothing is in flight and the server announced a state of it since that moment, the
client's pipeline is in the same state as the server's. -/
theorem C22_pipe_session (k : Config) (ops0 : List SessionOp) (ha0 : ∀ op ∈ ops0, op.IsApi)
    (s0 : Session) (hs0 : s0 = (k.session.run ops0).1) (pid : UUID) (hpid : pid ≠ EMPTY_UUID)
    (hc hs : Nat) (hpair : Paired pid hc hs s0) (ops : List SessionOp)
    (ha : ∀ op ∈ ops, op.IsApi) (hl : ∀ op ∈ ops, op.Leaves pid hc)
    (s : Session) (hrun : s = (s0.run ops).1) (hd : s.Drained)
    (hnew : pipeStates pid (s.server.sendBuffer.drop s0.server.sendBuffer.length) ≠ []) :
    s.client.pipeState hc = s.server.pipeState hs ∧ s.client.pipeState hc ≠ none := by
  have gl : Linked s0 := by rw [hs0]; exact (linked_config k).run ops0 ha0
  have hpids : ∀ (x : Pool) (h : Nat), (x.pipes.map (·.pid))[h]? = ((view x)[h]?).map Prod.fst := by
    intro x h; simp [view]; rfl
  have hex : ∀ (x : Pool) (h : Nat), (x.pipes.map (·.pid))[h]? = some pid →
      ∃ st, (view x)[h]? = some (pid, st) := by
    intro x h hx
    rw [hpids] at hx
    cases hv : (view x)[h]? with
    | none => rw [hv] at hx; cases hx
    | some y => rw [hv] at hx; simp at hx; exact ⟨y.2, by rw [← hx]⟩
  have hof : ∀ (x : Pool) (h : Nat) (st : PipeState), (view x)[h]? = some (pid, st) →
      (x.pipes.map (·.pid))[h]? = some pid := by
    intro x h st hx; rw [hpids, hx]; rfl
  obtain ⟨cst, h1⟩ := hex _ _ hpair.client
  obtain ⟨sst, h2⟩ := hex _ _ hpair.server
  have g : Twin pid hc hs s0.server.sendBuffer.length s0 cst sst :=
    ⟨gl, ⟨hpair.listed, h1, fun h st' hh => hpair.oneClient h (hof _ _ _ hh), gl.cl⟩, h2,
      fun h st' hh => hpair.oneServer h (hof _ _ _ hh), Nat.le_refl _, Or.inl (by simp [pipeStates])⟩
  obtain ⟨c', s', g'⟩ := g.run hpid ops ha hl
  rw [← hrun] at g'
  have hst : ∀ (x : Pool) (h : Nat), x.pipeState h = ((view x)[h]?).map Prod.snd := by
    intro x h; simp [pipeState, view]; rfl
  have := g'.agree.resolve_left hnew
  rw [show s.toClient = [] from by simp [toClient, hd.2]] at this
  rw [hst, hst, g'.client.state, g'.server]
  exact ⟨congrArg some this, by simp⟩

/-! ## Examples -/

/-- The server closes the pool after it was disconnected and reconnected. -/
def exampleStates : List SessionOp :=
  [.server (.base .beginDisconnect), .server (.base .disconnect), .server (.base .reconnect),
   .server (.setBroken { tag := 3 }), .toClient, .toClient]

example : (∀ op ∈ exampleStates, op.IsApi) ∧ (∀ op ∈ exampleStates, op.Mirrored) := by
  constructor
  · simp [exampleStates, SessionOp.IsApi]
  · simp [exampleStates, SessionOp.Mirrored, Val.Plain, ClientOp.changesPool]
example : (exampleOpen.run exampleStates).1.Drained ∧
    (exampleOpen.run exampleStates).1.server.state.announced = true ∧
    (exampleOpen.run exampleStates).1.client.state = .Broken := by
  unfold Drained; decide +kernel

/-- A history of a server alone. -/
def exampleServerStates : List ServerOp :=
  [.receiveData, .base .beginDisconnect, .base .beginClose, .base .close, .base .close]

example : serverStates exampleConfig.server exampleServerStates =
    [.Opening, .Disconnecting, .Closing, .Closed, .Closed] ∧
  poolStates (runServer exampleConfig.server exampleServerStates).1.sendBuffer =
    [.Closing, .Closed, .Closed] := by decide +kernel

/-- An id for the examples. -/
def examplePid : UUID := ⟨List.replicate 16 9, by decide⟩

/-- Both sides make a pipeline, and the client starts its one. -/
def examplePair : List SessionOp :=
  [.client .open_, .toServer, .toClient, .toServer, .toClient, .toClient,
   .client (.newPipe examplePid .powerShell { tag := 5 }), .client (.pipeStart 0), .toServer,
   .server (.newPipe examplePid), .client (.base (.pipeBeginStop 0))]

example : (∀ op ∈ examplePair, op.IsApi) ∧
    examplePid ≠ EMPTY_UUID ∧
    (exampleConfig.session.run examplePair).1.client.pipeState 0 = some .Stopping := by
  refine ⟨by simp [examplePair, SessionOp.IsApi], by decide, by decide +kernel⟩
example : Paired examplePid 0 0 (exampleConfig.session.run examplePair).1 where
  client := by decide +kernel
  server := by decide +kernel
  oneClient := by
    intro h hh
    have : (exampleConfig.session.run examplePair).1.client.pipes.map (·.pid) = [examplePid] := by decide +kernel
    rw [this] at hh
    rcases h with _ | h <;> simp_all
  oneServer := by
    intro h hh
    have : (exampleConfig.session.run examplePair).1.server.pipes.map (·.pid) = [examplePid] := by decide +kernel
    rw [this] at hh
    rcases h with _ | h <;> simp_all
  listed := by decide +kernel

/-- The server runs and stops the pipeline. -/
def examplePipeRun : List SessionOp :=
  [.server (.pipeStart 0), .toClient, .server (.pipeStop 0), .toClient]

example : ((exampleConfig.session.run examplePair).1.run examplePipeRun).1.Drained ∧
    ((exampleConfig.session.run examplePair).1.run examplePipeRun).1.client.pipeState 0 = some .Stopped := by
  unfold Drained; decide +kernel

end Verif
