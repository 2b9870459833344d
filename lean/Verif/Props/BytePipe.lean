import Verif.Props.ByteHost

/-!
# C22 for the pipelines of pools that exchange bytes

`C22_pipe_session` for two pools that exchange bytes, by C73.
-/

namespace Verif
open Pool Session

/-- The two pools, whatever is on the way. -/
def ByteSession.pools (b : ByteSession) : Session := { client := b.client.pool, server := b.server.pool }

/-- The step does not start, stop or close the client pipeline `hc` and makes no further pipeline object with the id `pid`, see
`SessionOp.Leaves`. -/
def ByteOp.Leaves (pid : UUID) (hc : Nat) : ByteOp → Prop
  | .client op => (SessionOp.client op).Leaves pid hc
  | .server op => (SessionOp.server op).Leaves pid hc
  | _ => True

private theorem observed_leaves (K : Codec) (b : ByteSession) (pid : UUID) (hc : Nat) (ops : List ByteOp) (h : ∀ op ∈ ops, op.Leaves pid hc) :
    ∀ op ∈ (observed (b.run K ops).2).map Prod.fst, op.Leaves pid hc := by
  intro op ho
  obtain ⟨x, hx, rfl⟩ := List.mem_map.mp ho
  obtain ⟨y, hy, hl⟩ := observed_mem hx
  have hm : y.1 ∈ ops := by rw [← run_ops K b ops]; exact List.mem_map_of_mem hy
  have hk := h y.1 hm
  obtain ⟨op, r⟩ := y
  cases op <;> cases r <;> simp [lift, observed] at hl
  all_goals subst hl
  all_goals first | exact hk | trivial

/-- C22 for bytes: from any moment of a history at which a client pipeline and a server pipeline are the only ones with some id, and the
client lists its one: whatever is called on either side, as long as the program does not start, stop or close that client pipeline itself and
makes no other with the same id, once all bytes were sent, passed on and read and the server announced a state of it since that moment, the
client's pipeline is in the same state as the server's. At the first moment messages may be on the way, in part or whole. Missing: see
`C73_session_partial`. -/
theorem C22_bytes_pipe_partial (K : Codec) (k : Config) (ops0 ops : List ByteOp) (ha0 : ∀ op ∈ ops0, op.IsApi) (ha : ∀ op ∈ ops, op.IsApi)
    (b0 b : ByteSession) (hb0 : b0 = ((ByteSession.of k.session).run K ops0).1) (hb : b = (b0.run K ops).1) (hsend : b.Sendable K)
    (hcalm : (ByteSession.of k.session).Calm K (ops0 ++ ops)) (pid : UUID) (hpid : pid ≠ EMPTY_UUID) (hc hs : Nat)
    (hpair : Paired pid hc hs b0.pools) (hl : ∀ op ∈ ops, op.Leaves pid hc) (hq : b.Quiet K)
    (hnew : pipeStates pid (b.server.pool.sendBuffer.drop b0.server.pool.sendBuffer.length) ≠ []) :
    b.client.pool.pipeState hc = b.server.pool.pipeState hs ∧ b.client.pool.pipeState hc ≠ none := by
  have hall : b = ((ByteSession.of k.session).run K (ops0 ++ ops)).1 := by rw [hb, hb0, ByteSession.run_append]
  have hd0 : k.session.Drained := ⟨rfl, rfl⟩
  have hcall0 : ∀ op ∈ ops0, op.IsCall := fun op h => isApi_call (ha0 op h)
  have hcall : ∀ op ∈ ops0 ++ ops, op.IsCall := by
    intro op h
    rcases List.mem_append.mp h with h | h
    · exact hcall0 op h
    · exact isApi_call (ha op h)
  have hgrow := run_grows K b0 ops
  rw [← hb] at hgrow
  have hsend0 : b0.Sendable K := ⟨fun m h => hsend.1 m (hgrow.1.subset h), fun m h => hsend.2 m (hgrow.2.subset h)⟩
  obtain ⟨t0, -⟩ := tracks_run (tracks_of K hd0) ops0 hcall0 (by rw [← hb0]; exact hsend0)
    (fun before after h => hcalm before (after ++ ops) (by rw [h]; simp))
  obtain ⟨t, -⟩ := tracks_run (tracks_of K hd0) (ops0 ++ ops) hcall (by rw [← hall]; exact hsend) hcalm
  rw [← hb0] at t0
  rw [← hall] at t
  have hrun : (shadow K k.session (ByteSession.of k.session) (ops0 ++ ops)).1 =
      ((shadow K k.session (ByteSession.of k.session) ops0).1.run ((observed (b0.run K ops).2).map Prod.fst)).1 := by
    unfold shadow
    rw [ByteSession.run_append, observed_append, List.map_append, Session.run_append, hb0]
  have hview : ∀ {p q : Pool}, SeenAs p q → p.pipes = q.pipes ∧ p.sendBuffer = q.sendBuffer := by
    intro p q h
    rcases h with rfl | ⟨_, rfl⟩ <;> exact ⟨rfl, rfl⟩
  have v0 := hview t0.server
  have v := hview t.server
  have hp : Paired pid hc hs (shadow K k.session (ByteSession.of k.session) ops0).1 :=
    { client := by rw [t0.client]; exact hpair.client
      server := by rw [v0.1]; exact hpair.server
      oneClient := by rw [t0.client]; exact hpair.oneClient
      oneServer := by rw [v0.1]; exact hpair.oneServer
      listed := by rw [t0.client]; exact hpair.listed }
  have hfin := C22_pipe_session k _ (observed_api K _ ops0 ha0) (shadow K k.session (ByteSession.of k.session) ops0).1 rfl pid hpid hc hs hp _
    (observed_api K b0 ops ha) (observed_leaves K b0 pid hc ops hl) _ hrun (tracks_quiet t hsend hq) (by rw [v.2, v0.2]; exact hnew)
  simp only [Pool.pipeState] at hfin ⊢
  rw [t.client, v.1] at hfin
  exact hfin

/-! ## Examples -/

/-- The objects of the example. -/
def pipeObjs : List Obj :=
  [.msg (.sessionCapability ourCapability), .msg (.initRunspacePool 1 5 3 2 { tag := 4 } { tag := 1 }),
   .msg (.applicationPrivateData { tag := 7 }), .msg (.runspacePoolState .Opened none), .msg (.createPipeline { tag := 5 }),
   .msg (.pipelineState .Running none), .msg (.pipelineState .Stopped (some { tag := 0 }))]

/-- Both sides make a pipeline, and the client starts its one and stops it. -/
def examplePairBytes : List ByteOp :=
  [.client .open_] ++ upAll ++ downAll ++ upAll ++ downAll ++
  [.client (.newPipe examplePid .powerShell { tag := 5 }), .client (.pipeStart 0)] ++ upAll ++
  [.server (.newPipe examplePid), .client (.base (.pipeBeginStop 0))]

/-- The server runs and stops the pipeline. -/
def examplePipeBytes : List ByteOp := [.server (.pipeStart 0)] ++ downAll ++ [.server (.pipeStop 0)] ++ downAll

/-- Where the example begins. -/
def examplePairAt : ByteSession := ((ByteSession.of exampleConfig.session).run (tableCodec pipeObjs) examplePairBytes).1

example : (∀ op ∈ examplePairBytes, op.IsApi) ∧ (∀ op ∈ examplePipeBytes, op.IsApi) ∧ (∀ op ∈ examplePipeBytes, op.Leaves examplePid 0) := by
  simp [examplePairBytes, examplePipeBytes, upAll, downAll, ByteOp.IsApi, SessionOp.IsApi, ByteOp.Leaves, SessionOp.Leaves]
example : (ByteSession.of exampleConfig.session).Calm (tableCodec pipeObjs) (examplePairBytes ++ examplePipeBytes) := by
  intro before after h
  have : ByteOp.server .connect ∈ examplePairBytes ++ examplePipeBytes := by rw [h]; simp
  exact absurd this (by decide)
example : Paired examplePid 0 0 examplePairAt.pools where
  client := by decide +kernel
  server := by decide +kernel
  oneClient := by
    intro h hh
    have : examplePairAt.pools.client.pipes.map (·.pid) = [examplePid] := by decide +kernel
    rw [this] at hh
    rcases h with _ | h <;> simp_all
  oneServer := by
    intro h hh
    have : examplePairAt.pools.server.pipes.map (·.pid) = [examplePid] := by decide +kernel
    rw [this] at hh
    rcases h with _ | h <;> simp_all
  listed := by decide +kernel
example : (examplePairAt.run (tableCodec pipeObjs) examplePipeBytes).1.Sendable (tableCodec pipeObjs) ∧
    (examplePairAt.run (tableCodec pipeObjs) examplePipeBytes).1.Quiet (tableCodec pipeObjs) ∧
    pipeStates examplePid ((examplePairAt.run (tableCodec pipeObjs) examplePipeBytes).1.server.pool.sendBuffer.drop
      examplePairAt.server.pool.sendBuffer.length) = [.Running, .Stopped] ∧
    examplePairAt.client.pool.pipeState 0 = some .Stopping ∧
    (examplePairAt.run (tableCodec pipeObjs) examplePipeBytes).1.client.pool.pipeState 0 = some .Stopped := by decide +kernel

end Verif
