import Verif.Proof.History
import Verif.Props.Guards

/-! # Histories of a pool (C11, C13, C15, C16, C19, C48) -/

namespace Verif
open Pool

/-! ## C11: object ids are unique and increasing -/

/-- C11 for a client: along the queue (in queueing order, see `C11_client_appends`) the object
ids strictly increase, after any history. -/
theorem C11_client (p : Pool) (hp : FreshClient p) (ops : List ClientOp) :
    ((runClient p ops).1.sendBuffer.map (·.oid)).Pairwise (· < ·) := by
  have h : OidInv (runClient p ops).1 := by
    induction ops using snoc_induction with
    | h0 => obtain ⟨_, _, _, _, _, _, _, _, rfl⟩ := hp; simp [OidInv, runClient, newClient]
    | h1 ops op ih => rw [runClient_snoc]; exact step_client (oidInv_client op) ih
  rw [List.pairwise_map]
  exact h.1

/-- C11: an operation of a client only appends to the queue. -/
theorem C11_client_appends (p : Pool) (op : ClientOp) :
    p.sendBuffer <+: (op.step p).1.sendBuffer :=
  step_client (extends_client p.sendBuffer op) (List.prefix_refl _)

/-- C11 for a server, in histories without `connect`. Missing: `connect` starts the ids
over (`C11_server_violated`). -/
theorem C11_server_partial (p : Pool) (hp : FreshServer p) (ops : List ServerOp)
    (hc : ServerOp.connect ∉ ops) :
    ((runServer p ops).1.sendBuffer.map (·.oid)).Pairwise (· < ·) := by
  have h : OidInv (runServer p ops).1 := by
    induction ops using snoc_induction with
    | h0 => obtain ⟨_, _, rfl⟩ := hp; simp [OidInv, runServer, newServer]
    | h1 ops op ih =>
      rw [runServer_snoc]
      refine step_server (oidInv_server op ?_) (ih (by simp_all))
      rintro rfl
      simp at hc
  rw [List.pairwise_map]
  exact h.1

/-- C11: an operation of a server only appends to the queue. -/
theorem C11_server_appends (p : Pool) (op : ServerOp) :
    p.sendBuffer <+: (op.step p).1.sendBuffer :=
  step_server (extends_server p.sendBuffer op) (List.prefix_refl _)

/-- The messages of a client opening a pool, for the examples. -/
def exampleOpening : List ServerOp :=
  [.recv { type := .SessionCapability, content := some (.msg (.sessionCapability ourCapability)),
           rpid := EMPTY_UUID, pid := none, oid := 1 },
   .recv { type := .InitRunspacePool,
           content := some (.msg (.initRunspacePool 1 2 0 0 { tag := 0 } { tag := 0 })),
           rpid := EMPTY_UUID, pid := none, oid := 2 }]

/-- C11 as stated fails for a server: `connect` resets the counter, so ids are used again. -/
theorem C11_server_violated : ∃ p ops, FreshServer p ∧
    ¬ ((runServer p ops).1.sendBuffer.map (·.oid)).Pairwise (· < ·) :=
  ⟨newServer { tag := 0 } 0,
   exampleOpening ++ [.base .disconnect, .connect,
    .recv { type := .ConnectRunspacePool, content := some (.msg (.connectRunspacePool none none)),
            rpid := EMPTY_UUID, pid := none, oid := 3 }],
   ⟨_, _, rfl⟩, by decide +kernel⟩

-- five messages in the history of an opening server
example : ((runServer (newServer { tag := 0 } 0)
    (exampleOpening ++ [.sendEvent { tag := 1 }, .requestKey])).1.sendBuffer.map (·.oid))
    = [1, 2, 3, 4, 5] := by decide +kernel
example : ((runClient (newClient EMPTY_UUID { tag := 1 } 0 0 none 1 5 7) [.open_]).1.sendBuffer.map
    (·.oid)) = [1, 2] := by decide +kernel

/-! ## C13: a pool with live pipelines cannot be closed -/

/-- C13 for a client: as long as some pipeline it created is not closed, `close` fails with
`PSRPCoreError` and changes nothing. The pipelines have different ids. -/
theorem C13_client_live (p : Pool) (hp : FreshClient p) (ops : List ClientOp)
    (hd : (clientPids ops).Nodup) (h : Nat) (hl : ClientTrace.Live (runClient p ops).2 h) :
    ClientOp.step (runClient p ops).1 (.base .close) = ((runClient p ops).1, .error .psrpCore) := by
  obtain ⟨_, h2, h3, _⟩ := client_live p hp ops hd
  have : (runClient p ops).1.table ≠ [] := by
    intro he
    exact (tableInv_empty h3 fun n hn => h2 ▸ hn.1).mp he h hl
  simp [ClientOp.step, BaseOp.step, close, this, Res.ret, Except.map]

/-- C13 for a client: once all its pipelines are closed, `close` succeeds in the states
Opened, Closing and Closed. -/
theorem C13_client_closed (p : Pool) (hp : FreshClient p) (ops : List ClientOp)
    (hd : (clientPids ops).Nodup) (hl : ∀ h, ¬ ClientTrace.Live (runClient p ops).2 h)
    (hs : (runClient p ops).1.state ∈ [PoolState.Opened, .Closing, .Closed]) :
    (ClientOp.step (runClient p ops).1 (.base .close)).2 = .ok .none ∧
    (ClientOp.step (runClient p ops).1 (.base .close)).1.state = .Closed := by
  obtain ⟨_, h2, h3, _⟩ := client_live p hp ops hd
  have ht := (tableInv_empty h3 fun n hn => h2 ▸ hn.1).mpr hl
  have hs' : (runClient p ops).1.state ∈ [PoolState.Closed, .Closing, .Opened] := by
    revert hs; generalize (runClient p ops).1.state = s; revert s; simp
  simp only [ClientOp.step, BaseOp.step, close]
  rw [if_neg (not_not_intro ht), if_neg (not_not_intro hs')]
  refine ⟨?_, keeps_state_change⟩
  unfold changeState
  split
  · rfl
  · rfl

/-- C13 for a server: as long as some pipeline it created is not closed, `close` fails with
`PSRPCoreError` and changes nothing. The pipelines have different ids. -/
theorem C13_server_live (p : Pool) (hp : FreshServer p) (ops : List ServerOp)
    (hd : (serverPids ops).Nodup) (h : Nat) (hl : ServerTrace.Live (runServer p ops).2 h) :
    ServerOp.step (runServer p ops).1 (.base .close) = ((runServer p ops).1, .error .psrpCore) := by
  obtain ⟨_, h2, h3, _⟩ := server_live p hp ops hd
  have : (runServer p ops).1.table ≠ [] := by
    intro he
    exact (tableInv_empty h3 fun n hn => h2 ▸ hn.1).mp he h hl
  simp [ServerOp.step, BaseOp.step, close, this, Res.ret, Except.map]

/-- C13 for a server: once all its pipelines are closed, `close` succeeds in the states
Opened, Closing and Closed. -/
theorem C13_server_closed (p : Pool) (hp : FreshServer p) (ops : List ServerOp)
    (hd : (serverPids ops).Nodup) (hl : ∀ h, ¬ ServerTrace.Live (runServer p ops).2 h)
    (hs : (runServer p ops).1.state ∈ [PoolState.Opened, .Closing, .Closed]) :
    (ServerOp.step (runServer p ops).1 (.base .close)).2 = .ok .none ∧
    (ServerOp.step (runServer p ops).1 (.base .close)).1.state = .Closed := by
  obtain ⟨_, h2, h3, _⟩ := server_live p hp ops hd
  have ht := (tableInv_empty h3 fun n hn => h2 ▸ hn.1).mpr hl
  have hs' : (runServer p ops).1.state ∈ [PoolState.Closed, .Closing, .Opened] := by
    revert hs; generalize (runServer p ops).1.state = s; revert s; simp
  simp only [ServerOp.step, BaseOp.step, close]
  rw [if_neg (not_not_intro ht), if_neg (not_not_intro hs')]
  refine ⟨?_, keeps_state_change⟩
  unfold changeState
  split
  · rfl
  · rfl

-- a client with one live and one closed pipeline, and with both closed
example : ClientTrace.created (runClient (newClient EMPTY_UUID { tag := 1 } 0 0 none 1 5 7)
    [.newPipe EMPTY_UUID .powerShell { tag := 1 }, .newPipe ⟨List.replicate 16 1, by decide⟩ .powerShell { tag := 2 },
     .base (.pipeClose 0)]).2 = 2 := by decide +kernel
example : ([ClientOp.base .beginClose, .base .close, .base (.pipeClose 1), .base .close].foldl
    (fun (r : Pool × List (Except Err Ret)) op => ((op.step r.1).1, r.2 ++ [(op.step r.1).2]))
    ((runClient (newClient EMPTY_UUID { tag := 1 } 0 0 none 1 5 7)
      [.newPipe EMPTY_UUID .powerShell { tag := 1 },
       .newPipe ⟨List.replicate 16 1, by decide⟩ .powerShell { tag := 2 }, .base (.pipeClose 0)]).1, [])).2
    = [.ok .none, .error .psrpCore, .ok .none, .ok .none] := by decide +kernel

/-- C13 needs pipelines with different ids: with two pipelines under the same id, closing one
removes the other from the table too, and the pool closes. -/
theorem C13_same_id_violated : ∃ (p : Pool) (ops : List ClientOp) (h : Nat), FreshClient p ∧
    ClientTrace.Live (runClient p ops).2 h ∧
    (ClientOp.step (runClient p ops).1 (.base .close)).2 = .ok .none := by
  refine ⟨newClient EMPTY_UUID { tag := 1 } 0 0 none 1 5 7,
    [.newPipe EMPTY_UUID .powerShell { tag := 1 }, .newPipe EMPTY_UUID .powerShell { tag := 2 },
     .base (.pipeClose 0), .base .beginClose], 1, ⟨_, _, _, _, _, _, _, _, rfl⟩, ⟨?_, ?_⟩, ?_⟩
  · decide +kernel
  · intro r hr
    simp [runClient] at hr
  · decide +kernel

/-! ## C15: call ids are never reused -/

/-- C15 for a client: the call ids handed out in any history are increasing, hence different,
and positive. -/
theorem C15_client (p : Pool) (hp : FreshClient p) (ops : List ClientOp) :
    (callIds (runClient p ops).2).Pairwise (· < ·) ∧ ∀ n ∈ callIds (runClient p ops).2, 1 ≤ n := by
  have h := client_callIds p ops
  obtain ⟨_, _, _, _, _, _, _, _, rfl⟩ := hp
  exact ⟨h.1, fun n hn => h.2 n hn⟩

/-- C15 for a server: in any part `ops` of its history without a `connect`, the call ids other
than the void marker are increasing, hence different, and positive. -/
theorem C15_server (p : Pool) (hp : FreshServer p) (before ops : List ServerOp)
    (hc : ServerOp.connect ∉ ops) :
    ((callIds (runServer (runServer p before).1 ops).2).filter (· ≠ -100)).Pairwise (· < ·) ∧
    ∀ n ∈ (callIds (runServer (runServer p before).1 ops).2), n = -100 ∨ 1 ≤ n := by
  have h1 : 1 ≤ (runServer p before).1.ciCount := by
    refine run_keeps_server' (I := fun p => 1 ≤ p.ciCount) (fun op => ciPositive_server op) before p ?_
    obtain ⟨_, _, rfl⟩ := hp
    simp [newServer]
  have := server_callIds (runServer p before).1 ops hc
  refine ⟨this.1, fun n hn => ?_⟩
  rcases this.2 n hn with h | h
  · exact Or.inl h
  · right; omega

/-- A void host call of a server gets -100, any other a positive id. -/
theorem C15_void (p : Pool) (hp : FreshServer p) (ops : List ServerOp) (m : HostMethod) (v : Val)
    (pid : Option UUID) (n : Int)
    (h : (ServerOp.step (runServer p ops).1 (.hostCall m v pid)).2 = .ok (.ci n)) :
    if m.isVoid then n = -100 else 1 ≤ n := by
  have h1 : 1 ≤ (runServer p ops).1.ciCount := by
    refine run_keeps_server' (I := fun p => 1 ≤ p.ciCount) (fun op => ciPositive_server op) ops p ?_
    obtain ⟨_, _, rfl⟩ := hp
    simp [newServer]
  obtain ⟨a, h2, h3⟩ := ret_ci h
  cases h3
  have := (hostCall_ok h2).1
  split <;> simp_all
  omega

/-- A new client and how it becomes `Opened` with a running pipeline, for the examples. -/
def exampleFreshClient : Pool := newClient EMPTY_UUID { tag := 1 } 0 0 none 1 5 7

/-- See `exampleFreshClient`. -/
def exampleClientOpening : List ClientOp :=
  [.open_,
   .recv { type := .SessionCapability, content := some (.msg (.sessionCapability ourCapability)),
           rpid := EMPTY_UUID, pid := none, oid := 1 },
   .recv { type := .ApplicationPrivateData,
           content := some (.msg (.applicationPrivateData { tag := 3 })),
           rpid := EMPTY_UUID, pid := none, oid := 2 },
   .recv { type := .RunspacePoolState, content := some (.msg (.runspacePoolState .Opened none)),
           rpid := EMPTY_UUID, pid := none, oid := 3 },
   .newPipe EMPTY_UUID .powerShell { tag := 9 }, .pipeStart 0]

/-- A host call of that pipeline. -/
def exampleHostCall : Msg :=
  { type := .PipelineHostCall, content := some (.msg (.pipelineHostCall 3 .ReadLine { tag := 0 })),
    rpid := EMPTY_UUID, pid := some EMPTY_UUID, oid := 7 }

-- a client that takes four call ids, one of them lost in a request that fails
example : FreshClient exampleFreshClient ∧ callIds (runClient exampleFreshClient
    (exampleClientOpening ++ [.getAvailableRunspaces, .setMaxRunspaces (2 ^ 31),
      .setMinRunspaces 3, .getAvailableRunspaces])).2 = [1, 3, 4] :=
  ⟨⟨_, _, _, _, _, _, _, _, rfl⟩, by decide +kernel⟩
example : callIds (runServer (newServer { tag := 0 } 0) (exampleOpening ++
    [.hostCall .ReadLine { tag := 1 } none, .hostCall .WriteLine1 { tag := 2 } none,
     .hostCall .ReadLine { tag := 1 } none])).2 = [1, -100, 2] := by decide +kernel

/-! ## C16: a host call is answered at most once -/

/-- C16: a client that is not `Opened`, or that has no call `ci` waiting, refuses a response,
and nothing is queued or changed. -/
theorem C16_unknown (p : Pool) (hp : FreshClient p) (ops : List ClientOp) (ci : Int)
    (a b : Option Val) (hw : ∀ m, ¬ Waiting (runClient p ops).2 ci m) :
    ∃ e, ClientOp.step (runClient p ops).1 (.hostResponse ci a b) =
      ((runClient p ops).1, .error e) ∧ (e = .keyError ∨ e = .invalidPoolState) := by
  have h := (waiting_iff p hp ops).2 ci
  have hn : (runClient p ops).1.ciEvents.get? ci = none := by
    cases hg : (runClient p ops).1.ciEvents.get? ci with
    | none => rfl
    | some m => exact absurd ((h m).mp hg) (hw m)
  simp only [ClientOp.step, hostResponse, hn]
  split
  · exact ⟨_, rfl, Or.inr rfl⟩
  · exact ⟨_, rfl, Or.inl rfl⟩

/-- The same for a response on a pipeline, which in addition has to be running. -/
theorem C16_unknown_pipeline (p : Pool) (hp : FreshClient p) (ops : List ClientOp) (h : Nat)
    (ci : Int) (a b : Option Val) (hw : ∀ m, ¬ Waiting (runClient p ops).2 ci m) :
    ∃ e, ClientOp.step (runClient p ops).1 (.pipeHostResponse h ci a b) =
      ((runClient p ops).1, .error e) := by
  obtain ⟨e, he, -⟩ := C16_unknown p hp ops ci a b hw
  generalize (runClient p ops).1 = q at *
  simp only [ClientOp.step, pipeHostResponse, onPipe] at *
  cases q.pipes[h]? with
  | none => exact ⟨_, rfl⟩
  | some x =>
    dsimp only
    split
    · exact ⟨_, rfl⟩
    · exact ⟨e, he⟩

/-- C16: no void call waits for an answer. -/
theorem C16_void (tr : ClientTrace) (m : Msg) : ¬ Waiting tr (-100) m := waiting_void

/-- C48 on the client: after any history, with void calls received or not, a response to the id -100 of
void calls is refused and changes nothing. -/
theorem C48_client (p : Pool) (hp : FreshClient p) (ops : List ClientOp) (a b : Option Val) (h : Nat) :
    (∃ e, ClientOp.step (runClient p ops).1 (.hostResponse (-100) a b) = ((runClient p ops).1, .error e)) ∧
    (∃ e, ClientOp.step (runClient p ops).1 (.pipeHostResponse h (-100) a b) =
      ((runClient p ops).1, .error e)) :=
  ⟨(C16_unknown p hp ops _ a b fun m => C16_void _ m).imp fun _ h => h.1,
   C16_unknown_pipeline p hp ops h _ a b fun m => C16_void _ m⟩

/-- The type and content of the response to the call `m` under `ci`: the response of a
pipeline goes with its id. -/
def IsResponseTo (m : Msg) (ci : Int) (a b : Option Val) (r : Msg) : Prop :=
  r.pid = m.pid ∧ r.stream = .prompt_response ∧
  ∃ mi, m.IsHostCall ci mi ∧
    ((m.pid ≠ none ∧ r.type = .PipelineHostResponse ∧
      r.content = some (.msg (.pipelineHostResponse ci mi a b))) ∨
     (m.pid = none ∧ r.type = .RunspacePoolHostResponse ∧
      r.content = some (.msg (.runspacePoolHostResponse ci mi a b))))

/-- C16: while the client is `Opened` and the call `m` waits under `ci`, a serializable
response queues exactly one message, the response to that call, and after that no call waits
under `ci`. -/
theorem C16_answer (p : Pool) (hp : FreshClient p) (ops : List ClientOp) (ci : Int)
    (a b : Option Val) (m : Msg) (hw : Waiting (runClient p ops).2 ci m)
    (hs : (runClient p ops).1.state = .Opened)
    (ha : ∀ v ∈ a.toList ++ b.toList, v.serializeFails (runClient p ops).1.cipher = none) :
    (∃ r, IsResponseTo m ci a b r ∧
      (runClient p (ops ++ [.hostResponse ci a b])).1.sendBuffer =
        (runClient p ops).1.sendBuffer ++ [r]) ∧
    ∀ m', ¬ Waiting (runClient p (ops ++ [.hostResponse ci a b])).2 ci m' := by
  obtain ⟨mi, hi⟩ := waiting_hostCall hw
  have hg := ((waiting_iff p hp ops).2 ci m).mpr hw
  rw [runClient_snoc]
  generalize (runClient p ops).1 = q at *
  generalize (runClient p ops).2 = tr at *
  have hf : (Obj.msg (responseBody m.pid ci mi a b)).serializeFails q.cipher = none := by
    have : (responseBody m.pid ci mi a b).vals = a.toList ++ b.toList := by
      unfold responseBody; cases m.pid <;> rfl
    simp only [Obj.serializeFails, Obj.vals, this, List.findSome?_eq_none_iff]
    exact ha
  have hm : hostCallOf m = some mi := by
    rcases hi with ⟨-, mp, hc⟩ | ⟨-, mp, hc⟩ <;> simp [hostCallOf, hc]
  have hstep : q.hostResponse ci a b = ({ q.queue (responseBody m.pid ci mi a b).type
      (some (.msg (responseBody m.pid ci mi a b))) m.pid .prompt_response with
        ciEvents := q.ciEvents.erase ci }, .ok ()) := by
    unfold hostResponse
    rw [if_neg (not_not_intro hs), hg]
    dsimp only
    rw [hm]
    dsimp only
    rw [prepare_body (by unfold responseBody; cases m.pid <;> simp) hf]
    rfl
  refine ⟨⟨_, ?_, by simp only [ClientOp.step, hstep]; rfl⟩, ?_⟩
  · refine ⟨rfl, rfl, mi, hi, ?_⟩
    cases hpid : m.pid with
    | none => exact Or.inr ⟨rfl, by simp [responseBody, Body.type], by simp [responseBody]⟩
    | some x => exact Or.inl ⟨by simp, by simp [responseBody, Body.type], by simp [responseBody]⟩
  · intro m' hw'
    rw [waiting_snoc] at hw'
    rcases hw' with ⟨h1, -⟩ | ⟨-, -, h1⟩
    · cases h1
    · obtain ⟨e, h2⟩ := h1 rfl
      simp only [ClientOp.step, hstep] at h2
      cases h2

/-- C16: the same on a running pipeline, whichever pipeline the response is given on. -/
theorem C16_answer_pipeline (p : Pool) (ops : List ClientOp) (h : Nat)
    (ci : Int) (a b : Option Val) (x : Pipe) (hx : (runClient p ops).1.pipes[h]? = some x)
    (hr : x.state = .Running) :
    ClientOp.step (runClient p ops).1 (.pipeHostResponse h ci a b) =
    ClientOp.step (runClient p ops).1 (.hostResponse ci a b) := by
  simp only [ClientOp.step, pipeHostResponse, onPipe_some hx]
  rw [if_neg (not_not_intro hr)]

/-- C16: a response that fails, for example because it does not serialize, queues nothing and
leaves the call waiting. -/
theorem C16_failed_keeps (p : Pool) (ops : List ClientOp) (ci : Int)
    (a b : Option Val) (m : Msg) (e : Err)
    (hw : Waiting (runClient p ops).2 ci m)
    (he : (ClientOp.step (runClient p ops).1 (.hostResponse ci a b)).2 = .error e) :
    (ClientOp.step (runClient p ops).1 (.hostResponse ci a b)).1 = (runClient p ops).1 ∧
    Waiting (runClient p (ops ++ [.hostResponse ci a b])).2 ci m := by
  constructor
  · rcases hostResponse_events (p := (runClient p ops).1) (ci := ci) (a := a) (b := b) with ⟨e', h⟩ | ⟨h, -⟩
    · simp only [ClientOp.step, h]; rfl
    · simp only [ClientOp.step, Res.ret, h] at he; cases he
  · rw [runClient_snoc, he, waiting_snoc]
    exact Or.inr ⟨hw, fun _ h => by (cases h), fun _ => ⟨e, rfl⟩⟩

/-- C16: a value that needs the session key which the client does not have is such a failure. -/
theorem C16_unserializable (p : Pool) (hp : FreshClient p) (ops : List ClientOp) (ci : Int)
    (a : Val) (b : Option Val) (m : Msg) (hw : Waiting (runClient p ops).2 ci m) (e : Err)
    (hs : (runClient p ops).1.state = .Opened)
    (ha : a.serializeFails (runClient p ops).1.cipher = some e) :
    (ClientOp.step (runClient p ops).1 (.hostResponse ci (some a) b)).2 = .error e := by
  obtain ⟨mi, hi⟩ := waiting_hostCall hw
  have hg := ((waiting_iff p hp ops).2 ci m).mpr hw
  generalize (runClient p ops).1 = q at *
  have hf : (Obj.msg (responseBody m.pid ci mi (some a) b)).serializeFails q.cipher = some e := by
    have : (responseBody m.pid ci mi (some a) b).vals = a :: b.toList := by
      unfold responseBody; cases m.pid <;> rfl
    simp only [Obj.serializeFails, Obj.vals, this, List.findSome?_cons, ha]
  have hm : hostCallOf m = some mi := by
    rcases hi with ⟨-, mp, hc⟩ | ⟨-, mp, hc⟩ <;> simp [hostCallOf, hc]
  simp only [ClientOp.step, hostResponse]
  rw [if_neg (not_not_intro hs), hg]
  dsimp only
  rw [hm]
  dsimp only
  rw [prepare_fails (by unfold responseBody; cases m.pid <;> simp) hf]
  rfl

/-- C16: between two successful answers under the same id a call with that id was received. -/
theorem C16_once (p : Pool) (hp : FreshClient p) (before ops : List ClientOp) (op op' : ClientOp)
    (ci : Int) (x y : Ret) (h1 : op.answers = some ci) (h2 : op'.answers = some ci)
    (hx : (op.step (runClient p before).1).2 = .ok x)
    (hy : (op'.step (runClient p (before ++ [op] ++ ops)).1).2 = .ok y) :
    ∃ m mi, ClientOp.recv m ∈ ops ∧ m.IsHostCall ci mi := by
  have hlast : ∃ m, Waiting (runClient p (before ++ [op] ++ ops)).2 ci m := by
    refine Classical.byContradiction fun hn => ?_
    have hn' : ∀ m, ¬ Waiting (runClient p (before ++ [op] ++ ops)).2 ci m := fun m h => hn ⟨m, h⟩
    cases op' <;> simp [ClientOp.answers] at h2
    · subst h2
      obtain ⟨e, he, -⟩ := C16_unknown p hp _ _ _ _ hn'
      rw [he] at hy; cases hy
    · subst h2
      obtain ⟨e, he⟩ := C16_unknown_pipeline p hp _ _ _ _ _ hn'
      rw [he] at hy; cases hy
  have hfirst : ∀ m, ¬ Waiting (runClient p (before ++ [op])).2 ci m := by
    intro m hw
    rw [runClient_snoc, hx, waiting_snoc] at hw
    rcases hw with ⟨rfl, -⟩ | ⟨-, -, h⟩
    · cases h1
    · obtain ⟨e, he⟩ := h h1; cases he
  refine Classical.byContradiction fun hno => ?_
  have hno' : ∀ m, ClientOp.recv m ∈ ops → callId m ≠ some ci := fun m hm hc => by
    obtain ⟨mi, hi⟩ := (callId_iff m ci).mp hc
    exact hno ⟨m, mi, hm, hi⟩
  clear hy hno
  obtain ⟨m, hm⟩ := hlast
  induction ops using snoc_induction with
  | h0 => simp at hm; exact hfirst m hm
  | h1 ops o ih =>
    rw [← List.append_assoc, runClient_snoc, waiting_snoc] at hm
    rcases hm with ⟨rfl, -, h3, -⟩ | ⟨h3, -⟩
    · exact hno' m (by simp) h3
    · exact ih (fun m' hm' => hno' m' (by simp [hm'])) h3

/-- A received host call with an id other than the void marker waits. -/
theorem C16_received (p : Pool) (ops : List ClientOp) (m : Msg) (ci : Int)
    (mi : HostMethod) (hm : m.IsHostCall ci mi) (hv : ci ≠ -100)
    (hr : (ClientOp.step (runClient p ops).1 (.recv m)).2 = .ok (.event m)) :
    Waiting (runClient p (ops ++ [.recv m])).2 ci m := by
  rw [runClient_snoc, hr]
  exact .received _ m ci mi hm hv

-- a pipeline host call answered, first with a value that needs the session key, then with a
-- plain one, then again
example : ((runClient exampleFreshClient (exampleClientOpening ++
    [.recv exampleHostCall,
     .hostResponse 3 (some { tag := 4, needsKey := true }) none,
     .pipeHostResponse 0 3 (some { tag := 5 }) none,
     .hostResponse 3 (some { tag := 5 }) none])).2.drop 6).map Prod.snd
    = [.ok (.event exampleHostCall), .error .missingCipher, .ok .none, .error .keyError] := by
  decide +kernel

-- so the hypotheses of the theorems about a waiting call are met after `recv`
example : Waiting (runClient exampleFreshClient (exampleClientOpening ++ [.recv exampleHostCall])).2
      3 exampleHostCall ∧
    (runClient exampleFreshClient (exampleClientOpening ++ [.recv exampleHostCall])).1.state
      = .Opened :=
  ⟨C16_received _ _ _ 3 .ReadLine (Or.inl ⟨rfl, _, rfl⟩) (by decide) (by decide +kernel),
   by decide +kernel⟩

/-! ## C19: the peer's version is the one of its capability -/

/-- What decides C19 is the protocol version of the last capability the client received. -/
theorem C19_client_peer (p : Pool) (hp : FreshClient p) (ops : List ClientOp) :
    (runClient p ops).1.theirs = (ClientTrace.capabilities (runClient p ops).2).getLast? := by
  induction ops using snoc_induction with
  | h0 =>
    obtain ⟨_, _, _, _, _, _, _, _, rfl⟩ := hp
    rfl
  | h1 ops op ih =>
    rw [runClient_snoc]
    simp only [ClientTrace.capabilities, List.filterMap_append] at *
    generalize (runClient p ops).1 = q at *
    by_cases hc : ∃ m c, op = .recv m ∧ capabilityOf m = some c
    · obtain ⟨m, c, rfl, hm⟩ := hc
      rw [recv_capability_client q m c hm]
      obtain ⟨h1, h2⟩ := capabilityOf_iff hm
      simp [h1, h2]
    · have hn : ∀ m, op = .recv m → capabilityOf m = none := by
        intro m hm
        cases h : capabilityOf m with
        | none => rfl
        | some c => exact absurd ⟨m, c, hm, h⟩ hc
      have h1 : (op.step q).1.theirs = q.theirs := step_client (theirs_client q.theirs op hn) rfl
      rw [h1, ih]
      congr 1
      have : (ClientTrace.capabilities [(op, (op.step q).2)]) = [] := by
        simp only [ClientTrace.capabilities, List.filterMap_cons, List.filterMap_nil]
        cases op with
        | recv m =>
          have := hn m rfl
          unfold capabilityOf at this
          split at this
          · cases this
          · simp only
        | _ => rfl
      rw [ClientTrace.capabilities] at this
      rw [this, List.append_nil]

/-- What decides C19 is the protocol version of the last capability the server received. -/
theorem C19_server_peer (p : Pool) (hp : FreshServer p) (ops : List ServerOp) :
    (runServer p ops).1.theirs = (ServerTrace.capabilities (runServer p ops).2).getLast? := by
  induction ops using snoc_induction with
  | h0 =>
    obtain ⟨_, _, rfl⟩ := hp
    rfl
  | h1 ops op ih =>
    rw [runServer_snoc]
    simp only [ServerTrace.capabilities, List.filterMap_append] at *
    generalize (runServer p ops).1 = q at *
    by_cases hc : ∃ m c, op = .recv m ∧ capabilityOf m = some c
    · obtain ⟨m, c, rfl, hm⟩ := hc
      rw [recv_capability_server q m c hm]
      obtain ⟨h1, h2⟩ := capabilityOf_iff hm
      simp [h1, h2]
    · have hn : ∀ m, op = .recv m → capabilityOf m = none := by
        intro m hm
        cases h : capabilityOf m with
        | none => rfl
        | some c => exact absurd ⟨m, c, hm, h⟩ hc
      have h1 : (op.step q).1.theirs = q.theirs := step_server (theirs_server q.theirs op hn) rfl
      rw [h1, ih]
      congr 1
      have : (ServerTrace.capabilities [(op, (op.step q).2)]) = [] := by
        simp only [ServerTrace.capabilities, List.filterMap_cons, List.filterMap_nil]
        cases op with
        | recv m =>
          have := hn m rfl
          unfold capabilityOf at this
          split at this
          · cases this
          · simp only
        | _ => rfl
      rw [ServerTrace.capabilities] at this
      rw [this, List.append_nil]


-- after opening, the client knows the server's version
example : (runClient exampleFreshClient exampleClientOpening).1.theirs = some ourCapability := by
  decide +kernel

end Verif
