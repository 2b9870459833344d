import Verif.Proof.Guards

/-! # Invariants of pool histories -/

namespace Verif

/-- Induction from the end of a list. -/
theorem snoc_induction {α : Type} {P : List α → Prop} (h0 : P [])
    (h1 : ∀ l a, P l → P (l ++ [a])) (l : List α) : P l := by
  have key : ∀ r : List α, P r.reverse := by
    intro r
    induction r with
    | nil => exact h0
    | cons a r ih => simpa using h1 _ a ih
  simpa using key l.reverse

theorem runClient_append (p : Pool) (a b : List ClientOp) :
    runClient p (a ++ b) =
      ((runClient (runClient p a).1 b).1, (runClient p a).2 ++ (runClient (runClient p a).1 b).2) := by
  induction a generalizing p with
  | nil => simp [runClient]
  | cons x a ih => simp [runClient, ih]

theorem runServer_append (p : Pool) (a b : List ServerOp) :
    runServer p (a ++ b) =
      ((runServer (runServer p a).1 b).1, (runServer p a).2 ++ (runServer (runServer p a).1 b).2) := by
  induction a generalizing p with
  | nil => simp [runServer]
  | cons x a ih => simp [runServer, ih]

theorem runClient_snoc (p : Pool) (ops : List ClientOp) (op : ClientOp) :
    runClient p (ops ++ [op]) = ((op.step (runClient p ops).1).1,
      (runClient p ops).2 ++ [(op, (op.step (runClient p ops).1).2)]) := by
  rw [runClient_append]; rfl

theorem runServer_snoc (p : Pool) (ops : List ServerOp) (op : ServerOp) :
    runServer p (ops ++ [op]) = ((op.step (runServer p ops).1).1,
      (runServer p ops).2 ++ [(op, (op.step (runServer p ops).1).2)]) := by
  rw [runServer_append]; rfl

namespace Pool

/-- Every message is allowed. -/
abbrev Any : MsgType → Option Obj → Prop := fun _ _ => True

/-- An invariant kept by every step: no restriction on messages. -/
theorem step_client {I : Pool → Prop} {op : ClientOp} (C : ClientStable Any I op) {p : Pool}
    (h : I p) : I (op.step p).1 :=
  keeps_client C (fun _ _ _ => trivial) (fun b _ => rawAllowed_true b) (fun _ _ _ _ _ _ _ => trivial) h

theorem step_server {I : Pool → Prop} {op : ServerOp} (S : ServerStable Any I op) {p : Pool}
    (h : I p) : I (op.step p).1 :=
  keeps_server S (fun _ _ _ => trivial) (fun b _ => rawAllowed_true b) h

/-- State changes keep an invariant that does not look at the state. -/
theorem changeAny {I : Pool → Prop} (hq : ∀ p t c pid s, I p → I (Pool.queue p t c pid s))
    (hs : ∀ (p : Pool) s, I p → I { p with state := s }) (p : Pool) (s : PoolState)
    (e : Option Val) (h : I p) : I (p.changeState s e).1 :=
  changeState_of (I := I) (A := Any) (fun p t c pid s _ h => hq p t c pid s h)
    (fun _ _ => trivial) hs p s e h

/-- Pipeline state changes keep an invariant that does not look at pipeline states. -/
theorem pipeChangeAny {I : Pool → Prop} (hq : ∀ p t c pid s, I p → I (Pool.queue p t c pid s))
    (hs : ∀ (p : Pool) h s, I p → I (p.updPipe h fun q => { q with state := s })) (p : Pool)
    (n : Nat) (s : PipeState) (e : Option Val) (h : I p) : I (p.pipeChangeState n s e).1 :=
  pipeChange_of (I := I) (A := Any) (fun p t c pid s _ h => hq p t c pid s h)
    (fun _ _ => trivial) hs p n s e h

/-! ## Object ids (C11) -/

/-- Object ids increase along the send buffer and stay below the counter. -/
def OidInv (p : Pool) : Prop :=
  p.sendBuffer.Pairwise (fun a b => a.oid < b.oid) ∧ ∀ m ∈ p.sendBuffer, m.oid < p.fragmentCount

theorem oidInv_queue (p : Pool) (t : MsgType) (c : Option Obj) (pid : Option UUID)
    (s : StreamType) (h : OidInv p) : OidInv (p.queue t c pid s) := by
  obtain ⟨h1, h2⟩ := h
  constructor
  · simp only [queue]
    rw [List.pairwise_append]
    refine ⟨h1, by simp, ?_⟩
    intro a ha b hb
    simp only [List.mem_singleton] at hb
    subst hb
    exact h2 a ha
  · intro m hm
    simp only [queue, List.mem_append, List.mem_singleton] at hm ⊢
    rcases hm with hm | rfl
    · exact Nat.lt_succ_of_lt (h2 m hm)
    · exact Nat.lt_succ_self _

theorem oidInv_client (op : ClientOp) : ClientStable Any OidInv op where
  queue := fun p t c pid s _ h => oidInv_queue p t c pid s h
  changeState := fun p s e _ => changeAny oidInv_queue (fun _ _ h => h) p s e
  pipeChange := fun p n s e _ => pipeChangeAny oidInv_queue (fun _ _ _ h => h) p n s e
  keySent := fun p h _ => oidInv_queue { p with exchangeKey := some p.keyPair } _ _ _ _ h

theorem oidInv_server (op : ServerOp) (hop : op ≠ .connect) : ServerStable Any OidInv op where
  queue := fun p t c pid s _ h => oidInv_queue p t c pid s h
  changeState := fun p s e _ => changeAny oidInv_queue (fun _ _ h => h) p s e
  pipeChange := fun p n s e _ => pipeChangeAny oidInv_queue (fun _ _ _ h => h) p n s e
  keyAsked := fun p h _ => oidInv_queue p _ _ _ _ h
  keyReceived := fun p _ _ _ _ _ h => oidInv_queue { p with keyRequested := true } _ _ _ _ h
  reset := fun p h => absurd h hop

/-- Messages are only ever appended. -/
def Extends (b : List Msg) (p : Pool) : Prop := b <+: p.sendBuffer

theorem extends_queue (b : List Msg) (p : Pool) (t : MsgType) (c : Option Obj)
    (pid : Option UUID) (s : StreamType) (h : Extends b p) : Extends b (p.queue t c pid s) :=
  List.IsPrefix.trans h (List.prefix_append _ _)

theorem extends_client (b : List Msg) (op : ClientOp) : ClientStable Any (Extends b) op where
  queue := fun p t c pid s _ h => extends_queue b p t c pid s h
  changeState := fun p s e _ => changeAny (extends_queue b) (fun _ _ h => h) p s e
  pipeChange := fun p n s e _ => pipeChangeAny (extends_queue b) (fun _ _ _ h => h) p n s e
  keySent := fun p h _ => extends_queue b { p with exchangeKey := some p.keyPair } _ _ _ _ h

theorem extends_server (b : List Msg) (op : ServerOp) : ServerStable Any (Extends b) op where
  queue := fun p t c pid s _ h => extends_queue b p t c pid s h
  changeState := fun p s e _ => changeAny (extends_queue b) (fun _ _ h => h) p s e
  pipeChange := fun p n s e _ => pipeChangeAny (extends_queue b) (fun _ _ _ h => h) p n s e
  keyAsked := fun p h _ => extends_queue b p _ _ _ _ h
  keyReceived := fun p _ _ _ _ _ h => extends_queue b { p with keyRequested := true } _ _ _ _ h

/-! ## Call ids (C15) -/

theorem ciCount_client (k : Nat) (op : ClientOp) :
    ClientStable Any (fun p => k ≤ p.ciCount) op where
  queue := fun p t c pid s _ h => h
  changeState := fun p s e _ => changeAny (I := fun p => k ≤ p.ciCount)
    (fun _ _ _ _ _ h => h) (fun _ _ h => h) p s e
  pipeChange := fun p n s e _ => pipeChangeAny (I := fun p => k ≤ p.ciCount)
    (fun _ _ _ _ _ h => h) (fun _ _ _ h => h) p n s e
  keySent := fun p h _ => h
  request := fun p h _ hk => Nat.le_succ_of_le hk

theorem ciCount_server (k : Nat) (op : ServerOp) (hop : op ≠ .connect) :
    ServerStable Any (fun p => k ≤ p.ciCount) op where
  queue := fun p t c pid s _ h => h
  changeState := fun p s e _ => changeAny (I := fun p => k ≤ p.ciCount)
    (fun _ _ _ _ _ h => h) (fun _ _ h => h) p s e
  pipeChange := fun p n s e _ => pipeChangeAny (I := fun p => k ≤ p.ciCount)
    (fun _ _ _ _ _ h => h) (fun _ _ _ h => h) p n s e
  keyAsked := fun p h _ => h
  keyReceived := fun p _ _ _ _ _ h => h
  reset := fun p h => absurd h hop
  nextCi := fun p _ h => Nat.le_succ_of_le h

theorem ciPositive_server (op : ServerOp) : ServerStable Any (fun p => 1 ≤ p.ciCount) op where
  queue := fun p t c pid s _ h => h
  changeState := fun p s e _ => changeAny (I := fun p => 1 ≤ p.ciCount)
    (fun _ _ _ _ _ h => h) (fun _ _ h => h) p s e
  pipeChange := fun p n s e _ => pipeChangeAny (I := fun p => 1 ≤ p.ciCount)
    (fun _ _ _ _ _ h => h) (fun _ _ _ h => h) p n s e
  keyAsked := fun p h _ => h
  keyReceived := fun p _ _ _ _ _ h => h
  reset := fun p _ _ _ => Nat.le_refl 1
  nextCi := fun p _ h => Nat.le_succ_of_le h

theorem ret_ci {α : Type} {r : Res α} {f : α → Ret} {n : Int} (h : (r.ret f).2 = .ok (.ci n)) :
    ∃ a, r.2 = .ok a ∧ f a = .ci n := by
  obtain ⟨p, x⟩ := r
  cases x with
  | ok a => exact ⟨a, rfl, by simpa [Res.ret, Except.map] using h⟩
  | error e => cases h

/-- A request of a client returns the counter and advances it. -/
theorem ci_client {p : Pool} {op : ClientOp} {n : Int} (h : (op.step p).2 = .ok (.ci n)) :
    n = p.ciCount ∧ (op.step p).1.ciCount = p.ciCount + 1 := by
  cases op with
  | base b => cases b <;> obtain ⟨a, _, h2⟩ := ret_ci h <;> cases h2
  | newPipe => cases h
  | getAvailableRunspaces =>
    obtain ⟨a, h1, h2⟩ := ret_ci h
    cases h2
    simp only [ClientOp.step, Res.ret]
    unfold getAvailableRunspaces at *
    split at h1
    · cases h1
    · rename_i hs
      rw [if_neg hs]
      simp only [nextCi] at h1 ⊢
      rw [next_pure_ok h1, next_pure_fst, prepare_ciCount]
      simp
  | resetRunspaceState =>
    obtain ⟨a, h1, h2⟩ := ret_ci h
    cases h2
    simp only [ClientOp.step, Res.ret]
    unfold resetRunspaceState at *
    split at h1
    · cases h1
    split at h1
    · cases h1
    · rename_i hv hs
      rw [if_neg hv, if_neg hs]
      simp only [nextCi] at h1 ⊢
      rw [next_pure_ok h1, next_pure_fst, prepare_ciCount]
      simp
  | setMaxRunspaces v =>
    obtain ⟨a, h1, h2⟩ := ret_ci h
    simp only [ClientOp.step, Res.ret]
    unfold setMaxRunspaces at *
    split at h1
    · cases h1; cases h2
    · rename_i hs
      rw [if_neg hs]
      simp only [nextCi] at h1 ⊢
      split at h1
      · cases h1
      · rename_i hf
        rw [if_neg hf]
        rw [next_pure_ok h1] at h2
        rw [next_pure_fst, prepare_ciCount]
        cases h2
        simp
  | setMinRunspaces v =>
    obtain ⟨a, h1, h2⟩ := ret_ci h
    simp only [ClientOp.step, Res.ret]
    unfold setMinRunspaces at *
    split at h1
    · cases h1; cases h2
    · rename_i hs
      rw [if_neg hs]
      simp only [nextCi] at h1 ⊢
      split at h1
      · cases h1
      · rename_i hf
        rw [if_neg hf]
        rw [next_pure_ok h1] at h2
        rw [next_pure_fst, prepare_ciCount]
        cases h2
        simp
  | _ => obtain ⟨a, _, h2⟩ := ret_ci h; cases h2

/-- A host call of a server returns -100 or the counter, which it then advances. -/
theorem ci_server {p : Pool} {op : ServerOp} {n : Int} (h : (op.step p).2 = .ok (.ci n)) :
    n = -100 ∨ (n = p.ciCount ∧ (op.step p).1.ciCount = p.ciCount + 1) := by
  have key : ∀ m v pid, (p.hostCall m v pid).2 = .ok n →
      n = -100 ∨ (n = p.ciCount ∧ (p.hostCall m v pid).1.ciCount = p.ciCount + 1) := by
    intro m v pid h
    obtain ⟨h1, h2⟩ := hostCall_ok h
    by_cases hv : m.isVoid = true
    · left; simpa [hv] using h1
    · right; simpa [hv] using And.intro h1 h2
  cases op with
  | base b => cases b <;> obtain ⟨a, _, h2⟩ := ret_ci h <;> cases h2
  | newPipe => cases h
  | hostCall m v pid =>
    obtain ⟨a, h1, h2⟩ := ret_ci h
    cases h2
    exact key _ _ _ h1
  | pipeHostCall k m v =>
    obtain ⟨a, h1, h2⟩ := ret_ci h
    cases h2
    simp only [ServerOp.step, Res.ret]
    unfold pipeHostCall onPipe at *
    split at h1
    · cases h1
    · dsimp only at h1 ⊢
      split at h1
      · cases h1
      · rename_i hs
        simp only [if_neg hs]
        exact key _ _ _ h1
  | _ => obtain ⟨a, _, h2⟩ := ret_ci h; cases h2

/-! ## Host calls waiting at a client (C16) -/

theorem ciEvents_client (x : Dict Int Msg) (op : ClientOp) (ha : op.answers = none)
    (hr : ∀ m ci, op = .recv m → callId m = some ci → ci = -100) :
    ClientStable Any (fun p => p.ciEvents = x) op where
  queue := fun p t c pid s _ h => h
  changeState := fun p s e _ => changeAny (I := fun p => p.ciEvents = x)
    (fun _ _ _ _ _ h => h) (fun _ _ h => h) p s e
  pipeChange := fun p n s e _ => pipeChangeAny (I := fun p => p.ciEvents = x)
    (fun _ _ _ _ _ h => h) (fun _ _ _ h => h) p n s e
  keySent := fun p h _ => h
  hostCall := fun p ci m h1 _ h2 h3 => absurd (hr m ci h1 h3) h2
  responded := fun p ci h => by rw [ha] at h; cases h

/-- The events recorded by an operation that neither records nor answers host calls. -/
theorem ciEvents_frame {p : Pool} {op : ClientOp} (ha : op.answers = none)
    (hr : ∀ m ci, op = .recv m → callId m = some ci → ci = -100) :
    (op.step p).1.ciEvents = p.ciEvents :=
  step_client (ciEvents_client p.ciEvents op ha hr) rfl

theorem prepare_ciEvents {p : Pool} {m : Option Obj} {t : Option MsgType} {pid : Option UUID}
    {s : StreamType} : (p.prepareMessage m t pid s).1.ciEvents = p.ciEvents :=
  keeps_prepare (I := fun q => q.ciEvents = p.ciEvents) (A := Any)
    (fun _ _ _ _ _ _ h => h) (fun _ _ _ => trivial) rfl

/-- Receiving a host call that is no void call. -/
theorem recv_hostCall {p : Pool} {m : Msg} {ci : Int} (hc : callId m = some ci) (hv : ci ≠ -100) :
    ((∃ e, (p.recvClient m) = (p, .error e)) ∨
     (p.recvClient m) = ({ p with ciEvents := p.ciEvents.set ci m }, .ok m)) := by
  unfold callId at hc
  split at hc
  · cases hc
    rename_i ht hm
    simp only [recvClient, decode, ht, hm]
    cases Obj.deserializeFails _ with
    | some e => left; exact ⟨e, by simp⟩
    | none => right; simp [processClient, ht, hv, Res.next]
  · cases hc
    rename_i ht hm
    simp only [recvClient, decode, ht, hm]
    cases Obj.deserializeFails _ with
    | some e => left; exact ⟨e, by simp⟩
    | none => right; simp [processClient, ht, hv, Res.next]
  · cases hc

/-- Answering a host call: refused, failed without effect, or done. -/
theorem hostResponse_events {p : Pool} {ci : Int} {a b : Option Val} :
    (∃ e, p.hostResponse ci a b = (p, .error e)) ∨
    ((p.hostResponse ci a b).2 = .ok () ∧
      (p.hostResponse ci a b).1.ciEvents = p.ciEvents.erase ci) := by
  unfold hostResponse
  split
  · exact Or.inl ⟨_, rfl⟩
  split
  · exact Or.inl ⟨_, rfl⟩
  split
  · exact Or.inl ⟨_, rfl⟩
  · rename_i call _ _ mi _
    rcases prepare_cases p (some (.msg (responseBody call.pid ci mi a b))) none call.pid
      .prompt_response with ⟨e, he⟩ | ⟨t, c, _, h2⟩
    · rw [he]; exact Or.inl ⟨e, rfl⟩
    · rw [h2]; exact Or.inr ⟨rfl, rfl⟩

/-! ## Live pipelines (C13) -/

/-- The table holds exactly the live pipelines, under their ids. -/
def TableInv (p : Pool) (live : Nat → Prop) : Prop :=
  p.table.keys.Nodup ∧ ∀ u h, p.table.get? u = some h ↔ live h ∧ (p.pipes.map (·.pid))[h]? = some u

theorem pids_upd (p : Pool) (n : Nat) (f : Pipe → Pipe) (hf : ∀ q, (f q).pid = q.pid) :
    (p.updPipe n f).pipes.map (·.pid) = p.pipes.map (·.pid) := by
  apply List.ext_getElem?
  intro i
  simp only [updPipe, List.getElem?_map, List.getElem?_modify]
  cases p.pipes[i]? with
  | none => rfl
  | some q =>
    by_cases h : n = i
    · simp [h, hf]
    · simp [h]

theorem pids_client (t : Dict UUID Nat) (l : List UUID) (op : ClientOp)
    (hn : ∀ pid k v, op ≠ .newPipe pid k v) (hc : ∀ h, op ≠ .base (.pipeClose h)) :
    ClientStable Any (fun p => p.table = t ∧ p.pipes.map (·.pid) = l) op where
  queue := fun p t c pid s _ h => h
  changeState := fun p s e _ => changeAny (I := fun p => p.table = t ∧ p.pipes.map (·.pid) = l)
    (fun _ _ _ _ _ h => h) (fun _ _ h => h) p s e
  pipeChange := fun p n s e _ => pipeChangeAny
    (I := fun p => p.table = t ∧ p.pipes.map (·.pid) = l) (fun _ _ _ _ _ h => h)
    (fun p n s h => ⟨h.1, by rw [pids_upd]; exact h.2; intro _; rfl⟩) p n s e
  setPipe := fun p n s _ h => ⟨h.1, by rw [pids_upd]; exact h.2; intro _; rfl⟩
  keySent := fun p h _ => h
  newPipe := fun p pid k v h => absurd h (hn pid k v)
  closePipe := fun p h q hh => absurd hh (hc h)

theorem pids_server (t : Dict UUID Nat) (l : List UUID) (op : ServerOp)
    (hn : ∀ pid, op ≠ .newPipe pid) (hc : ∀ h, op ≠ .base (.pipeClose h)) :
    ServerStable Any (fun p => p.table = t ∧ p.pipes.map (·.pid) = l) op where
  queue := fun p t c pid s _ h => h
  changeState := fun p s e _ => changeAny (I := fun p => p.table = t ∧ p.pipes.map (·.pid) = l)
    (fun _ _ _ _ _ h => h) (fun _ _ h => h) p s e
  pipeChange := fun p n s e _ => pipeChangeAny
    (I := fun p => p.table = t ∧ p.pipes.map (·.pid) = l) (fun _ _ _ _ _ h => h)
    (fun p n s h => ⟨h.1, by rw [pids_upd]; exact h.2; intro _; rfl⟩) p n s e
  setMeta := fun p n s h => ⟨h.1, by rw [pids_upd]; exact h.2; intro _; rfl⟩
  keyAsked := fun p h _ => h
  keyReceived := fun p _ _ _ _ _ h => h
  newPipe := fun p pid h => absurd h (hn pid)
  closePipe := fun p h q hh => absurd hh (hc h)

theorem tableInv_congr {p p' : Pool} {live live' : Nat → Prop} (h : TableInv p live)
    (h1 : p'.table = p.table) (h2 : p'.pipes.map (·.pid) = p.pipes.map (·.pid))
    (h3 : ∀ n, live' n ↔ live n) : TableInv p' live' := by
  refine ⟨by rw [h1]; exact h.1, fun u n => ?_⟩
  rw [h1, h2, h3]
  exact h.2 u n

theorem tableInv_new {p : Pool} {live live' : Nat → Prop} (h : TableInv p live) (pid : UUID)
    (k : Option MsgType) (m : Option Obj) (hfresh : pid ∉ p.pipes.map (·.pid))
    (hlt : ∀ n, live n → n < p.pipes.length)
    (h3 : ∀ n, live' n ↔ live n ∨ n = p.pipes.length) : TableInv (p.newPipe pid k m) live' := by
  refine ⟨Dict.keys_nodup_set _ _ _ h.1, fun u n => ?_⟩
  rw [h3]
  simp only [newPipe, List.map_append, List.map_cons, List.map_nil]
  by_cases hu : u = pid
  · subst hu
    rw [Dict.get?_set_self]
    constructor
    · intro hn
      cases hn
      exact ⟨Or.inr rfl, by simp⟩
    · rintro ⟨hl | hl, hn⟩
      · have := hlt n hl
        rw [List.getElem?_append_left (by simpa using this)] at hn
        exact absurd (List.mem_of_getElem? hn) hfresh
      · rw [hl]
  · rw [Dict.get?_set_ne _ _ (Ne.symm hu), h.2 u n]
    constructor
    · rintro ⟨hl, hn⟩
      refine ⟨Or.inl hl, ?_⟩
      rw [List.getElem?_append_left (by simpa using hlt n hl)]
      exact hn
    · rintro ⟨hl | hl, hn⟩
      · refine ⟨hl, ?_⟩
        rw [List.getElem?_append_left (by simpa using hlt n hl)] at hn
        exact hn
      · subst hl
        rw [List.getElem?_append_right (by simp)] at hn
        simp at hn
        exact absurd hn.symm hu

theorem tableInv_close {p : Pool} {live live' : Nat → Prop} (h : TableInv p live) {n0 : Nat}
    {q : Pipe} (hq : p.pipes[n0]? = some q) (hnd : (p.pipes.map (·.pid)).Nodup)
    (h3 : ∀ n, live' n ↔ live n ∧ n ≠ n0) :
    TableInv { p with table := p.table.erase q.pid } live' := by
  refine ⟨Dict.keys_nodup_erase _ _ h.1, fun u n => ?_⟩
  rw [h3]
  by_cases hu : u = q.pid
  · subst hu
    constructor
    · intro hg
      rw [Dict.get?_erase_self _ _ h.1] at hg
      cases hg
    · rintro ⟨⟨hl, hne⟩, hn⟩
      exfalso
      have h0 : (p.pipes.map (·.pid))[n0]? = some q.pid := by simp [hq]
      have hlt := (List.getElem?_eq_some_iff.mp hn).1
      exact hne ((List.getElem?_inj hlt hnd).mp (hn.trans h0.symm))
  · rw [Dict.get?_erase_ne _ (Ne.symm hu), h.2 u n]
    constructor
    · rintro ⟨hl, hn⟩
      refine ⟨⟨hl, ?_⟩, hn⟩
      rintro rfl
      simp [hq] at hn
      exact hu hn.symm
    · rintro ⟨⟨hl, _⟩, hn⟩
      exact ⟨hl, hn⟩

theorem tableInv_empty {p : Pool} {live : Nat → Prop} (h : TableInv p live)
    (hlt : ∀ n, live n → n < p.pipes.length) : p.table = [] ↔ ∀ n, ¬ live n := by
  constructor
  · intro ht n hl
    have hn := hlt n hl
    have := (h.2 (p.pipes[n].pid) n).mpr ⟨hl, by simp [hn]⟩
    rw [ht] at this
    cases this
  · intro hl
    cases ht : p.table with
    | nil => rfl
    | cons e d =>
      obtain ⟨u, n⟩ := e
      have : p.table.get? u = some n := by rw [ht]; simp [Dict.get?]
      exact absurd ((h.2 u n).mp this).1 (hl n)

/-- The bookkeeping behind C13. -/
theorem client_live (p : Pool) (hp : FreshClient p) (ops : List ClientOp)
    (hd : (clientPids ops).Nodup) :
    (runClient p ops).1.pipes.map (·.pid) = clientPids ops ∧
    ClientTrace.created (runClient p ops).2 = (runClient p ops).1.pipes.length ∧
    TableInv (runClient p ops).1 (ClientTrace.Live (runClient p ops).2) ∧
    ∀ h r, (ClientOp.base (.pipeClose h), Except.ok r) ∈ (runClient p ops).2 →
      h < (runClient p ops).1.pipes.length := by
  induction ops using snoc_induction with
  | h0 =>
    obtain ⟨_, _, _, _, _, _, _, _, rfl⟩ := hp
    simp [runClient, newClient, clientPids, ClientTrace.created, TableInv, Dict.get?,
      ClientTrace.Live, Dict.keys]
  | h1 ops op ih =>
    have hd' : (clientPids ops).Nodup := by
      rw [clientPids, List.filterMap_append] at hd
      exact (List.nodup_append.mp hd).1
    obtain ⟨h1, h2, h3, h4⟩ := ih hd'
    rw [runClient_snoc]
    generalize (runClient p ops).1 = q at *
    generalize (runClient p ops).2 = tr at *
    have hlt : ∀ n, ClientTrace.Live tr n → n < q.pipes.length := fun n hl => h2 ▸ hl.1
    have hcr : ClientTrace.created (tr ++ [(op, (op.step q).2)]) = ClientTrace.created tr +
        (match op with | .newPipe .. => 1 | _ => 0) := by
      simp only [ClientTrace.created, List.countP_append, List.countP_singleton]
      cases op <;> rfl
    by_cases hn : ∃ pid k v, op = .newPipe pid k v
    · obtain ⟨pid, k, v, rfl⟩ := hn
      simp only at hcr
      have hlen : (ClientOp.step q (.newPipe pid k v)).1.pipes.length = q.pipes.length + 1 := by
        simp [ClientOp.step, newPipe]
      refine ⟨?_, ?_, ?_, ?_⟩
      · simp [ClientOp.step, newPipe, h1, clientPids, List.filterMap_append]
      · rw [hcr, h2, hlen]
      · refine tableInv_new h3 pid _ _ ?_ hlt ?_
        · rw [h1]
          intro hm
          simp only [clientPids, List.filterMap_append, List.nodup_append] at hd
          exact hd.2.2 pid hm pid (by simp) rfl
        · intro n
          simp only [ClientTrace.Live]
          rw [hcr, ← h2]
          constructor
          · rintro ⟨ha, hb⟩
            by_cases hl : n < ClientTrace.created tr
            · exact Or.inl ⟨hl, fun r hr => hb r (by simp [hr])⟩
            · right; omega
          · rintro (⟨ha, hb⟩ | rfl)
            · exact ⟨by omega, fun r hr => hb r (by simpa using hr)⟩
            · refine ⟨by omega, ?_⟩
              intro r hr
              have := h4 _ r (by simpa using hr)
              omega
      · intro h r hr
        rw [hlen]
        have := h4 h r (by simpa using hr)
        omega
    · have hcr' : ClientTrace.created (tr ++ [(op, (op.step q).2)]) = ClientTrace.created tr := by
        rw [hcr]
        cases op <;> simp at hn ⊢
      have hpids : clientPids (ops ++ [op]) = clientPids ops := by
        simp only [clientPids, List.filterMap_append]
        cases op <;> simp at hn ⊢
      by_cases hc : ∃ n, op = .base (.pipeClose n)
      · obtain ⟨n, rfl⟩ := hc
        have hcases : (∃ e, ClientOp.step q (.base (.pipeClose n)) = (q, .error e)) ∨
            ∃ x, q.pipes[n]? = some x ∧
              ClientOp.step q (.base (.pipeClose n)) = ({ q with table := q.table.erase x.pid }, .ok .none) := by
          simp only [ClientOp.step, BaseOp.step, pipeClose, onPipe]
          cases hx : q.pipes[n]? with
          | none => exact Or.inl ⟨_, rfl⟩
          | some x =>
            dsimp only
            split
            · exact Or.inl ⟨_, rfl⟩
            · exact Or.inr ⟨x, rfl, rfl⟩
        rcases hcases with ⟨e, he⟩ | ⟨x, hx, he⟩
        · rw [he] at hcr' ⊢
          refine ⟨by rw [hpids]; exact h1, by rw [hcr']; exact h2, ?_, ?_⟩
          · refine tableInv_congr h3 rfl rfl fun m => ?_
            simp only [ClientTrace.Live]
            rw [hcr']
            simp
          · intro h r hr
            exact h4 h r (by simpa using hr)
        · rw [he] at hcr' ⊢
          refine ⟨by rw [hpids]; exact h1, by rw [hcr']; exact h2, ?_, ?_⟩
          · refine tableInv_close h3 hx (by rw [h1]; exact hd') fun m => ?_
            simp only [ClientTrace.Live]
            rw [hcr']
            constructor
            · rintro ⟨ha, hb⟩
              refine ⟨⟨ha, fun r hr => hb r (by simp [hr])⟩, ?_⟩
              rintro rfl
              exact hb .none (by simp)
            · rintro ⟨⟨ha, hb⟩, hne⟩
              refine ⟨ha, fun r hr => ?_⟩
              simp only [List.mem_append, List.mem_singleton, Prod.mk.injEq] at hr
              rcases hr with hr | ⟨hr, _⟩
              · exact hb r hr
              · simp at hr; exact hne hr
          · intro h r hr
            simp only [List.mem_append, List.mem_singleton, Prod.mk.injEq] at hr
            rcases hr with hr | ⟨hr, _⟩
            · exact h4 h r hr
            · simp at hr; subst hr
              exact (List.getElem?_eq_some_iff.mp hx).1
      · have hf := step_client (pids_client q.table (q.pipes.map (·.pid)) op
          (fun pid k v hh => hn ⟨pid, k, v, hh⟩) (fun n hh => hc ⟨n, hh⟩)) (p := q) ⟨rfl, rfl⟩
        have hlen : (op.step q).1.pipes.length = q.pipes.length := by
          have := congrArg List.length hf.2
          simpa using this
        have hmem : ∀ h r, (ClientOp.base (.pipeClose h), Except.ok r) ∈ tr ++ [(op, (op.step q).2)] →
            (ClientOp.base (.pipeClose h), Except.ok r) ∈ tr := by
          intro h r hr
          simp only [List.mem_append, List.mem_singleton, Prod.mk.injEq] at hr
          rcases hr with hr | ⟨hr, _⟩
          · exact hr
          · exact absurd ⟨h, hr.symm⟩ hc
        refine ⟨by rw [hf.2, h1, hpids], by rw [hcr', hlen]; exact h2, ?_, ?_⟩
        · refine tableInv_congr h3 hf.1 hf.2 fun m => ?_
          simp only [ClientTrace.Live]
          rw [hcr']
          constructor
          · rintro ⟨ha, hb⟩; exact ⟨ha, fun r hr => hb r (by simp [hr])⟩
          · rintro ⟨ha, hb⟩; exact ⟨ha, fun r hr => hb r (hmem _ r hr)⟩
        · intro h r hr
          rw [hlen]
          exact h4 h r (hmem h r hr)

/-- The bookkeeping behind C13. -/
theorem server_live (p : Pool) (hp : FreshServer p) (ops : List ServerOp)
    (hd : (serverPids ops).Nodup) :
    (runServer p ops).1.pipes.map (·.pid) = serverPids ops ∧
    ServerTrace.created (runServer p ops).2 = (runServer p ops).1.pipes.length ∧
    TableInv (runServer p ops).1 (ServerTrace.Live (runServer p ops).2) ∧
    ∀ h r, (ServerOp.base (.pipeClose h), Except.ok r) ∈ (runServer p ops).2 →
      h < (runServer p ops).1.pipes.length := by
  induction ops using snoc_induction with
  | h0 =>
    obtain ⟨_, _, rfl⟩ := hp
    simp [runServer, newServer, serverPids, ServerTrace.created, TableInv, Dict.get?,
      ServerTrace.Live, Dict.keys]
  | h1 ops op ih =>
    have hd' : (serverPids ops).Nodup := by
      rw [serverPids, List.filterMap_append] at hd
      exact (List.nodup_append.mp hd).1
    obtain ⟨h1, h2, h3, h4⟩ := ih hd'
    rw [runServer_snoc]
    generalize (runServer p ops).1 = q at *
    generalize (runServer p ops).2 = tr at *
    have hlt : ∀ n, ServerTrace.Live tr n → n < q.pipes.length := fun n hl => h2 ▸ hl.1
    have hcr : ServerTrace.created (tr ++ [(op, (op.step q).2)]) = ServerTrace.created tr +
        (match op with | .newPipe .. => 1 | _ => 0) := by
      simp only [ServerTrace.created, List.countP_append, List.countP_singleton]
      cases op <;> rfl
    by_cases hn : ∃ pid, op = .newPipe pid
    · obtain ⟨pid, rfl⟩ := hn
      simp only at hcr
      have hlen : (ServerOp.step q (.newPipe pid)).1.pipes.length = q.pipes.length + 1 := by
        simp [ServerOp.step, newPipe]
      refine ⟨?_, ?_, ?_, ?_⟩
      · simp [ServerOp.step, newPipe, h1, serverPids, List.filterMap_append]
      · rw [hcr, h2, hlen]
      · refine tableInv_new h3 pid _ _ ?_ hlt ?_
        · rw [h1]
          intro hm
          simp only [serverPids, List.filterMap_append, List.nodup_append] at hd
          exact hd.2.2 pid hm pid (by simp) rfl
        · intro n
          simp only [ServerTrace.Live]
          rw [hcr, ← h2]
          constructor
          · rintro ⟨ha, hb⟩
            by_cases hl : n < ServerTrace.created tr
            · exact Or.inl ⟨hl, fun r hr => hb r (by simp [hr])⟩
            · right; omega
          · rintro (⟨ha, hb⟩ | rfl)
            · exact ⟨by omega, fun r hr => hb r (by simpa using hr)⟩
            · refine ⟨by omega, ?_⟩
              intro r hr
              have := h4 _ r (by simpa using hr)
              omega
      · intro h r hr
        rw [hlen]
        have := h4 h r (by simpa using hr)
        omega
    · have hcr' : ServerTrace.created (tr ++ [(op, (op.step q).2)]) = ServerTrace.created tr := by
        rw [hcr]
        cases op <;> simp at hn ⊢
      have hpids : serverPids (ops ++ [op]) = serverPids ops := by
        simp only [serverPids, List.filterMap_append]
        cases op <;> simp at hn ⊢
      by_cases hc : ∃ n, op = .base (.pipeClose n)
      · obtain ⟨n, rfl⟩ := hc
        have hcases : (∃ e, ServerOp.step q (.base (.pipeClose n)) = (q, .error e)) ∨
            ∃ x, q.pipes[n]? = some x ∧
              ServerOp.step q (.base (.pipeClose n)) = ({ q with table := q.table.erase x.pid }, .ok .none) := by
          simp only [ServerOp.step, BaseOp.step, pipeClose, onPipe]
          cases hx : q.pipes[n]? with
          | none => exact Or.inl ⟨_, rfl⟩
          | some x =>
            dsimp only
            split
            · exact Or.inl ⟨_, rfl⟩
            · exact Or.inr ⟨x, rfl, rfl⟩
        rcases hcases with ⟨e, he⟩ | ⟨x, hx, he⟩
        · rw [he] at hcr' ⊢
          refine ⟨by rw [hpids]; exact h1, by rw [hcr']; exact h2, ?_, ?_⟩
          · refine tableInv_congr h3 rfl rfl fun m => ?_
            simp only [ServerTrace.Live]
            rw [hcr']
            simp
          · intro h r hr
            exact h4 h r (by simpa using hr)
        · rw [he] at hcr' ⊢
          refine ⟨by rw [hpids]; exact h1, by rw [hcr']; exact h2, ?_, ?_⟩
          · refine tableInv_close h3 hx (by rw [h1]; exact hd') fun m => ?_
            simp only [ServerTrace.Live]
            rw [hcr']
            constructor
            · rintro ⟨ha, hb⟩
              refine ⟨⟨ha, fun r hr => hb r (by simp [hr])⟩, ?_⟩
              rintro rfl
              exact hb .none (by simp)
            · rintro ⟨⟨ha, hb⟩, hne⟩
              refine ⟨ha, fun r hr => ?_⟩
              simp only [List.mem_append, List.mem_singleton, Prod.mk.injEq] at hr
              rcases hr with hr | ⟨hr, _⟩
              · exact hb r hr
              · simp at hr; exact hne hr
          · intro h r hr
            simp only [List.mem_append, List.mem_singleton, Prod.mk.injEq] at hr
            rcases hr with hr | ⟨hr, _⟩
            · exact h4 h r hr
            · simp at hr; subst hr
              exact (List.getElem?_eq_some_iff.mp hx).1
      · have hf := step_server (pids_server q.table (q.pipes.map (·.pid)) op
          (fun pid hh => hn ⟨pid, hh⟩) (fun n hh => hc ⟨n, hh⟩)) (p := q) ⟨rfl, rfl⟩
        have hlen : (op.step q).1.pipes.length = q.pipes.length := by
          have := congrArg List.length hf.2
          simpa using this
        have hmem : ∀ h r, (ServerOp.base (.pipeClose h), Except.ok r) ∈ tr ++ [(op, (op.step q).2)] →
            (ServerOp.base (.pipeClose h), Except.ok r) ∈ tr := by
          intro h r hr
          simp only [List.mem_append, List.mem_singleton, Prod.mk.injEq] at hr
          rcases hr with hr | ⟨hr, _⟩
          · exact hr
          · exact absurd ⟨h, hr.symm⟩ hc
        refine ⟨by rw [hf.2, h1, hpids], by rw [hcr', hlen]; exact h2, ?_, ?_⟩
        · refine tableInv_congr h3 hf.1 hf.2 fun m => ?_
          simp only [ServerTrace.Live]
          rw [hcr']
          constructor
          · rintro ⟨ha, hb⟩; exact ⟨ha, fun r hr => hb r (by simp [hr])⟩
          · rintro ⟨ha, hb⟩; exact ⟨ha, fun r hr => hb r (hmem _ r hr)⟩
        · intro h r hr
          rw [hlen]
          exact h4 h r (hmem h r hr)

/-! ## Host calls (C16) -/

theorem callId_iff (m : Msg) (ci : Int) : callId m = some ci ↔ ∃ mi, m.IsHostCall ci mi := by
  unfold callId Msg.IsHostCall
  constructor
  · intro h
    split at h
    · cases h; rename_i ht hm; exact ⟨_, Or.inl ⟨ht, _, hm⟩⟩
    · cases h; rename_i ht hm; exact ⟨_, Or.inr ⟨ht, _, hm⟩⟩
    · cases h
  · rintro ⟨mi, ⟨ht, mp, hm⟩ | ⟨ht, mp, hm⟩⟩ <;> simp [ht, hm]

theorem waiting_nil (ci : Int) (m : Msg) : ¬ Waiting [] ci m := by
  intro h
  generalize ht : ([] : ClientTrace) = tr at h
  cases h <;> simp at ht

theorem waiting_snoc (tr : ClientTrace) (op : ClientOp) (r : Except Err Ret) (ci : Int) (m : Msg) :
    Waiting (tr ++ [(op, r)]) ci m ↔
      (op = .recv m ∧ r = .ok (.event m) ∧ callId m = some ci ∧ ci ≠ -100) ∨
      (Waiting tr ci m ∧ (∀ m', op = .recv m' → callId m' = some ci → ∃ e, r = .error e) ∧
        (op.answers = some ci → ∃ e, r = .error e)) := by
  constructor
  · intro h
    generalize ht : tr ++ [(op, r)] = tr' at h
    cases h with
    | received tr0 m ci mi h1 h2 =>
      obtain ⟨-, h3⟩ := List.append_inj' ht rfl
      simp only [List.cons.injEq, Prod.mk.injEq, and_true] at h3
      exact Or.inl ⟨h3.1, h3.2, (callId_iff m ci).mpr ⟨mi, h1⟩, h2⟩
    | kept tr0 ci m op0 r0 h1 h2 h3 h4 =>
      obtain ⟨rfl, h5⟩ := List.append_inj' ht rfl
      simp only [List.cons.injEq, Prod.mk.injEq, and_true] at h5
      obtain ⟨rfl, rfl⟩ := h5
      refine Or.inr ⟨h1, fun m' hm hc => ?_, fun ha => ?_⟩
      · obtain ⟨mi, hi⟩ := (callId_iff m' ci).mp hc
        exact h2 m' mi hm hi
      · cases op <;> simp [ClientOp.answers] at ha
        · subst ha; exact h3 _ _ rfl
        · subst ha; exact h4 _ _ _ rfl
  · rintro (⟨rfl, rfl, h1, h2⟩ | ⟨h1, h2, h3⟩)
    · obtain ⟨mi, hi⟩ := (callId_iff m ci).mp h1
      exact .received tr m ci mi hi h2
    · refine .kept tr ci m op r h1 ?_ ?_ ?_
      · intro m' mi hm hi
        exact h2 m' hm ((callId_iff m' ci).mpr ⟨mi, hi⟩)
      · rintro a b rfl; exact h3 rfl
      · rintro h a b rfl; exact h3 rfl

theorem waiting_void {tr : ClientTrace} {m : Msg} : ¬ Waiting tr (-100) m := by
  intro h
  generalize hc : (-100 : Int) = ci at h
  induction h with
  | received _ _ _ _ _ h => exact h hc.symm
  | kept _ _ _ _ _ _ _ _ _ ih => exact ih hc

theorem waiting_iff (p : Pool) (hp : FreshClient p) (ops : List ClientOp) :
    (runClient p ops).1.ciEvents.keys.Nodup ∧
    ∀ ci m, (runClient p ops).1.ciEvents.get? ci = some m ↔ Waiting (runClient p ops).2 ci m := by
  induction ops using snoc_induction with
  | h0 =>
    obtain ⟨_, _, _, _, _, _, _, _, rfl⟩ := hp
    simp [runClient, newClient, Dict.keys, Dict.get?, waiting_nil]
  | h1 ops op ih =>
    rw [runClient_snoc]
    obtain ⟨h1, h2⟩ := ih
    generalize (runClient p ops).1 = q at *
    generalize (runClient p ops).2 = tr at *
    simp only [waiting_snoc]
    -- the three effects an operation can have on the recorded calls
    have hcases : ((op.step q).1.ciEvents = q.ciEvents ∧
          ((∃ e, (op.step q).2 = .error e) ∨ (op.answers = none ∧
            ∀ m ci, op = .recv m → callId m = some ci → ci = -100))) ∨
        (∃ m ci, op = .recv m ∧ callId m = some ci ∧ ci ≠ -100 ∧ (op.step q).2 = .ok (.event m) ∧
          (op.step q).1.ciEvents = q.ciEvents.set ci m) ∨
        (∃ ci x, op.answers = some ci ∧ (op.step q).2 = .ok x ∧ 
          (op.step q).1.ciEvents = q.ciEvents.erase ci) := by
      by_cases hr : ∃ m ci, op = .recv m ∧ callId m = some ci ∧ ci ≠ -100
      · obtain ⟨m, ci, rfl, hc, hv⟩ := hr
        rcases recv_hostCall (p := q) hc hv with ⟨e, he⟩ | he
        · left; simp only [ClientOp.step, he]; exact ⟨rfl, Or.inl ⟨e, rfl⟩⟩
        · right; left; refine ⟨m, ci, rfl, hc, hv, ?_, ?_⟩ <;> simp only [ClientOp.step, he] <;> rfl
      · have hr' : ∀ m ci, op = .recv m → callId m = some ci → ci = -100 := by
          intro m ci h1 h2
          exact Decidable.byContradiction fun h3 => hr ⟨m, ci, h1, h2, h3⟩
        cases ha : op.answers with
        | none => exact Or.inl ⟨ciEvents_frame ha hr', Or.inr ⟨rfl, hr'⟩⟩
        | some ci =>
          cases op <;> simp [ClientOp.answers] at ha
          · subst ha
            rename_i ci a b
            rcases hostResponse_events (p := q) (ci := ci) (a := a) (b := b) with ⟨e, he⟩ | ⟨h3, h4⟩
            · left; simp only [ClientOp.step, he]; exact ⟨rfl, Or.inl ⟨e, rfl⟩⟩
            · right; right
              exact ⟨_, .none, rfl, by simp [ClientOp.step, Res.ret, h3, Except.map], h4⟩
          · subst ha
            rename_i n ci a b
            simp only [ClientOp.step, pipeHostResponse, onPipe]
            cases q.pipes[n]? with
            | none => left; exact ⟨rfl, Or.inl ⟨_, rfl⟩⟩
            | some x =>
              dsimp only
              split
              · left; exact ⟨rfl, Or.inl ⟨_, rfl⟩⟩
              · rcases hostResponse_events (p := q) (ci := ci) (a := a) (b := b) with ⟨e, he⟩ | ⟨h3, h4⟩
                · left; rw [he]; exact ⟨rfl, Or.inl ⟨e, rfl⟩⟩
                · right; right
                  exact ⟨_, .none, rfl, by simp [Res.ret, h3, Except.map], h4⟩
    rcases hcases with ⟨he, hk⟩ | ⟨m0, ci0, rfl, hc, hv, hr, he⟩ | ⟨ci0, x, ha, hr, he⟩
    · rw [he]
      refine ⟨h1, fun ci m => ?_⟩
      rw [h2]
      constructor
      · intro hw
        refine Or.inr ⟨hw, fun m' hm hc => ?_, fun ha => ?_⟩
        · rcases hk with hk | ⟨-, hk⟩
          · exact hk
          · exfalso
            have : ci = -100 := hk m' ci hm hc
            subst this
            exact waiting_void hw
        · rcases hk with hk | ⟨hk, -⟩
          · exact hk
          · rw [ha] at hk; cases hk
      · rintro (⟨rfl, hr, hc, hv⟩ | ⟨hw, -, -⟩)
        · rcases hk with ⟨e, hk⟩ | ⟨-, hk⟩
          · rw [hk] at hr; cases hr
          · exact absurd (hk m ci rfl hc) hv
        · exact hw
    · rw [he, hr]
      refine ⟨Dict.keys_nodup_set _ _ _ h1, fun ci m => ?_⟩
      by_cases hci : ci0 = ci
      · subst hci
        rw [Dict.get?_set_self]
        constructor
        · intro h; cases h; exact Or.inl ⟨rfl, rfl, hc, hv⟩
        · rintro (⟨h3, -⟩ | ⟨-, h4, -⟩)
          · cases h3; rfl
          · obtain ⟨e, h5⟩ := h4 m0 rfl hc; cases h5
      · rw [Dict.get?_set_ne _ _ hci, h2]
        constructor
        · intro hw
          refine Or.inr ⟨hw, fun m' hm hc' => ?_, fun ha => by cases ha⟩
          cases hm; rw [hc] at hc'; cases hc'; exact absurd rfl hci
        · rintro (⟨h3, -, h5, -⟩ | ⟨h4, -⟩)
          · cases h3; rw [hc] at h5; cases h5; exact absurd rfl hci
          · exact h4
    · rw [he, hr]
      refine ⟨Dict.keys_nodup_erase _ _ h1, fun ci m => ?_⟩
      by_cases hci : ci0 = ci
      · subst hci
        have : (q.ciEvents.erase ci0).get? ci0 = none := Dict.get?_erase_self _ _ h1
        rw [this]
        constructor
        · intro h; cases h
        · rintro (⟨rfl, -⟩ | ⟨-, -, h4⟩)
          · cases ha
          · obtain ⟨e, h5⟩ := h4 ha; cases h5
      · rw [Dict.get?_erase_ne _ hci, h2]
        constructor
        · intro hw
          refine Or.inr ⟨hw, (fun m' hm _ => by subst hm; cases ha), fun ha' => ?_⟩
          rw [ha] at ha'; cases ha'; exact absurd rfl hci
        · rintro (⟨rfl, -⟩ | ⟨h4, -⟩)
          · cases ha
          · exact h4

theorem waiting_hostCall {tr : ClientTrace} {ci : Int} {m : Msg} (h : Waiting tr ci m) :
    ∃ mi, m.IsHostCall ci mi := by
  induction h with
  | received _ _ _ mi h _ => exact ⟨mi, h⟩
  | kept _ _ _ _ _ _ _ _ _ ih => exact ih

theorem run_keeps_server' {I : Pool → Prop} (S : ∀ op, ServerStable Any I op) (ops : List ServerOp)
    (p : Pool) (h : I p) : I (runServer p ops).1 := by
  induction ops generalizing p with
  | nil => exact h
  | cons op ops ih => exact ih _ (step_server (S op) h)

theorem client_callIds (p : Pool) (ops : List ClientOp) :
    (callIds (runClient p ops).2).Pairwise (· < ·) ∧
    ∀ n ∈ callIds (runClient p ops).2, (p.ciCount : Int) ≤ n := by
  induction ops generalizing p with
  | nil => simp [runClient, callIds]
  | cons op ops ih =>
    obtain ⟨h1, h2⟩ := ih (op.step p).1
    have hle : p.ciCount ≤ (op.step p).1.ciCount := step_client (ciCount_client p.ciCount op) (Nat.le_refl _)
    have hcons : callIds (runClient p (op :: ops)).2 =
        (match (op.step p).2 with | .ok (.ci n) => [n] | _ => []) ++
          callIds (runClient (op.step p).1 ops).2 := by
      simp only [runClient, callIds, List.filterMap_cons]
      generalize (op.step p).2 = r
      rcases r with e | (_ | n | m) <;> rfl
    rw [hcons]
    split
    · rename_i n hn
      obtain ⟨h3, h4⟩ := ci_client hn
      constructor
      · simp only [List.singleton_append, List.pairwise_cons]
        refine ⟨fun k hk => ?_, h1⟩
        have := h2 k hk
        rw [h4] at this
        omega
      · intro k hk
        simp only [List.singleton_append, List.mem_cons] at hk
        rcases hk with rfl | hk
        · omega
        · have := h2 k hk; omega
    · refine ⟨h1, fun k hk => ?_⟩
      have := h2 k hk
      omega

theorem server_callIds (p : Pool) (ops : List ServerOp) (hc : ServerOp.connect ∉ ops) :
    ((callIds (runServer p ops).2).filter (· ≠ -100)).Pairwise (· < ·) ∧
    ∀ n ∈ callIds (runServer p ops).2, n = -100 ∨ (p.ciCount : Int) ≤ n := by
  induction ops generalizing p with
  | nil => simp [runServer, callIds]
  | cons op ops ih =>
    simp only [List.mem_cons, not_or] at hc
    obtain ⟨h1, h2⟩ := ih (op.step p).1 hc.2
    have hle : p.ciCount ≤ (op.step p).1.ciCount :=
      step_server (ciCount_server p.ciCount op (Ne.symm hc.1)) (Nat.le_refl _)
    have hcons : callIds (runServer p (op :: ops)).2 =
        (match (op.step p).2 with | .ok (.ci n) => [n] | _ => []) ++
          callIds (runServer (op.step p).1 ops).2 := by
      simp only [runServer, callIds, List.filterMap_cons]
      generalize (op.step p).2 = r
      rcases r with e | (_ | n | m) <;> rfl
    rw [hcons]
    split
    · rename_i n hn
      rcases ci_server hn with h3 | ⟨h3, h4⟩
      · subst h3
        constructor
        · simpa using h1
        · intro k hk
          simp only [List.singleton_append, List.mem_cons] at hk
          rcases hk with rfl | hk
          · exact Or.inl rfl
          · rcases h2 k hk with h | h
            · exact Or.inl h
            · right; omega
      · constructor
        · rw [List.filter_append, List.pairwise_append]
          refine ⟨?_, h1, ?_⟩
          · simp only [List.filter_cons, List.filter_nil]; split <;> simp
          · intro a ha b hb
            simp only [List.mem_filter, List.mem_singleton] at ha hb
            rcases h2 b hb.1 with h | h
            · simp [h] at hb
            · omega
        · intro k hk
          simp only [List.singleton_append, List.mem_cons] at hk
          rcases hk with rfl | hk
          · right; omega
          · rcases h2 k hk with h | h
            · exact Or.inl h
            · right; omega
    · refine ⟨h1, fun k hk => ?_⟩
      rcases h2 k hk with h | h
      · exact Or.inl h
      · right; omega

/-! ## Capabilities (C19) -/

/-- The capability in a message. -/
def capabilityOf (m : Msg) : Option Capability :=
  match m.type, m.content with
  | .SessionCapability, some (.msg (.sessionCapability c)) => some c
  | _, _ => none

theorem theirs_client (x : Option Capability) (op : ClientOp)
    (h : ∀ m, op = .recv m → capabilityOf m = none) :
    ClientStable Any (fun p => p.theirs = x) op where
  queue := fun p t c pid s _ h => h
  changeState := fun p s e _ => changeAny (I := fun p => p.theirs = x)
    (fun _ _ _ _ _ h => h) (fun _ _ h => h) p s e
  pipeChange := fun p n s e _ => pipeChangeAny (I := fun p => p.theirs = x)
    (fun _ _ _ _ _ h => h) (fun _ _ _ h => h) p n s e
  keySent := fun p h _ => h
  theirs := fun p m c hm h1 h2 _ => by
    have := h m hm
    simp [capabilityOf, h1, h2] at this

theorem theirs_server (x : Option Capability) (op : ServerOp)
    (h : ∀ m, op = .recv m → capabilityOf m = none) :
    ServerStable Any (fun p => p.theirs = x) op where
  queue := fun p t c pid s _ h => h
  changeState := fun p s e _ => changeAny (I := fun p => p.theirs = x)
    (fun _ _ _ _ _ h => h) (fun _ _ h => h) p s e
  pipeChange := fun p n s e _ => pipeChangeAny (I := fun p => p.theirs = x)
    (fun _ _ _ _ _ h => h) (fun _ _ _ h => h) p n s e
  keyAsked := fun p h _ => h
  keyReceived := fun p _ _ _ _ _ h => h
  theirs := fun p m c hm h1 h2 _ => by
    have := h m hm
    simp [capabilityOf, h1, h2] at this

theorem capabilityOf_iff {m : Msg} {c : Capability} (h : capabilityOf m = some c) :
    m.type = .SessionCapability ∧ m.content = some (.msg (.sessionCapability c)) := by
  unfold capabilityOf at h
  split at h
  · cases h; rename_i h1 h2; exact ⟨h1, h2⟩
  · cases h

theorem recv_capability_client (p : Pool) (m : Msg) (c : Capability) (h : capabilityOf m = some c) :
    (ClientOp.step p (.recv m)).1.theirs = some c := by
  obtain ⟨h1, h2⟩ := capabilityOf_iff h
  simp [ClientOp.step, Res.ret, recvClient, decode, h1, h2, Obj.deserializeFails, Obj.vals, Body.vals,
    processClient, processSessionCapability, Res.next]

theorem recv_capability_server (p : Pool) (m : Msg) (c : Capability) (h : capabilityOf m = some c) :
    (ServerOp.step p (.recv m)).1.theirs = some c := by
  obtain ⟨h1, h2⟩ := capabilityOf_iff h
  simp only [ServerOp.step, Res.ret, recvServer, decode, h1, h2, Obj.deserializeFails, Obj.vals, Body.vals,
    processServer]
  simp only [reduceCtorEq, if_false, List.findSome?_nil]
  refine keeps_next (I := fun q => q.theirs = some c) ?_ fun _ _ h => h
  unfold serverCapability
  dsimp only
  split
  · split <;> rfl
  · refine keeps_next (I := fun q => q.theirs = some c) ?_ fun _ _ h => h
    exact keeps_prepare (A := Any) (fun _ _ _ _ _ _ h => h) (fun _ _ _ => trivial) rfl

end Pool
end Verif
