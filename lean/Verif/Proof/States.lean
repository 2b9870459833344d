import Verif.Proof.Keys

/-! # Lemmas about the state messages (C22) -/

namespace Verif
open Pool

theorem poolStates_append (a b : List Msg) : poolStates (a ++ b) = poolStates a ++ poolStates b := by
  simp [poolStates]

theorem pipeStates_append (pid : UUID) (a b : List Msg) :
    pipeStates pid (a ++ b) = pipeStates pid a ++ pipeStates pid b := by
  simp [pipeStates]

theorem poolStates_quiet {ms : List Msg} (h : ∀ m ∈ ms, m.type ≠ .RunspacePoolState) :
    poolStates ms = [] := by
  rw [poolStates, List.filterMap_eq_nil_iff]
  intro m hm
  have := h m hm
  split <;> simp_all

theorem pipeStates_quiet {pid : UUID} {ms : List Msg} (h : ∀ m ∈ ms, m.type ≠ .PipelineState) :
    pipeStates pid ms = [] := by
  rw [pipeStates, List.filterMap_eq_nil_iff]
  intro m hm
  have := h m hm
  split <;> simp_all

/-! ## The pool -/

/-- Neither the state nor the announced states changed. -/
def QPool (p0 p : Pool) : Prop :=
  p.isClient = false ∧ p.state = p0.state ∧ p.cipher = p0.cipher ∧
  Adds (fun m => m.type ≠ .RunspacePoolState) p0.sendBuffer p.sendBuffer

theorem QPool.refl {p : Pool} (h : p.isClient = false) : QPool p p := ⟨h, rfl, rfl, Adds.refl _ _⟩

theorem qPool_queue (p0 p : Pool) (t : MsgType) (c : Option Obj) (pid : Option UUID) (s : StreamType)
    (ht : t ∉ [MsgType.RunspacePoolState]) (h : QPool p0 p) : QPool p0 (p.queue t c pid s) :=
  ⟨h.1, h.2.1, h.2.2.1, h.2.2.2.snoc (by simpa using ht)⟩

theorem qPool_server (p0 : Pool) (op : ServerOp) (hm : ∀ s e, ¬ op.Moves s e)
    (h1 : op ≠ .receiveData) (h2 : op ≠ .connect) :
    ServerStable (fun t _ => t ∉ [MsgType.RunspacePoolState]) (QPool p0) op where
  queue := qPool_queue p0
  changeState := fun p s e h => absurd h (hm s e)
  pipeChange := fun p n s e _ h => pipeChange_of (I := QPool p0)
    (A := fun t _ => t ∉ [MsgType.RunspacePoolState]) (qPool_queue p0) (by simp) (fun p n s h => h) p n s e h
  reset := fun p h => absurd h h2
  opening := fun p h => absurd h h1
  keyAsked := fun p h _ => qPool_queue p0 p _ _ _ _ (by simp) h
  keyReceived := fun p m k _ _ _ h => qPool_queue p0 _ _ _ _ _ (by simp) h

theorem server_mayQueue_state (op : ServerOp) :
    ∀ t ∈ op.mayQueue, t ∉ [MsgType.RunspacePoolState] ∧ t ∉ [MsgType.PipelineState] := by
  intro t hm
  cases op <;> simp only [ServerOp.mayQueue] at hm <;> (try simp at hm)
  · subst hm; simp
  · rcases hm with rfl | rfl <;> simp
  · subst hm; simp
  · rcases hm with rfl | rfl <;> simp
  · rcases hm with rfl | rfl <;> simp
  · subst hm; rename_i k _; cases k <;> simp [RecordKind.type]
  · rcases hm with rfl | rfl | hm
    · simp
    · simp
    · rw [hm.2]; simp

/-- The announced states of a step are that of the new state, or none. -/
def Announces (p0 p : Pool) : Prop :=
  ∃ new, p.sendBuffer = p0.sendBuffer ++ new ∧
    ((poolStates new = [] ∧ (p.state = p0.state ∨ p.state.silent = true)) ∨
      (poolStates new = [p.state] ∧ p.state.silent = false ∧ p.state ≠ .BeforeOpen))

theorem QPool.announces {p0 p : Pool} (h : QPool p0 p) : Announces p0 p := by
  obtain ⟨_, h2, _, new, h3, h4⟩ := h
  exact ⟨new, h3, Or.inl ⟨poolStates_quiet h4, Or.inl h2⟩⟩

theorem QPool.change {p0 p : Pool} (h : QPool p0 p) (s : PoolState) (e : Option Val) (hs : s ≠ .Opening ∧ s ≠ .BeforeOpen)
    (he : ∀ v, e = some v → v.serializeFails p0.cipher = none) : Announces p0 (p.changeState s e).1 := by
  obtain ⟨h1, h2, h5, new, h3, h4⟩ := h
  have hf : Obj.serializeFails p.cipher (.msg (.runspacePoolState s e)) = none := by
    rw [h5]
    cases e with
    | none => simp [Obj.serializeFails, Obj.vals, Body.vals]
    | some v => simp [Obj.serializeFails, Obj.vals, Body.vals, he v rfl]
  unfold changeState
  rw [if_neg (by simp [h1])]
  split
  · simp only [prepareMessage, hf, messageType, Body.type]
    refine ⟨new ++ [_], by simp only [queue, h3, List.append_assoc]; rfl, Or.inr ⟨?_, ?_, hs.2⟩⟩
    · rw [poolStates_append, poolStates_quiet h4]
      rfl
    · cases s <;> simp_all [emitted, PoolState.silent, queue]
  · rename_i he
    refine ⟨new, h3, Or.inl ⟨poolStates_quiet h4, Or.inr ?_⟩⟩
    cases s <;> simp_all [emitted, PoolState.silent]

theorem announces_next {α : Type} {p0 : Pool} {r : Res α} {f : Pool → α → Res Unit} (h : QPool p0 r.1)
    (hf : ∀ p a, QPool p0 p → Announces p0 (f p a).1) : Announces p0 (r.next f).1 := by
  obtain ⟨p, x⟩ := r
  cases x with
  | ok a => exact hf p a h
  | error e => exact h.announces

theorem step_announces {p : Pool} {op : ServerOp} (hs : p.isClient = false)
    (hr : op.NotRaw [.RunspacePoolState]) (hb : ∀ v, op = .setBroken v → v.serializeFails p.cipher = none) :
    Announces p (op.step p).1 := by
  have hq := QPool.refl hs
  have hquiet : (∀ s e, ¬ op.Moves s e) → op ≠ .receiveData → op ≠ .connect → Announces p (op.step p).1 := by
    intro h1 h2 h3
    refine QPool.announces ?_
    refine keeps_server (qPool_server p op h1 h2 h3) (fun t _ h => (server_mayQueue_state op t h).1) ?_ hq
    rintro b rfl
    exact rawAllowed_of_notRaw (by simp) (by simp) hr
  cases op with
  | base b =>
    cases b with
    | beginClose => exact hq.change _ _ (by simp) (by simp)
    | close =>
      simp only [ServerOp.step, BaseOp.step, Res.ret, close]
      split
      · exact hq.announces
      split
      · exact hq.announces
      · exact hq.change _ _ (by simp) (by simp)
    | beginDisconnect => exact hq.change _ _ (by simp) (by simp)
    | disconnect =>
      simp only [ServerOp.step, BaseOp.step, Res.ret, disconnect]
      split
      · exact hq.announces
      · exact hq.change _ _ (by simp) (by simp)
    | reconnect =>
      simp only [ServerOp.step, BaseOp.step, Res.ret, reconnect]
      split
      · exact hq.announces
      · exact hq.change _ _ (by simp) (by simp)
    | _ => exact hquiet (by simp [ServerOp.Moves, BaseOp.moves]) (by simp) (by simp)
  | connect =>
    simp only [ServerOp.step, Res.ret, connectServer]
    split
    · exact hq.announces
    split
    · exact hq.announces
    · simp only [changeState, hs, emitted]
      exact ⟨[], by simp, Or.inl ⟨rfl, Or.inr rfl⟩⟩
  | setBroken v =>
    simp only [ServerOp.step, Res.ret, setBroken]
    split
    · exact hq.announces
    · exact hq.change _ _ (by simp) (by rintro _ ⟨⟩; exact hb v rfl)
  | receiveData =>
    simp only [ServerOp.step, Res.ret, receiveServer]
    split
    · exact ⟨[], by simp, Or.inl ⟨rfl, Or.inr rfl⟩⟩
    · exact hq.announces
  | recv m =>
    by_cases hm : m.type = .InitRunspacePool ∨ m.type = .ConnectRunspacePool
    · simp only [ServerOp.step, Res.ret, recvServer]
      cases Pool.decode m with
      | error e => exact hq.announces
      | ok o =>
        have key : Announces p (p.processServer m o).1 := by
          unfold processServer
          split <;> (try simp [*] at hm) <;> (try exact hq.announces)
          · unfold serverInit
            refine announces_next ?_ fun p' _ h => h.change _ _ (by simp) (by simp)
            exact keeps_prepare_body (I := QPool p) (qPool_queue p) (by simp [Body.type]) ⟨hs, rfl, rfl, Adds.refl _ _⟩
          · unfold serverConnect
            refine announces_next ?_ fun p' _ h => announces_next ?_ fun p' _ h => h.change _ _ (by simp) (by simp)
            · exact keeps_prepare_body (I := QPool p) (qPool_queue p) (by simp [Body.type]) ⟨hs, rfl, rfl, Adds.refl _ _⟩
            · exact keeps_prepare_body (I := QPool p) (qPool_queue p) (by simp [Body.type]) h
        dsimp only
        generalize p.processServer m o = r at *
        obtain ⟨p', x⟩ := r
        cases x <;> exact key
    · exact hquiet (by simp [ServerOp.Moves]; simpa using hm) (by simp) (by simp)
  | _ => exact hquiet (by simp [ServerOp.Moves]) (by simp) (by simp)

theorem cipher_server (c : Option Nat) (op : ServerOp) :
    ServerStable Any (fun p => p.cipher = c ∧ p.isClient = false) op where
  queue := fun p t c pid s _ h => h
  changeState := fun p s e _ => changeAny (I := fun p => p.cipher = c ∧ p.isClient = false)
    (fun _ _ _ _ _ h => h) (fun _ _ h => h) p s e
  pipeChange := fun p n s e _ => pipeChangeAny (I := fun p => p.cipher = c ∧ p.isClient = false)
    (fun _ _ _ _ _ h => h) (fun _ _ _ h => h) p n s e
  keyAsked := fun p h _ => h
  keyReceived := fun p _ _ _ _ _ h => h

theorem cipher_server_step {p : Pool} (op : ServerOp) (h : p.isClient = false) :
    (op.step p).1.cipher = p.cipher ∧ (op.step p).1.isClient = false :=
  step_server (cipher_server p.cipher op) ⟨rfl, h⟩

/-! ## Sequences without repetitions -/

theorem squash_snoc {α : Type} [DecidableEq α] (l : List α) (x : α) :
    squash (l ++ [x]) = if l.getLast? = some x then squash l else squash l ++ [x] := by
  induction l with
  | nil => simp [squash]
  | cons a l ih =>
    cases l with
    | nil =>
      simp only [List.singleton_append, squash, List.getLast?_singleton, Option.some.injEq]
      split <;> simp_all
    | cons b l =>
      simp only [List.cons_append, squash, List.getLast?_cons_cons] at ih ⊢
      rw [ih]
      split <;> split <;> simp

theorem serverStates_snoc (p : Pool) (ops : List ServerOp) (op : ServerOp) :
    serverStates p (ops ++ [op]) = serverStates p ops ++ [(op.step (runServer p ops).1).1.state] := by
  induction ops generalizing p with
  | nil => rfl
  | cons o ops ih => simp only [List.cons_append, serverStates, ih, runServer]

theorem states_run {p : Pool} (hp : FreshServer p) (ops : List ServerOp)
    (hr : ∀ op ∈ ops, op.NotRaw [.RunspacePoolState])
    (hb : ∀ v, ServerOp.setBroken v ∈ ops → v.serializeFails (some p.sessionKey) = none) :
    let q := (runServer p ops).1
    q.cipher = some p.sessionKey ∧ q.isClient = false ∧
    squash (poolStates q.sendBuffer) = squash ((serverStates p ops).filter PoolState.announced) ∧
    (poolStates q.sendBuffer).getLast? = ((serverStates p ops).filter PoolState.announced).getLast? ∧
    (q.state.announced = true → (poolStates q.sendBuffer).getLast? = some q.state) := by
  induction ops using snoc_induction with
  | h0 =>
    obtain ⟨_, _, rfl⟩ := hp
    exact ⟨rfl, rfl, rfl, rfl, by simp [runServer, newServer, PoolState.announced]⟩
  | h1 ops op ih =>
    obtain ⟨h1, h2, h3, h4, h5⟩ := ih (fun o ho => hr o (by simp [ho])) (fun v hv => hb v (by simp [hv]))
    rw [serverStates_snoc]
    have hstep := step_announces (op := op) h2 (hr op (by simp))
      (by rintro v rfl; rw [h1]; exact hb v (by simp))
    obtain ⟨h6, h7⟩ := cipher_server_step op h2
    simp only [runServer_snoc]
    generalize (runServer p ops).1 = q at *
    generalize (op.step q).1 = q' at *
    obtain ⟨new, ha, hn⟩ := hstep
    refine ⟨h6.trans h1, h7, ?_⟩
    rw [ha, poolStates_append, List.filter_append]
    rcases hn with ⟨hn, hst | hsil⟩ | ⟨hn, hsil, hbo⟩
    · rw [hn, List.append_nil]
      by_cases hann : q'.state.announced = true
      · rw [hst] at hann
        have hl := h5 hann
        simp only [hst, List.filter_cons, hann, if_true, List.filter_nil]
        rw [squash_snoc, if_pos (by rw [← h4, hl])]
        exact ⟨h3, by simp [hl], fun _ => hl⟩
      · simp only [List.filter_cons, hann, List.filter_nil, Bool.false_eq_true, if_false, List.append_nil]
        exact ⟨h3, h4, fun h => absurd h (by simp)⟩
    · have hann : q'.state.announced = false := by simp [PoolState.announced, hsil]
      rw [hn, List.append_nil]
      simp only [List.filter_cons, hann, List.filter_nil, Bool.false_eq_true, if_false, List.append_nil]
      exact ⟨h3, h4, fun h => absurd h (by simp)⟩
    · have hann : q'.state.announced = true := by simp [PoolState.announced, hsil, hbo]
      rw [hn]
      simp only [List.filter_cons, hann, if_true, List.filter_nil]
      rw [squash_snoc, squash_snoc, h3, h4]
      exact ⟨rfl, by simp, fun _ => by simp⟩

/-! ## The client mirrors the state -/

theorem Val.Plain.serialize {v : Val} (h : v.Plain) {c : Option Nat} (hc : c.isSome) :
    v.serializeFails c = none := by
  unfold Val.serializeFails
  rw [if_neg (by rintro ⟨_, rfl⟩; cases hc), h.1]
  rfl

theorem Val.Plain.deserialize {v : Val} (h : v.Plain) : v.deserializeFails = none := by
  simp [Val.deserializeFails, h.2]

/-- A state message a client can read. -/
def StateOk (m : Msg) : Prop :=
  m.type = .RunspacePoolState → ∃ st e, m.content = some (.msg (.runspacePoolState st e)) ∧
    st ≠ .Connecting ∧ ∀ v, e = some v → v.deserializeFails = none

def StatesOk (p0 p : Pool) : Prop := p.isClient = false ∧ Adds StateOk p0.sendBuffer p.sendBuffer

theorem statesOk_queue (p0 p : Pool) (t : MsgType) (c : Option Obj) (pid : Option UUID) (s : StreamType)
    (ht : t ∉ [MsgType.RunspacePoolState]) (h : StatesOk p0 p) : StatesOk p0 (p.queue t c pid s) :=
  ⟨h.1, h.2.snoc fun e => absurd e (by simpa using ht)⟩

theorem statesOk_server (p0 : Pool) (op : ServerOp) (hb : ∀ v, op = .setBroken v → v.Plain) :
    ServerStable (fun t _ => t ∉ [MsgType.RunspacePoolState]) (StatesOk p0) op where
  queue := statesOk_queue p0
  changeState := fun p s e hm h => by
    unfold changeState
    rw [if_neg (by simp [h.1])]
    split
    · rename_i hem
      rcases prepare_cases { p with state := s } (some (.msg (.runspacePoolState s e))) none none .default
        with ⟨_, he⟩ | ⟨t, c, hc, he⟩
      · rw [he]; exact h
      · rw [he]
        cases hc
        refine ⟨h.1, h.2.snoc fun _ => ⟨s, e, rfl, ?_, ?_⟩⟩
        · rintro rfl; simp [emitted] at hem
        · rintro v rfl
          rcases hm with ⟨v', hop, _, hv⟩ | ⟨hv, _⟩
          · cases hv; exact (hb _ hop).deserialize
          · cases hv
    · exact h
  pipeChange := fun p n s e _ h => pipeChange_of (I := StatesOk p0)
    (A := fun t _ => t ∉ [MsgType.RunspacePoolState]) (statesOk_queue p0) (by simp) (fun p n s h => h) p n s e h
  keyAsked := fun p h _ => statesOk_queue p0 p _ _ _ _ (by simp) h
  keyReceived := fun p m k _ _ _ h => statesOk_queue p0 _ _ _ _ _ (by simp) h

theorem statesOk_step {p : Pool} {op : ServerOp} (hs : p.isClient = false)
    (hr : op.NotRaw [.RunspacePoolState]) (hb : ∀ v, op = .setBroken v → v.Plain) :
    StatesOk p (op.step p).1 := by
  refine keeps_server (statesOk_server p op hb) (fun t _ h => (server_mayQueue_state op t h).1) ?_
    ⟨hs, Adds.refl _ _⟩
  rintro b rfl
  exact rawAllowed_of_notRaw (by simp) (by simp) hr

/-- The state of the pool is still `st`. -/
def StateIs (st : PoolState) (p : Pool) : Prop := p.state = st ∧ p.isClient = true

theorem stateIs_client (st : PoolState) (op : ClientOp) (hm : ∀ s e, ¬ op.Moves s e) :
    ClientStable Any (StateIs st) op where
  queue := fun p t c pid s _ h => h
  changeState := fun p s e h => absurd h (hm s e)
  pipeChange := fun p n s e _ => pipeChangeAny (I := StateIs st)
    (fun _ _ _ _ _ h => h) (fun _ _ _ h => h) p n s e
  keySent := fun p h _ => h

theorem client_state_kept {p : Pool} {op : ClientOp} (hc : p.isClient = true)
    (hl : op.changesPool = false) (hr : ∀ m, op = .recv m → m.type ≠ .RunspacePoolState)
    (hst : p.state ≠ .Connecting) : StateIs p.state (op.step p).1 := by
  have hquiet : (∀ s e, ¬ op.Moves s e) → StateIs p.state (op.step p).1 := fun h =>
    step_client (stateIs_client p.state op h) ⟨rfl, hc⟩
  cases op with
  | base b =>
    refine hquiet ?_
    rintro s e ⟨_, ⟨b', hb, hb'⟩ | ⟨h, _⟩ | ⟨h, _⟩ | ⟨m, h, _⟩⟩
    · cases hb; cases b <;> simp_all [BaseOp.moves, ClientOp.changesPool]
    · cases h
    · cases h
    · cases h
  | open_ => simp [ClientOp.changesPool] at hl
  | connect => simp [ClientOp.changesPool] at hl
  | recv m =>
    have hr := hr m rfl
    by_cases ha : m.type = .ApplicationPrivateData
    · simp only [ClientOp.step, Res.ret, recvClient]
      cases Pool.decode m with
      | error e => exact ⟨rfl, hc⟩
      | ok o =>
        dsimp only
        unfold processClient
        rw [ha]
        rcases o with _ | (b | v)
        · exact ⟨rfl, hc⟩
        · cases b <;> first | exact ⟨rfl, hc⟩ | skip
          simp only
          rw [if_neg hst]
          exact ⟨rfl, hc⟩
        · exact ⟨rfl, hc⟩
    · refine hquiet ?_
      rintro s e ⟨_, ⟨b', hb, hb'⟩ | ⟨h, _⟩ | ⟨h, _⟩ | ⟨m', h, ⟨h', _⟩ | ⟨h', _⟩⟩⟩
      · cases hb
      · cases h
      · cases h
      · cases h; exact ha h'
      · cases h; exact hr h'
  | _ => exact hquiet (by simp [ClientOp.Moves])

/-- The invariant of mirrored states. -/
structure Mirror (s : Session) : Prop where
  cl : s.client.isClient = true
  sv : s.server.isClient = false
  sciph : s.server.cipher.isSome
  cst : s.client.state ≠ .Connecting
  posC : s.atClient ≤ s.server.sendBuffer.length
  toC : ∀ m ∈ s.toClient, StateOk m
  agree : s.server.state.announced = true →
    (poolStates s.toClient).getLast?.getD s.client.state = s.server.state

theorem Mirror.server_frame {s : Session} (g : Mirror s) {op : ServerOp}
    (hr : op.NotRaw [.RunspacePoolState]) (hb : ∀ v, op = .setBroken v → v.Plain) :
    Mirror { s with server := (op.step s.server).1 } := by
  have hf := statesOk_step g.sv hr hb
  have ha := step_announces g.sv hr fun v hv => (hb v hv).serialize g.sciph
  have hci := (cipher_server_step op g.sv).1
  generalize (op.step s.server).1 = p at *
  obtain ⟨h1, new, h2, h3⟩ := hf
  obtain ⟨new', h2', h4⟩ := ha
  have : new' = new := List.append_cancel_left (h2'.symm.trans h2)
  subst this
  have htc : Session.toClient { s with server := p } = s.toClient ++ new' := by
    simp only [Session.toClient, h2]
    rw [List.drop_append_of_le_length g.posC]
  refine { cl := g.cl, sv := h1, sciph := by dsimp only; rw [hci]; exact g.sciph, cst := g.cst, posC := ?_, toC := ?_, agree := ?_ }
  · simp only [h2, List.length_append]; exact Nat.le_add_right_of_le g.posC
  · rw [htc]
    intro m hm
    rcases List.mem_append.mp hm with hm | hm
    · exact g.toC m hm
    · exact h3 m hm
  · rw [htc, poolStates_append]
    intro hann
    rcases h4 with ⟨h4, h5 | h5⟩ | ⟨h4, _⟩
    · rw [h4, List.append_nil]
      dsimp only at hann ⊢
      rw [h5] at hann ⊢
      exact g.agree hann
    · simp [PoolState.announced, h5] at hann
    · rw [h4]; simp

theorem Mirror.step {s : Session} (g : Mirror s) {op : SessionOp} (ha : op.IsApi) (hm : op.Mirrored) :
    Mirror (s.step op).1 := by
  cases op with
  | client op =>
    have := client_state_kept g.cl hm (by rintro m rfl; exact ha.elim) g.cst
    simp only [Session.step]
    generalize (op.step s.client).1 = p at *
    exact { g with cl := this.2, cst := by dsimp only; rw [this.1]; exact g.cst,
                   agree := by dsimp only; rw [this.1]; exact g.agree }
  | server op =>
    refine g.server_frame ?_ ?_
    · cases op <;> try trivial
      rename_i b; cases b <;> first | trivial | exact ha.elim
    · rintro v rfl; exact hm
  | toServer =>
    simp only [Session.step]
    split
    · exact g
    rename_i m _
    simp only [serverReceives]
    have g1 := g.server_frame (op := .receiveData) trivial (by simp)
    generalize (ServerOp.receiveData.step s.server).1 = q at *
    have g2 := g1.server_frame (op := .recv (wire m)) trivial (by simp)
    exact { g2 with }
  | toClient =>
    simp only [Session.step]
    split
    · exact g
    rename_i m hm
    have hlt := (List.getElem?_eq_some_iff.mp hm).1
    have hd : s.toClient = m :: Session.toClient { s with atClient := s.atClient + 1 } := by
      simp only [Session.toClient]
      rw [List.drop_eq_getElem_cons hlt, (List.getElem?_eq_some_iff.mp hm).2]
    have htail : ∀ x ∈ Session.toClient { s with atClient := s.atClient + 1 }, StateOk x :=
      fun x hx => g.toC x (by rw [hd]; exact List.mem_cons_of_mem _ hx)
    have hag := g.agree
    rw [hd] at hag
    simp only [clientReceives]
    by_cases ht : m.type = .RunspacePoolState
    · obtain ⟨st, e, hc, hcon, hv⟩ := g.toC m (by rw [hd]; simp) ht
      have hdf : Obj.deserializeFails (.msg (.runspacePoolState st e)) = none := by
        cases e with
        | none => simp [Obj.deserializeFails, Obj.vals, Body.vals]
        | some v => simp [Obj.deserializeFails, Obj.vals, Body.vals, hv v rfl]
      have hstep : ((ClientOp.recv (wire m)).step s.client).1 = { s.client with state := st } := by
        simp only [ClientOp.step, Res.ret, recvClient, decode]
        rw [if_neg (by rw [wire_type, ht]; simp), wire_content, hc]
        simp only [hdf, processClient, wire_type, ht]
        unfold changeState
        rw [if_pos g.cl]
        rfl
      rw [hstep]
      refine { cl := g.cl, sv := g.sv, sciph := g.sciph, cst := hcon, posC := hlt, toC := htail, agree := ?_ }
      intro hann
      have := hag hann
      have hps : poolStates (m :: Session.toClient { s with atClient := s.atClient + 1 }) =
          st :: poolStates (Session.toClient { s with atClient := s.atClient + 1 }) := by
        simp [poolStates, ht, hc]
      rw [hps] at this
      rw [← this]
      simp only [Session.toClient]
      rw [List.getLast?_cons]
      simp
    · have := client_state_kept (op := .recv (wire m)) g.cl rfl (by rintro _ ⟨⟩; exact ht) g.cst
      generalize ((ClientOp.recv (wire m)).step s.client).1 = p at *
      refine { cl := this.2, sv := g.sv, sciph := g.sciph, cst := by dsimp only; rw [this.1]; exact g.cst, posC := hlt,
               toC := htail, agree := ?_ }
      intro hann
      have h := hag hann
      have hps : poolStates (m :: Session.toClient { s with atClient := s.atClient + 1 }) =
          poolStates (Session.toClient { s with atClient := s.atClient + 1 }) := by
        rw [← List.singleton_append, poolStates_append, poolStates_quiet (by simpa using ht), List.nil_append]
      rw [hps] at h
      dsimp only
      rw [this.1]
      exact h

theorem Mirror.run {s : Session} (g : Mirror s) (ops : List SessionOp)
    (ha : ∀ op ∈ ops, op.IsApi) (hm : ∀ op ∈ ops, op.Mirrored) : Mirror (s.run ops).1 := by
  induction ops generalizing s with
  | nil => exact g
  | cons op ops ih =>
    exact ih (g.step (ha op (by simp)) (hm op (by simp))) (fun x hx => ha x (by simp [hx]))
      fun x hx => hm x (by simp [hx])

/-! ## Pipelines -/

/-- The ids and states of the pipelines. -/
def view (p : Pool) : List (UUID × PipeState) := p.pipes.map fun q => (q.pid, q.state)

/-- No pipeline state changed and none was announced. -/
def QPipes (p0 p : Pool) : Prop :=
  p.isClient = false ∧ view p = view p0 ∧
  Adds (fun m => m.type ≠ .PipelineState) p0.sendBuffer p.sendBuffer

theorem qPipes_queue (p0 p : Pool) (t : MsgType) (c : Option Obj) (pid : Option UUID) (s : StreamType)
    (ht : t ∉ [MsgType.PipelineState]) (h : QPipes p0 p) : QPipes p0 (p.queue t c pid s) :=
  ⟨h.1, h.2.1, h.2.2.snoc (by simpa using ht)⟩

theorem qPipes_server (p0 : Pool) (op : ServerOp) (hm : ∀ n s e, ¬ op.PipeMoves n s e)
    (hn : ∀ pid, op ≠ .newPipe pid) :
    ServerStable (fun t _ => t ∉ [MsgType.PipelineState]) (QPipes p0) op where
  queue := qPipes_queue p0
  changeState := fun p s e _ h => changeState_of (I := QPipes p0)
    (A := fun t _ => t ∉ [MsgType.PipelineState]) (qPipes_queue p0) (by simp) (fun p s h => h) p s e h
  pipeChange := fun p n s e h => absurd h (hm n s e)
  keyAsked := fun p h _ => qPipes_queue p0 p _ _ _ _ (by simp) h
  keyReceived := fun p m k _ _ _ h => qPipes_queue p0 _ _ _ _ _ (by simp) h
  newPipe := fun p pid h => absurd h (hn pid)
  setMeta := fun p h o hq => by
    refine ⟨hq.1, ?_, hq.2.2⟩
    rw [← hq.2.1]
    simp only [view, updPipe]
    apply List.ext_getElem?
    intro i
    simp only [List.getElem?_map, List.getElem?_modify]
    cases p.pipes[i]? with
    | none => simp
    | some q => by_cases h : h = i <;> simp [h]

/-- What one operation of a server does to the pipelines and announces about them. -/
def PipeStep (p0 p : Pool) (op : ServerOp) : Prop :=
  ∃ new, p.sendBuffer = p0.sendBuffer ++ new ∧
    (((∀ m ∈ new, m.type ≠ .PipelineState) ∧ (view p = view p0 ∨
        ∃ pid, op = .newPipe pid ∧ view p = view p0 ++ [(pid, .NotStarted)])) ∨
     ∃ h q s m e, p0.pipes[h]? = some q ∧
       p.pipes = p0.pipes.modify h (fun q => { q with state := s }) ∧ new = [m] ∧
       m.type = .PipelineState ∧ m.pid = some q.pid ∧ m.content = some (.msg (.pipelineState s e)) ∧
       ∀ v, e = some v → v = stoppedError)

theorem QPipes.pipeStep {p0 p : Pool} {op : ServerOp} (h : QPipes p0 p) : PipeStep p0 p op := by
  obtain ⟨_, h2, new, h3, h4⟩ := h
  exact ⟨new, h3, Or.inl ⟨h4, Or.inl h2⟩⟩

theorem pipeStep_change {p : Pool} {op : ServerOp} (hs : p.isClient = false) (h : Nat) (s : PipeState)
    (e : Option Val) (he : ∀ v, e = some v → v = stoppedError) :
    PipeStep p (p.pipeChangeState h s e).1 op := by
  have hf : Obj.serializeFails p.cipher (.msg (.pipelineState s e)) = none := by
    cases e with
    | none => simp [Obj.serializeFails, Obj.vals, Body.vals]
    | some v => rw [he v rfl]; simp [Obj.serializeFails, Obj.vals, Body.vals, stoppedError, Val.serializeFails]
  unfold pipeChangeState onPipe
  cases hq : p.pipes[h]? with
  | none => exact QPipes.pipeStep ⟨hs, rfl, Adds.refl _ _⟩
  | some q =>
    dsimp only
    rw [if_neg (by simp [hs])]
    simp only [prepareMessage, hf, messageType, Body.type, Res.next]
    exact ⟨_, rfl, Or.inr ⟨h, q, s, _, e, hq, rfl, rfl, rfl, rfl, rfl, he⟩⟩

theorem step_pipes {p : Pool} {op : ServerOp} (hs : p.isClient = false)
    (hr : op.NotRaw [.PipelineState]) : PipeStep p (op.step p).1 op := by
  have hq : QPipes p p := ⟨hs, rfl, Adds.refl _ _⟩
  have hquiet : (∀ n s e, ¬ op.PipeMoves n s e) → (∀ pid, op ≠ .newPipe pid) → PipeStep p (op.step p).1 op := by
    intro h1 h2
    refine QPipes.pipeStep ?_
    refine keeps_server (qPipes_server p op h1 h2) (fun t _ h => (server_mayQueue_state op t h).2) ?_ hq
    rintro b rfl
    exact rawAllowed_of_notRaw (by simp) (by simp) hr
  cases op with
  | base b =>
    cases b with
    | pipeBeginStop h =>
      simp only [ServerOp.step, BaseOp.step, Res.ret, pipeBeginStop]
      unfold onPipe
      split
      · exact hq.pipeStep
      dsimp only
      split
      · exact hq.pipeStep
      · exact pipeStep_change hs _ _ _ (by simp)
    | _ => exact hquiet (by simp [ServerOp.PipeMoves]) (by simp)
  | pipeComplete h => exact pipeStep_change hs _ _ _ (by simp)
  | pipeStart h =>
    simp only [ServerOp.step, Res.ret, pipeStartServer]
    unfold onPipe
    split
    · exact hq.pipeStep
    dsimp only
    split
    · exact hq.pipeStep
    · exact pipeStep_change hs _ _ _ (by simp)
  | pipeStop h =>
    simp only [ServerOp.step, Res.ret, pipeStop]
    unfold onPipe
    split
    · exact hq.pipeStep
    dsimp only
    split
    · exact hq.pipeStep
    split
    · exact hq.pipeStep
    · exact pipeStep_change hs _ _ _ (by rintro _ ⟨⟩; rfl)
  | newPipe pid =>
    refine ⟨[], by simp [ServerOp.step, newPipe], Or.inl ⟨by simp, Or.inr ⟨pid, rfl, ?_⟩⟩⟩
    simp [ServerOp.step, newPipe, view]
  | _ => exact hquiet (by simp [ServerOp.PipeMoves]) (by simp)

theorem view_upd (p : Pool) (n : Nat) (s : PipeState) :
    view (p.updPipe n fun q => { q with state := s }) = (view p).modify n fun x => (x.1, s) := by
  apply List.ext_getElem?
  intro i
  simp only [view, updPipe, List.getElem?_map, List.getElem?_modify]
  cases p.pipes[i]? with
  | none => simp
  | some q => by_cases h : n = i <;> simp [h]

theorem view_new (p : Pool) (pid : UUID) (k : Option MsgType) (m : Option Obj) :
    view (p.newPipe pid k m) = view p ++ [(pid, .NotStarted)] := by
  simp [view, newPipe]

theorem view_length (p : Pool) : (view p).length = p.pipes.length := by simp [view]

/-- The table of a client lists pipelines under their ids. -/
structure Listed (p : Pool) : Prop where
  cl : p.isClient = true
  keys : p.table.keys.Nodup
  ids : ∀ u h, p.table.get? u = some h → ∃ st, (view p)[h]? = some (u, st)

theorem Listed.upd {p : Pool} (g : Listed p) (n : Nat) (s : PipeState) :
    Listed (p.updPipe n fun q => { q with state := s }) := by
  refine ⟨g.cl, g.keys, fun u h hu => ?_⟩
  obtain ⟨st, hst⟩ := g.ids u h hu
  rw [view_upd, List.getElem?_modify, hst]
  by_cases h : n = h <;> simp [h]

theorem listed_client (op : ClientOp) : ClientStable Any Listed op where
  queue := fun p t c pid s _ h => ⟨h.cl, h.keys, h.ids⟩
  changeState := fun p s e _ h => by
    unfold changeState; rw [if_pos h.cl]; exact ⟨h.cl, h.keys, h.ids⟩
  pipeChange := fun p n s e _ => pipeChangeAny (I := Listed) (fun _ _ _ _ _ h => ⟨h.cl, h.keys, h.ids⟩)
    (fun p n s h => h.upd n s) p n s e
  closePipe := fun p n q _ h _ _ => by
    refine ⟨h.cl, Dict.keys_nodup_erase _ _ h.keys, fun u m hu => ?_⟩
    dsimp only at hu
    by_cases hq : q.pid = u
    · subst hq; rw [Dict.get?_erase_self _ _ h.keys] at hu; cases hu
    · rw [Dict.get?_erase_ne _ hq] at hu; exact h.ids u m hu
  setPipe := fun p n s _ h => h.upd n s
  theirs := fun p m c _ _ _ h => ⟨h.cl, h.keys, h.ids⟩
  appPrivate := fun p v h => ⟨h.cl, h.keys, h.ids⟩
  request := fun p x _ h => ⟨h.cl, h.keys, h.ids⟩
  answered := fun p m r ci _ _ _ h => ⟨h.cl, h.keys, h.ids⟩
  hostCall := fun p ci m _ h _ _ => ⟨h.cl, h.keys, h.ids⟩
  responded := fun p ci _ h => ⟨h.cl, h.keys, h.ids⟩
  keySent := fun p h _ => ⟨h.cl, h.keys, h.ids⟩
  sessionKey := fun p m k s _ _ _ h _ => ⟨h.cl, h.keys, h.ids⟩
  minR := fun p v _ h => ⟨h.cl, h.keys, h.ids⟩
  maxR := fun p v _ h => ⟨h.cl, h.keys, h.ids⟩
  newPipe := fun p pid k v _ h => by
    refine ⟨h.cl, Dict.keys_nodup_set _ _ _ h.keys, fun u m hu => ?_⟩
    rw [view_new]
    simp only [newPipe] at hu
    by_cases hq : pid = u
    · subst hq
      rw [Dict.get?_set_self] at hu
      cases hu
      exact ⟨.NotStarted, by rw [← view_length]; simp⟩
    · rw [Dict.get?_set_ne _ _ hq] at hu
      obtain ⟨st, hst⟩ := h.ids u m hu
      exact ⟨st, by rw [List.getElem?_append_left (List.getElem?_eq_some_iff.mp hst).1]; exact hst⟩

/-- The client pipeline `hc` with the id `pid` is in state `st`. -/
structure CTwin (pid : UUID) (hc : Nat) (st : PipeState) (p : Pool) : Prop where
  listed : p.table.get? pid = some hc
  state : (view p)[hc]? = some (pid, st)
  one : ∀ h st', (view p)[h]? = some (pid, st') → h = hc
  base : Listed p

theorem CTwin.upd {pid : UUID} {hc : Nat} {st : PipeState} {p : Pool} (g : CTwin pid hc st p) {n : Nat}
    (hn : n ≠ hc) (s : PipeState) : CTwin pid hc st (p.updPipe n fun q => { q with state := s }) := by
  refine ⟨g.listed, ?_, fun h st' hst => ?_, g.base.upd n s⟩
  · rw [view_upd, List.getElem?_modify, g.state]; simp [hn]
  · rw [view_upd, List.getElem?_modify] at hst
    cases hv : (view p)[h]? with
    | none => rw [hv] at hst; simp at hst
    | some x =>
      rw [hv] at hst
      obtain ⟨u, st1⟩ := x
      refine g.one h st1 ?_
      rw [hv]
      by_cases e : n = h <;> simp [e] at hst <;> rw [hst.1]

theorem ctwin_client (pid : UUID) (hc : Nat) (st : PipeState) (op : ClientOp)
    (hl : (SessionOp.client op).Leaves pid hc)
    (hr : ∀ m, op = .recv m → m.type = .PipelineState → m.pid ≠ some pid) :
    ClientStable Any (CTwin pid hc st) op where
  queue := fun p t c u s _ h => ⟨h.listed, h.state, h.one, (listed_client op).queue p t c u s trivial h.base⟩
  changeState := fun p s e hm h => by
    have := (listed_client op).changeState p s e hm h.base
    unfold changeState at this ⊢; rw [if_pos h.base.cl] at this ⊢; exact ⟨h.listed, h.state, h.one, this⟩
  pipeChange := fun p n s e hm h => by
    unfold pipeChangeState onPipe
    split
    · exact h
    · dsimp only
      rw [if_pos h.base.cl]
      refine h.upd ?_ s
      obtain ⟨rfl, _⟩ := hm
      exact hl
  closePipe := fun p n q hcl h hq hq' => by
    refine ⟨?_, h.state, h.one, (listed_client op).closePipe p n q hcl h.base hq hq'⟩
    have : q.pid ≠ pid := by
      rintro rfl
      have := h.one n q.state (by simp [view, hq])
      subst this
      have : op = .base (.pipeClose n) := hcl
      subst this
      exact hl rfl
    dsimp only
    rw [Dict.get?_erase_ne _ this]
    exact h.listed
  setPipe := fun p n s hs h => by
    refine h.upd ?_ s
    rcases hs with ⟨rfl, _⟩ | ⟨m, e, u, rfl, ht, hcon, hu, hg⟩
    · exact hl
    · rintro rfl
      obtain ⟨st', hst⟩ := h.base.ids u n hg
      rw [h.state] at hst
      cases hst
      exact hr m rfl ht hu
  theirs := fun p m c h1 h2 h3 h => ⟨h.listed, h.state, h.one, (listed_client op).theirs p m c h1 h2 h3 h.base⟩
  appPrivate := fun p v h => ⟨h.listed, h.state, h.one, (listed_client op).appPrivate p v h.base⟩
  request := fun p x h1 h => ⟨h.listed, h.state, h.one, (listed_client op).request p x h1 h.base⟩
  answered := fun p m r ci h1 h2 h3 h => ⟨h.listed, h.state, h.one, (listed_client op).answered p m r ci h1 h2 h3 h.base⟩
  hostCall := fun p ci m h1 h h2 h3 => ⟨h.listed, h.state, h.one, (listed_client op).hostCall p ci m h1 h.base h2 h3⟩
  responded := fun p ci h1 h => ⟨h.listed, h.state, h.one, (listed_client op).responded p ci h1 h.base⟩
  keySent := fun p h h1 => ⟨h.listed, h.state, h.one, (listed_client op).keySent p h.base h1⟩
  sessionKey := fun p m k s h1 h2 h3 h h4 => ⟨h.listed, h.state, h.one, (listed_client op).sessionKey p m k s h1 h2 h3 h.base h4⟩
  minR := fun p v h1 h => ⟨h.listed, h.state, h.one, (listed_client op).minR p v h1 h.base⟩
  maxR := fun p v h1 h => ⟨h.listed, h.state, h.one, (listed_client op).maxR p v h1 h.base⟩
  newPipe := fun p u k v hop h => by
    refine ⟨?_, ?_, ?_, (listed_client op).newPipe p u k v hop h.base⟩
    · subst hop
      simp only [newPipe]
      rw [Dict.get?_set_ne _ _ hl]
      exact h.listed
    · rw [view_new, List.getElem?_append_left (List.getElem?_eq_some_iff.mp h.state).1]; exact h.state
    · intro n st' hn
      rw [view_new] at hn
      rcases Nat.lt_or_ge n (view p).length with hlt | hge
      · rw [List.getElem?_append_left hlt] at hn; exact h.one n st' hn
      · rw [List.getElem?_append_right hge] at hn
        rcases hx : n - (view p).length with _ | k
        · rw [hx] at hn; simp at hn
          subst hop; exact absurd hn.1 hl
        · rw [hx] at hn; simp at hn

/-- A pipeline state message a client can read. -/
def PipeMsgOk (m : Msg) : Prop :=
  m.type = .PipelineState → ∃ st e, m.content = some (.msg (.pipelineState st e)) ∧
    ∀ v, e = some v → v = stoppedError

/-- What holds in every session. -/
structure Linked (s : Session) : Prop where
  cl : Listed s.client
  sv : s.server.isClient = false
  posC : s.atClient ≤ s.server.sendBuffer.length
  toC : ∀ m ∈ s.toClient, PipeMsgOk m

theorem PipeStep.ok {p0 p : Pool} {op : ServerOp} (h : PipeStep p0 p op) :
    Adds PipeMsgOk p0.sendBuffer p.sendBuffer := by
  obtain ⟨new, h1, ⟨h2, _⟩ | ⟨h, q, s, m, e, _, _, rfl, _, _, hc, he⟩⟩ := h
  · exact ⟨new, h1, fun m hm ht => absurd ht (h2 m hm)⟩
  · exact ⟨[m], h1, fun x hx _ => by rw [List.mem_singleton.mp hx]; exact ⟨s, e, hc, he⟩⟩

theorem Linked.server {s : Session} (g : Linked s) (op : ServerOp) (hr : op.NotRaw [.PipelineState]) :
    Linked { s with server := (op.step s.server).1 } := by
  obtain ⟨new, h1, h2⟩ := (step_pipes (op := op) g.sv hr).ok
  have hsv := (cipher_server_step op g.sv).2
  generalize (op.step s.server).1 = p at *
  refine ⟨g.cl, hsv, ?_, ?_⟩
  · simp only [h1, List.length_append]; exact Nat.le_add_right_of_le g.posC
  · simp only [Session.toClient, h1]
    rw [List.drop_append_of_le_length g.posC]
    intro m hm
    rcases List.mem_append.mp hm with hm | hm
    · exact g.toC m hm
    · exact h2 m hm

theorem notRaw_api {op : ServerOp} {ts : List MsgType} (ha : (SessionOp.server op).IsApi) : op.NotRaw ts := by
  cases op <;> try trivial
  rename_i b; cases b <;> first | trivial | exact ha.elim

theorem Linked.step {s : Session} (g : Linked s) {op : SessionOp} (ha : op.IsApi) :
    Linked (s.step op).1 := by
  cases op with
  | client op => exact { g with cl := step_client (listed_client op) g.cl }
  | server op => exact g.server op (notRaw_api ha)
  | toServer =>
    simp only [Session.step]
    split
    · exact g
    rename_i m _
    have g1 := (g.server .receiveData trivial).server (.recv (wire m)) trivial
    exact { g1 with }
  | toClient =>
    simp only [Session.step]
    split
    · exact g
    rename_i m hm
    have hlt := (List.getElem?_eq_some_iff.mp hm).1
    have hd : s.toClient = m :: Session.toClient { s with atClient := s.atClient + 1 } := by
      simp only [Session.toClient]
      rw [List.drop_eq_getElem_cons hlt, (List.getElem?_eq_some_iff.mp hm).2]
    exact ⟨step_client (listed_client _) g.cl, g.sv, hlt,
      fun x hx => g.toC x (by rw [hd]; exact List.mem_cons_of_mem _ hx)⟩

theorem Linked.run {s : Session} (g : Linked s) (ops : List SessionOp)
    (ha : ∀ op ∈ ops, op.IsApi) : Linked (s.run ops).1 := by
  induction ops generalizing s with
  | nil => exact g
  | cons op ops ih => exact ih (g.step (ha op (by simp))) fun x hx => ha x (by simp [hx])

theorem linked_config (c : Session.Config) : Linked c.session where
  cl := ⟨rfl, List.nodup_nil, by
    intro u h hu; simp [Session.Config.session, Session.Config.client, newClient, Dict.get?] at hu⟩
  sv := rfl
  posC := Nat.le_refl _
  toC := by simp [Session.toClient, Session.Config.session, Session.Config.server, newServer]

/-- The two pipelines with the id `pid` agree as far as the client was told, since the server had
queued `n0` messages. -/
structure Twin (pid : UUID) (hc hs n0 : Nat) (s : Session) (cst sst : PipeState) : Prop where
  base : Linked s
  client : CTwin pid hc cst s.client
  server : (view s.server)[hs]? = some (pid, sst)
  one : ∀ h st, (view s.server)[h]? = some (pid, st) → h = hs
  pos : n0 ≤ s.server.sendBuffer.length
  agree : pipeStates pid (s.server.sendBuffer.drop n0) = [] ∨
    (pipeStates pid s.toClient).getLast?.getD cst = sst

theorem Twin.server_op {pid : UUID} {hc hs n0 : Nat} {s : Session} {cst sst : PipeState}
    (g : Twin pid hc hs n0 s cst sst) (op : ServerOp) (hr : op.NotRaw [.PipelineState])
    (hl : op ≠ .newPipe pid) :
    ∃ sst', Twin pid hc hs n0 { s with server := (op.step s.server).1 } cst sst' := by
  have gl := g.base.server op hr
  obtain ⟨new, h1, h2⟩ := step_pipes (op := op) g.base.sv hr
  generalize (op.step s.server).1 = p at *
  have htc : Session.toClient { s with server := p } = s.toClient ++ new := by
    simp only [Session.toClient, h1]
    rw [List.drop_append_of_le_length g.base.posC]
  have hdr : p.sendBuffer.drop n0 = s.server.sendBuffer.drop n0 ++ new := by
    rw [h1, List.drop_append_of_le_length g.pos]
  have hpos : n0 ≤ p.sendBuffer.length := by
    rw [h1, List.length_append]; exact Nat.le_add_right_of_le g.pos
  rcases h2 with ⟨h2, hv⟩ | ⟨h, q, st, m, e, hq, hv, rfl, ht, hp, hcon, _⟩
  · refine ⟨sst, gl, g.client, ?_, ?_, hpos, ?_⟩
    · rcases hv with hv | ⟨u, _, hv⟩
      · dsimp only; rw [hv]; exact g.server
      · dsimp only; rw [hv, List.getElem?_append_left (List.getElem?_eq_some_iff.mp g.server).1]; exact g.server
    · intro n st' hn
      dsimp only at hn
      rcases hv with hv | ⟨u, rfl, hv⟩
      · rw [hv] at hn; exact g.one n st' hn
      · rw [hv] at hn
        rcases Nat.lt_or_ge n (view s.server).length with hlt | hge
        · rw [List.getElem?_append_left hlt] at hn; exact g.one n st' hn
        · rw [List.getElem?_append_right hge] at hn
          rcases hx : n - (view s.server).length with _ | k
          · rw [hx] at hn; simp at hn
            exact absurd (by rw [hn.1]) hl
          · rw [hx] at hn; simp at hn
    · rw [htc]
      dsimp only
      rw [hdr, pipeStates_append, pipeStates_append, pipeStates_quiet h2, List.append_nil, List.append_nil]
      exact g.agree
  · have hvu : view p = (view s.server).modify h fun x => (x.1, st) := by
      rw [← view_upd]; simp only [view, updPipe, hv]
    have hone : ∀ n st', (view p)[n]? = some (pid, st') → n = hs := by
      intro n st' hn
      rw [hvu, List.getElem?_modify] at hn
      cases hx : (view s.server)[n]? with
      | none => rw [hx] at hn; simp at hn
      | some x =>
        obtain ⟨u, st1⟩ := x
        rw [hx] at hn
        refine g.one n st1 ?_
        rw [hx]
        by_cases e : h = n <;> simp [e] at hn <;> rw [hn.1]
    have hqv : (view s.server)[h]? = some (q.pid, q.state) := by simp [view, hq]
    by_cases hh : h = hs
    · subst hh
      have hqp : q.pid = pid := by
        have := g.server
        rw [hqv] at this
        simp only [Option.some.injEq, Prod.mk.injEq] at this
        exact this.1
      refine ⟨st, gl, g.client, ?_, hone, hpos, Or.inr ?_⟩
      · dsimp only; rw [hvu, List.getElem?_modify, g.server]; simp
      · rw [htc, pipeStates_append]
        have : pipeStates pid [m] = [st] := by simp [pipeStates, ht, hcon, hp, hqp]
        rw [this]; simp
    · have hqp : q.pid ≠ pid := by
        rintro rfl
        exact hh (g.one h q.state hqv)
      refine ⟨sst, gl, g.client, ?_, hone, hpos, ?_⟩
      · dsimp only; rw [hvu, List.getElem?_modify, g.server]; simp [hh]
      · have hem : pipeStates pid [m] = [] := by simp [pipeStates, ht, hcon, hp, hqp]
        rw [htc]
        dsimp only
        rw [hdr, pipeStates_append, pipeStates_append, hem, List.append_nil, List.append_nil]
        exact g.agree

theorem wire_pid {m : Msg} {pid : UUID} (h : pid ≠ EMPTY_UUID) : (wire m).pid = some pid ↔ m.pid = some pid := by
  simp only [wire]
  split
  · rename_i he
    rw [he]
    simp
    exact fun h' => h h'.symm
  · rfl

theorem Twin.step {pid : UUID} (hpid : pid ≠ EMPTY_UUID) {hc hs n0 : Nat} {s : Session}
    {cst sst : PipeState} (g : Twin pid hc hs n0 s cst sst) {op : SessionOp} (ha : op.IsApi)
    (hl : op.Leaves pid hc) : ∃ cst' sst', Twin pid hc hs n0 (s.step op).1 cst' sst' := by
  have gl := g.base.step ha
  cases op with
  | client op =>
    refine ⟨cst, sst, gl, ?_, g.server, g.one, g.pos, g.agree⟩
    exact step_client (ctwin_client pid hc cst op hl (by rintro m rfl; exact ha.elim)) g.client
  | server op =>
    refine ⟨cst, g.server_op op (notRaw_api ha) ?_⟩
    rintro rfl; exact hl rfl
  | toServer =>
    simp only [Session.step] at gl ⊢
    split
    · exact ⟨cst, sst, g⟩
    rename_i m _
    obtain ⟨sst1, g1⟩ := g.server_op .receiveData trivial (by simp)
    obtain ⟨sst2, g2⟩ := g1.server_op (.recv (wire m)) trivial (by simp)
    refine ⟨cst, sst2, ?_, g2.client, g2.server, g2.one, g2.pos, g2.agree⟩
    exact { g2.base with }
  | toClient =>
    simp only [Session.step] at gl ⊢
    split
    · exact ⟨cst, sst, g⟩
    rename_i m hm
    simp only [hm] at gl
    have hlt := (List.getElem?_eq_some_iff.mp hm).1
    have hd : s.toClient = m :: Session.toClient { s with atClient := s.atClient + 1 } := by
      simp only [Session.toClient]
      rw [List.drop_eq_getElem_cons hlt, (List.getElem?_eq_some_iff.mp hm).2]
    have hag := g.agree
    rw [hd] at hag
    have hmo := g.base.toC m (by rw [hd]; simp)
    by_cases hmine : m.type = .PipelineState ∧ m.pid = some pid
    · obtain ⟨ht, hp⟩ := hmine
      obtain ⟨st, e, hcon, he⟩ := hmo ht
      have hdf : Obj.deserializeFails (.msg (.pipelineState st e)) = none := by
        cases e with
        | none => simp [Obj.deserializeFails, Obj.vals, Body.vals]
        | some v => rw [he v rfl]; simp [Obj.deserializeFails, Obj.vals, Body.vals, stoppedError, Val.deserializeFails]
      have hstep : (clientReceives s.client m).1 = s.client.updPipe hc fun q => { q with state := st } := by
        simp only [clientReceives, ClientOp.step, Res.ret, recvClient, decode]
        rw [if_neg (by rw [wire_type, ht]; simp), wire_content, hcon]
        simp only [hdf, processClient, wire_type, ht, clientPipelineState]
        rw [(wire_pid hpid).mpr hp]
        simp only [Option.bind_some, g.client.listed]
        rfl
      refine ⟨st, sst, gl, ?_, g.server, g.one, g.pos, ?_⟩
      · rw [hstep]
        refine ⟨g.client.listed, ?_, ?_, g.client.base.upd hc st⟩
        · rw [view_upd, List.getElem?_modify, g.client.state]; simp
        · intro n st' hn
          rw [view_upd, List.getElem?_modify] at hn
          cases hx : (view s.client)[n]? with
          | none => rw [hx] at hn; simp at hn
          | some x =>
            obtain ⟨u, st1⟩ := x
            rw [hx] at hn
            refine g.client.one n st1 ?_
            rw [hx]
            by_cases e : hc = n <;> simp [e] at hn <;> rw [hn.1]
      · rcases hag with h | h
        · exact Or.inl h
        · right
          have hps : pipeStates pid (m :: Session.toClient { s with atClient := s.atClient + 1 }) =
              st :: pipeStates pid (Session.toClient { s with atClient := s.atClient + 1 }) := by
            simp [pipeStates, ht, hcon, hp]
          rw [hps, List.getLast?_cons] at h
          simpa [Session.toClient] using h
    · refine ⟨cst, sst, gl, ?_, g.server, g.one, g.pos, ?_⟩
      · refine step_client (ctwin_client pid hc cst (.recv (wire m)) trivial ?_) g.client
        rintro _ ⟨⟩ ht hp
        exact hmine ⟨ht, (wire_pid hpid).mp hp⟩
      · rcases hag with h | h
        · exact Or.inl h
        · right
          have hps : pipeStates pid (m :: Session.toClient { s with atClient := s.atClient + 1 }) =
              pipeStates pid (Session.toClient { s with atClient := s.atClient + 1 }) := by
            rw [← List.singleton_append, pipeStates_append]
            have : pipeStates pid [m] = [] := by
              simp only [pipeStates, List.filterMap_cons, List.filterMap_nil]
              split
              · rfl
              · rename_i hx
                split at hx
                · rename_i ht _
                  split at hx
                  · rename_i hp; exact absurd ⟨ht, hp⟩ hmine
                  · cases hx
                · cases hx
            rw [this, List.nil_append]
          rw [hps] at h
          exact h

theorem Twin.run {pid : UUID} (hpid : pid ≠ EMPTY_UUID) {hc hs n0 : Nat} {s : Session}
    {cst sst : PipeState} (g : Twin pid hc hs n0 s cst sst) (ops : List SessionOp)
    (ha : ∀ op ∈ ops, op.IsApi) (hl : ∀ op ∈ ops, op.Leaves pid hc) :
    ∃ cst' sst', Twin pid hc hs n0 (s.run ops).1 cst' sst' := by
  induction ops generalizing s cst sst with
  | nil => exact ⟨cst, sst, g⟩
  | cons op ops ih =>
    obtain ⟨c1, s1, g1⟩ := g.step hpid (ha op (by simp)) (hl op (by simp))
    exact ih g1 (fun x hx => ha x (by simp [hx])) fun x hx => hl x (by simp [hx])

end Verif
