import Verif.Proof.Agree

/-! # What the operations that concern neither requests nor limits leave alone (C17, C18) -/

namespace Verif
open Pool

/-- Messages satisfying `P` were appended. -/
def Adds (P : Msg → Prop) (a b : List Msg) : Prop := ∃ new, b = a ++ new ∧ ∀ m ∈ new, P m

theorem Adds.refl (P : Msg → Prop) (a : List Msg) : Adds P a a := ⟨[], by simp, by simp⟩

theorem Adds.snoc {P : Msg → Prop} {a b : List Msg} (h : Adds P a b) {m : Msg} (hm : P m) :
    Adds P a (b ++ [m]) := by
  obtain ⟨new, rfl, hn⟩ := h
  refine ⟨new ++ [m], by simp, ?_⟩
  intro x hx
  rw [List.mem_append, List.mem_singleton] at hx
  rcases hx with hx | rfl
  · exact hn x hx
  · exact hm

/-- A message of a client that the invariants of a session allow in flight. -/
def CSound (m : Msg) : Prop :=
  m.type ≠ .InitRunspacePool ∧
  (m.type = .ConnectRunspacePool → m.content = some (.msg (.connectRunspacePool none none)))

/-- A message of a client that is no request. -/
def CQuiet (m : Msg) : Prop := requestOf m = none ∧ CSound m

/-- A message of a server that the invariants of a session allow in flight. -/
def SSound (m : Msg) : Prop :=
  m.type = .RunspacePoolState → ∀ e, m.content ≠ some (.msg (.runspacePoolState .BeforeOpen e))

/-- A message of a server that does not concern requests or limits. -/
def SQuiet (m : Msg) : Prop := responseOf m = none ∧ initOf m = none ∧ SSound m

/-- What a client operation without requests leaves alone. -/
def CFrame (p0 p : Pool) : Prop :=
  p.isClient = true ∧ p.ciHandlers = p0.ciHandlers ∧ p.ciCount = p0.ciCount ∧
  (p.minR, p.maxR) = (p0.minR, p0.maxR) ∧ p.state ≠ .BeforeOpen ∧
  Adds CQuiet p0.sendBuffer p.sendBuffer

/-- What a server operation without answers leaves alone. -/
def SFrame (p0 p : Pool) : Prop :=
  p.isClient = false ∧ p.ciHandlers = p0.ciHandlers ∧ p.ciEvents = p0.ciEvents ∧
  (p.minR, p.maxR) = (p0.minR, p0.maxR) ∧ Adds SQuiet p0.sendBuffer p.sendBuffer

/-- The types a client may queue without care. -/
def cFree (t : MsgType) (_ : Option Obj) : Prop :=
  t ∉ [MsgType.InitRunspacePool, .ConnectRunspacePool, .GetAvailableRunspaces,
    .ResetRunspaceState, .SetMaxRunspaces, .SetMinRunspaces]

/-- The types a server may queue without care. -/
def sFree (t : MsgType) (_ : Option Obj) : Prop :=
  t ∉ [MsgType.RunspaceAvailability, .RunspacePoolInitData, .RunspacePoolState]

theorem cQuiet_of_free {m : Msg} (h : cFree m.type m.content) : CQuiet m := by
  simp only [cFree, List.mem_cons, List.not_mem_nil, or_false, not_or] at h
  obtain ⟨h1, h2, h3, h4, h5, h6⟩ := h
  refine ⟨?_, h1, fun e => absurd e h2⟩
  unfold requestOf
  split <;> simp_all

theorem sQuiet_of_free {m : Msg} (h : sFree m.type m.content) : SQuiet m := by
  simp only [sFree, List.mem_cons, List.not_mem_nil, or_false, not_or] at h
  obtain ⟨h1, h2, h3⟩ := h
  refine ⟨?_, ?_, fun e => absurd e h3⟩
  · unfold responseOf; split <;> simp_all
  · unfold initOf; split <;> simp_all

theorem cFrame_queue (p0 p : Pool) (t : MsgType) (c : Option Obj) (pid : Option UUID)
    (s : StreamType) (ha : cFree t c) (h : CFrame p0 p) : CFrame p0 (p.queue t c pid s) := by
  obtain ⟨h1, h2, h3, h4, h5, h6⟩ := h
  exact ⟨h1, h2, h3, h4, h5, h6.snoc (cQuiet_of_free ha)⟩

theorem sFrame_queue (p0 p : Pool) (t : MsgType) (c : Option Obj) (pid : Option UUID)
    (s : StreamType) (ha : sFree t c) (h : SFrame p0 p) : SFrame p0 (p.queue t c pid s) := by
  obtain ⟨h1, h2, h3, h4, h5⟩ := h
  exact ⟨h1, h2, h3, h4, h5.snoc (sQuiet_of_free ha)⟩

theorem sFrame_change (p0 p : Pool) (s : PoolState) (e : Option Val) (hs : s ≠ .BeforeOpen)
    (h : SFrame p0 p) : SFrame p0 (p.changeState s e).1 := by
  obtain ⟨h1, h2, h3, h4, h5⟩ := h
  unfold changeState
  rw [if_neg (by simp [h1])]
  split
  · rcases prepare_cases { p with state := s } (some (.msg (.runspacePoolState s e))) none none .default
      with ⟨_, he⟩ | ⟨t, c, hc, he⟩
    · rw [he]; exact ⟨h1, h2, h3, h4, h5⟩
    · rw [he]
      cases hc
      refine ⟨h1, h2, h3, h4, h5.snoc ⟨rfl, rfl, ?_⟩⟩
      intro _ e' he'
      injection he' with he'
      injection he' with he'
      injection he' with he'
      exact hs he'
  · exact ⟨h1, h2, h3, h4, h5⟩

/-- The client operations that make requests or (try to) open or connect. -/
def _root_.Verif.ClientOp.special : ClientOp → Bool
  | .open_ | .connect | .getAvailableRunspaces | .resetRunspaceState | .setMaxRunspaces _
  | .setMinRunspaces _ => true
  | .recv m => m.type = .RunspaceAvailability ∨ m.type = .RunspacePoolInitData
  | _ => false

theorem cFrame_client (p0 : Pool) (op : ClientOp) (hsp : op.special = false)
    (hso : ∀ m, op = .recv m → SSound m) : ClientStable cFree (CFrame p0) op where
  queue := fun p t c pid s ha h => cFrame_queue p0 p t c pid s ha h
  changeState := by
    rintro p s e ⟨rfl, hm⟩ ⟨h1, h2, h3, h4, h5, h6⟩
    unfold changeState
    rw [if_pos h1]
    refine ⟨h1, h2, h3, h4, ?_, h6⟩
    rintro rfl
    rcases hm with ⟨b, _, hb⟩ | ⟨_, hb⟩ | ⟨_, hb⟩ | ⟨m, hop, ⟨_, hb⟩ | ⟨ht, e', hc⟩⟩
    · cases b <;> simp [BaseOp.moves] at hb
    · cases hb
    · cases hb
    · cases hb
    · exact hso m hop ht e' hc
  pipeChange := fun p n s e _ h => by
    refine pipeChange_of (I := CFrame p0) (A := cFree) (cFrame_queue p0) ?_ ?_ p n s e h
    · intro s e; simp [cFree]
    · intro p n s h; exact h
  setPipe := fun p n s _ h => h
  theirs := fun p m c _ _ _ h => h
  appPrivate := fun p v h => h
  request := fun p h hr => by
    cases op <;> simp [ClientOp.request] at hr <;> simp [ClientOp.special] at hsp
  answered := fun p m r ci hop ht => by subst hop; simp [ClientOp.special, ht] at hsp
  hostCall := fun p ci m _ h _ _ => h
  responded := fun p ci _ h => h
  keySent := fun p h _ => by
    obtain ⟨h1, h2, h3, h4, h5, h6⟩ := h
    exact ⟨h1, h2, h3, h4, h5, h6.snoc (cQuiet_of_free (by simp [cFree]))⟩
  sessionKey := fun p m k s _ _ _ h _ => h
  minR := fun p v hv => by
    rcases hv with ⟨rfl, _⟩ | ⟨m, rfl, ht⟩
    · simp [ClientOp.special] at hsp
    · simp [ClientOp.special] at hsp; rcases ht with ht | ht <;> simp_all
  maxR := fun p v hv => by
    rcases hv with ⟨rfl, _⟩ | ⟨m, rfl, ht⟩
    · simp [ClientOp.special] at hsp
    · simp [ClientOp.special] at hsp; rcases ht with ht | ht <;> simp_all
  newPipe := fun p pid k v _ h => h
  closePipe := fun p h q _ hp _ _ => hp

theorem cFrame_step {p : Pool} {op : ClientOp} (hsp : op.special = false)
    (hso : ∀ m, op = .recv m → SSound m) (hraw : ∀ m t pid s, op ≠ .base (.prepare m t pid s))
    (hc : p.isClient = true) (hst : p.state ≠ .BeforeOpen) (ht : PipesTyped p) :
    CFrame p (op.step p).1 := by
  refine step_keeps_client (cFrame_client p op hsp hso) ?_ ?_ ht ⟨hc, rfl, rfl, rfl, hst, Adds.refl _ _⟩
  · intro t c hm
    cases op <;> simp only [ClientOp.special, ClientOp.mayQueue] at hsp hm <;>
      (try cases hsp) <;> (try simp at hm) <;>
      (first | (rcases hm with rfl | rfl | rfl <;> simp [cFree])
             | (rcases hm with rfl | rfl <;> simp [cFree]) | (subst hm; simp [cFree]))
  · intro b hb
    cases b <;> try trivial
    exact absurd hb (hraw _ _ _ _)

/-- The server operations that concern requests or limits. -/
def _root_.Verif.ServerOp.special : ServerOp → Bool
  | .availabilityResponse .. => true
  | .recv m => m.type = .ConnectRunspacePool ∨ (requestOf m).isSome
  | _ => false

theorem sFrame_server (p0 : Pool) (op : ServerOp) (hsp : op.special = false)
    (hso : ∀ m, op = .recv m → m.type ≠ .InitRunspacePool) : ServerStable sFree (SFrame p0) op where
  queue := fun p t c pid s ha h => sFrame_queue p0 p t c pid s ha h
  changeState := by
    rintro p s e hm h
    refine sFrame_change p0 p s e ?_ h
    rintro rfl
    rcases hm with ⟨v, _, hb, _⟩ | ⟨_, ⟨b, _, hb⟩ | ⟨_, hb⟩ | ⟨_, hb⟩⟩
    · cases hb
    · cases b <;> simp [BaseOp.moves] at hb
    · cases hb
    · cases hb
  pipeChange := fun p n s e _ h => by
    refine pipeChange_of (I := SFrame p0) (A := sFree) (sFrame_queue p0) ?_ ?_ p n s e h
    · intro s e; simp [sFree]
    · intro p n s h; exact h
  reset := fun p _ h _ => h
  opening := fun p _ h _ => h
  theirs := fun p m c _ _ _ h => h
  rpid := fun p u h => h
  init := fun p m a ar h t mx mn hop ht => absurd ht (hso m hop)
  nextCi := fun p _ h => h
  record := fun p ci m h hop hr => by subst hop; simp [ServerOp.special, hr] at hsp
  answered := fun p ci r hop => by subst hop; simp [ServerOp.special] at hsp
  keyAsked := fun p h _ => by
    obtain ⟨h1, h2, h3, h4, h5⟩ := h
    exact ⟨h1, h2, h3, h4, h5.snoc (sQuiet_of_free (by simp [sFree]))⟩
  keyReceived := fun p m k _ _ _ h => by
    obtain ⟨h1, h2, h3, h4, h5⟩ := h
    exact ⟨h1, h2, h3, h4, h5.snoc (sQuiet_of_free (by simp [sFree]))⟩
  limits := fun p mn mx hl => by
    rcases hl with ⟨ci, rfl⟩ | ⟨m, rfl, ht⟩ <;> simp [ServerOp.special] at hsp
    exact absurd ht hsp.1
  newPipe := fun p pid _ h => h
  setMeta := fun p h o hp => hp
  closePipe := fun p h q _ hp _ _ => hp

theorem sFrame_step {p : Pool} {op : ServerOp} (hsp : op.special = false)
    (hso : ∀ m, op = .recv m → m.type ≠ .InitRunspacePool)
    (hraw : ∀ m t pid s, op ≠ .base (.prepare m t pid s))
    (hc : p.isClient = false) : SFrame p (op.step p).1 := by
  refine keeps_server (sFrame_server p op hsp hso) ?_ ?_ ⟨hc, rfl, rfl, rfl, Adds.refl _ _⟩
  · intro t c hm
    cases op <;> simp only [ServerOp.special, ServerOp.mayQueue] at hsp hm <;>
      (try cases hsp) <;> (try simp at hm)
    · subst hm; simp [sFree]
    · rcases hm with rfl | rfl <;> simp [sFree]
    · rcases hm with rfl | rfl <;> simp [sFree]
    · rcases hm with rfl | rfl <;> simp [sFree]
    · subst hm; rename_i k _; cases k <;> simp [sFree, RecordKind.type]
    · simp at hsp
      rcases hm with rfl | rfl | hm
      · simp [sFree]
      · simp [sFree]
      · exact absurd hm.1 hsp.1
  · intro b hb
    cases b <;> try trivial
    exact absurd hb (hraw _ _ _ _)

/-! ## The session -/

/-- The requests of the client in a session and the ids it handed out for them. -/
def issued (tr : List (SessionOp × Except Err Ret)) : List (Int × Option Handler) :=
  tr.filterMap fun e => match e with
    | (.client op, .ok (.ci n)) => op.request.map fun h => (n, h)
    | _ => none

/-- The invariant of an open session. -/
structure Good (s : Session) (iss : List (Int × Option Handler)) : Prop where
  cl : s.client.isClient = true
  sv : s.server.isClient = false
  typed : PipesTyped s.client
  state : s.client.state ≠ .BeforeOpen
  posS : s.atServer ≤ s.client.sendBuffer.length
  posC : s.atClient ≤ s.server.sendBuffer.length
  toS : ∀ m ∈ s.toServer, CSound m
  toC : ∀ m ∈ s.toClient, SSound m
  core : Core s.client.ciHandlers s.client.ciCount (s.toServer.filterMap requestOf)
    s.server.ciEvents s.server.ciHandlers ((s.server.sendBuffer.filterMap responseOf).map Prod.snd)
    s.toClient (s.client.minR, s.client.maxR) (s.server.minR, s.server.maxR) iss

theorem Good.client_frame {s : Session} {iss : List (Int × Option Handler)} (g : Good s iss) {p' : Pool}
    (hf : CFrame s.client p') (ht : PipesTyped p') : Good { s with client := p' } iss := by
  obtain ⟨h1, h2, h3, h4, h5, new, h6, h7⟩ := hf
  have hts : Session.toServer { s with client := p' } = s.toServer ++ new := by
    simp only [Session.toServer, h6]
    rw [List.drop_append_of_le_length g.posS]
  have hnew : new.filterMap requestOf = [] := by
    rw [List.filterMap_eq_nil_iff]; exact fun m hm => (h7 m hm).1
  exact
    { cl := h1, sv := g.sv, typed := ht, state := h5
      posS := by simp only [h6, List.length_append]; exact Nat.le_add_right_of_le g.posS
      posC := g.posC
      toS := by
        rw [hts]
        intro m hm
        rcases List.mem_append.mp hm with hm | hm
        · exact g.toS m hm
        · exact (h7 m hm).2
      toC := g.toC
      core := by
        rw [hts, List.filterMap_append, hnew, List.append_nil]
        simp only [h2, h3, h4]
        exact g.core }

theorem Good.server_frame {s : Session} {iss : List (Int × Option Handler)} (g : Good s iss) {p' : Pool}
    (hf : SFrame s.server p') : Good { s with server := p' } iss := by
  obtain ⟨h1, h2, h3, h4, new, h6, h7⟩ := hf
  have htc : Session.toClient { s with server := p' } = s.toClient ++ new := by
    simp only [Session.toClient, h6]
    rw [List.drop_append_of_le_length g.posC]
  have hnew : new.filterMap responseOf = [] := by
    rw [List.filterMap_eq_nil_iff]; exact fun m hm => (h7 m hm).1
  exact
    { cl := g.cl, sv := h1, typed := g.typed, state := g.state
      posS := g.posS
      posC := by simp only [h6, List.length_append]; exact Nat.le_add_right_of_le g.posC
      toS := g.toS
      toC := by
        rw [htc]
        intro m hm
        rcases List.mem_append.mp hm with hm | hm
        · exact g.toC m hm
        · exact (h7 m hm).2.2
      core := by
        rw [htc]
        simp only [h2, h3, h4, h6, List.filterMap_append, hnew, List.append_nil]
        exact g.core.quiet new fun m hm => ⟨(h7 m hm).1, (h7 m hm).2.1⟩ }

/-- A request of the client that was queued. -/
theorem Good.client_request {s : Session} {iss : List (Int × Option Handler)} (g : Good s iss) {h : Option Handler}
    {t : MsgType} {c : Option Obj}
    (hm' : ∀ m : Msg, m.type = t → m.content = c →
      requestOf m = some ((s.client.ciCount : Int), h) ∧ CSound m) :
    Good { s with client := (Pool.queue ({ s.client with
        ciCount := s.client.ciCount + 1,
        ciHandlers := s.client.ciHandlers.set (s.client.ciCount : Int) h }) t c none .default) }
      (iss ++ [((s.client.ciCount : Int), h)]) := by
  refine
    { cl := g.cl, sv := g.sv, typed := g.typed, state := g.state,
      posS := ?_, posC := g.posC, toS := ?_, toC := g.toC, core := ?_ }
  · simp only [queue, List.length_append]; exact Nat.le_add_right_of_le g.posS
  · simp only [Session.toServer, queue]
    rw [List.drop_append_of_le_length g.posS]
    intro m hm
    rcases List.mem_append.mp hm with hm | hm
    · exact g.toS m hm
    · rw [List.mem_singleton.mp hm]; exact (hm' _ rfl rfl).2
  · have := g.core.request h
    simp only [Session.toServer, queue]
    rw [List.drop_append_of_le_length g.posS, List.filterMap_append]
    rw [List.filterMap_cons, (hm' ⟨t, c, s.client.rpid, none, s.client.fragmentCount, .default⟩ rfl rfl).1]
    exact this

/-- A request of the client that raised after taking its id. -/
theorem Good.client_leak {s : Session} {iss : List (Int × Option Handler)} (g : Good s iss) (h : Option Handler) :
    Good { s with client := { s.client with
        ciCount := s.client.ciCount + 1
        ciHandlers := s.client.ciHandlers.set (s.client.ciCount : Int) h } } iss :=
  { cl := g.cl, sv := g.sv, typed := g.typed, state := g.state, posS := g.posS, posC := g.posC,
    toS := g.toS, toC := g.toC, core := g.core.register h }

theorem issued_client_none {op : ClientOp} {r : Except Err Ret} (h : ∀ n, r ≠ .ok (.ci n)) :
    issued [(SessionOp.client op, r)] = [] := by
  simp only [issued, List.filterMap_cons, List.filterMap_nil]
  split
  · rfl
  · rename_i hx
    split at hx
    · rename_i heq; cases heq; exact absurd rfl (h _)
    · cases hx

theorem not_ci {p : Pool} {op : ClientOp} (h : op.request = none) (n : Int) :
    (op.step p).2 ≠ .ok (.ci n) := by
  have key : ∀ {α : Type} (r : Res α), (r.ret fun _ => Ret.none).2 ≠ .ok (.ci n) := by
    intro α r
    obtain ⟨p, x⟩ := r
    cases x <;> simp [Res.ret, Except.map]
  cases op <;> simp [ClientOp.request] at h <;> simp only [ClientOp.step] <;> (try exact key _)
  · rename_i b; cases b <;> simp only [BaseOp.step] <;> exact key _
  · simp
  · rename_i m
    rcases hr : (p.recvClient m).2 with e | x <;> simp [Res.ret, hr, Except.map]

theorem Good.client_step {s : Session} {iss : List (Int × Option Handler)} (g : Good s iss) {op : ClientOp}
    (ha : (SessionOp.client op).IsApi) :
    Good (s.step (.client op)).1 (iss ++ issued [(.client op, (s.step (.client op)).2)]) := by
  simp only [Session.step]
  have hty := pipesTyped_step op g.typed
  by_cases hsp : op.special = false
  · rw [issued_client_none (not_ci (by cases op <;> simp_all [ClientOp.special, ClientOp.request])),
      List.append_nil]
    refine g.client_frame (cFrame_step hsp ?_ ?_ g.cl g.state g.typed) hty
    · rintro m rfl; exact ha.elim
    · rintro m t pid st rfl; exact ha.elim
  · cases op <;> simp only [ClientOp.special, not_true, Bool.not_eq_false] at hsp <;>
      (try (exact absurd hsp (by decide)))
    · -- open_
      rw [issued_client_none (not_ci rfl), List.append_nil]
      refine g.client_frame ?_ hty
      have : (ClientOp.open_.step s.client).1 = s.client := by
        simp only [ClientOp.step, Res.ret, open_]
        split
        · rfl
        · rw [if_pos g.state]
      rw [this]
      exact ⟨g.cl, rfl, rfl, rfl, g.state, Adds.refl _ _⟩
    · -- connect
      rw [issued_client_none (not_ci rfl), List.append_nil]
      refine g.client_frame ?_ hty
      simp only [ClientOp.step, Res.ret, connectClient]
      split
      · exact ⟨g.cl, rfl, rfl, rfl, g.state, Adds.refl _ _⟩
      split
      · exact ⟨g.cl, rfl, rfl, rfl, g.state, Adds.refl _ _⟩
      · simp only [changeState, g.cl, if_true, Res.next, prepareMessage, Obj.serializeFails, Obj.vals,
          Body.vals, List.findSome?_nil, messageType, Body.type]
        refine ⟨rfl, rfl, rfl, rfl, by simp [queue], ?_⟩
        refine ⟨_, by simp [queue]; rfl, ?_⟩
        intro m hm
        simp only [List.mem_cons, List.not_mem_nil, or_false] at hm
        rcases hm with rfl | rfl
        · exact cQuiet_of_free (by simp [cFree])
        · exact ⟨rfl, by simp, fun _ => rfl⟩
    · -- getAvailableRunspaces
      simp only [ClientOp.step, Res.ret, getAvailableRunspaces]
      split
      · simpa [issued, Except.map, ClientOp.request] using g
      · have h1 := g.client_request (t := .GetAvailableRunspaces)
          (c := some (.msg (.getAvailableRunspaces s.client.ciCount))) (h := none) 
          (fun m h1 h2 => by simp [requestOf, CSound, h1, h2])
        simpa [Res.next, nextCi, prepareMessage, Obj.serializeFails, Obj.vals, Body.vals, messageType,
          Body.type, issued, Except.map, ClientOp.request] using h1
    · -- resetRunspaceState
      simp only [ClientOp.step, Res.ret, resetRunspaceState]
      split
      · simpa [issued, Except.map, ClientOp.request] using g
      split
      · simpa [issued, Except.map, ClientOp.request] using g
      · have h1 := g.client_request (t := .ResetRunspaceState)
          (c := some (.msg (.resetRunspaceState s.client.ciCount))) (h := none) 
          (fun m h1 h2 => by simp [requestOf, CSound, h1, h2])
        simpa [Res.next, nextCi, prepareMessage, Obj.serializeFails, Obj.vals, Body.vals, messageType,
          Body.type, issued, Except.map, ClientOp.request] using h1
    · -- setMaxRunspaces
      rename_i v
      simp only [ClientOp.step, Res.ret, setMaxRunspaces]
      split
      · rename_i hv
        have : s.client.maxR = v := hv.resolve_left g.state
        subst this
        simpa [issued, Except.map, ClientOp.request, Ret.ofOption] using g
      · dsimp only [nextCi]
        split
        · simpa [issued, Except.map, ClientOp.request] using g.client_leak (some (.setMax v))
        · have h1 := g.client_request (t := .SetMaxRunspaces)
            (c := some (.msg (.setMaxRunspaces v s.client.ciCount))) (h := some (.setMax v)) 
            (fun m h1 h2 => by simp [requestOf, CSound, h1, h2])
          simpa [Res.next, nextCi, prepareMessage, Obj.serializeFails, Obj.vals, Body.vals, messageType,
            Body.type, issued, Except.map, ClientOp.request, Ret.ofOption] using h1
    · -- setMinRunspaces
      rename_i v
      simp only [ClientOp.step, Res.ret, setMinRunspaces]
      split
      · rename_i hv
        have : s.client.minR = v := hv.resolve_left g.state
        subst this
        simpa [issued, Except.map, ClientOp.request, Ret.ofOption] using g
      · dsimp only [nextCi]
        split
        · simpa [issued, Except.map, ClientOp.request] using g.client_leak (some (.setMin v))
        · have h1 := g.client_request (t := .SetMinRunspaces)
            (c := some (.msg (.setMinRunspaces v s.client.ciCount))) (h := some (.setMin v)) 
            (fun m h1 h2 => by simp [requestOf, CSound, h1, h2])
          simpa [Res.next, nextCi, prepareMessage, Obj.serializeFails, Obj.vals, Body.vals, messageType,
            Body.type, issued, Except.map, ClientOp.request, Ret.ofOption] using h1
    · exact ha.elim

theorem responseOf_mem {m : Msg} {x : Resp × Int} (h : responseOf m = some x) :
    m.type = .RunspaceAvailability ∧ m.content = some (.msg (.runspaceAvailability x.1 x.2)) := by
  unfold responseOf at h
  split at h
  · cases h; exact ⟨by assumption, by assumption⟩
  · cases h

theorem initOf_mem {m : Msg} {x : Int × Int} (h : initOf m = some x) :
    m.type = .RunspacePoolInitData ∧ m.content = some (.msg (.runspacePoolInitData x.1 x.2)) := by
  unfold initOf at h
  split at h
  · cases h; exact ⟨by assumption, by assumption⟩
  · cases h

theorem requestOf_handler {m : Msg} {ci : Int} {h : Option Handler} (hm : requestOf m = some (ci, h))
    {r : Resp} (hs : respSuits m r = true) (hh : h ≠ none) : ∃ b, r = .bool b := by
  cases r with
  | bool b => exact ⟨b, rfl⟩
  | int n =>
    exfalso
    unfold requestOf at hm
    split at hm <;> cases hm <;> simp_all [respSuits]

theorem Good.server_answer {s : Session} {iss : List (Int × Option Handler)} (g : Good s iss) (ci : Int) (r : Resp) :
    Good { s with server := (s.server.availabilityResponse ci r).1 } iss := by
  unfold availabilityResponse
  split
  · exact g
  · rename_i q hq
    split
    · exact g
    · rename_i hs
      simp only [Decidable.not_not] at hs
      obtain ⟨h, h1, h2, h3⟩ := g.core.recorded ci q hq
      have hc := g.core.answer (m := ⟨.RunspaceAvailability, some (.msg (.runspaceAvailability r ci)),
        s.server.rpid, none, s.server.fragmentCount, .default⟩) hq h2 (requestOf_handler h1 hs) rfl
      have key : ∃ p' : Pool, (let p := { s.server with ciEvents := s.server.ciEvents.erase ci, ciHandlers := s.server.ciHandlers.erase ci }
          p.runServerHandler (s.server.ciHandlers.get? ci).join r) = p' ∧
          p'.isClient = false ∧ p'.rpid = s.server.rpid ∧ p'.fragmentCount = s.server.fragmentCount ∧
          p'.sendBuffer = s.server.sendBuffer ∧ p'.ciEvents = s.server.ciEvents.erase ci ∧
          p'.ciHandlers = s.server.ciHandlers.erase ci ∧ p'.cipher = s.server.cipher ∧
          (p'.minR, p'.maxR) = if r = .bool true then handled h (s.server.minR, s.server.maxR)
            else (s.server.minR, s.server.maxR) := by
        refine ⟨_, rfl, ?_⟩
        rw [h2]
        simp only [Option.join_some]
        have := g.sv
        unfold runServerHandler
        split
        · simp [this, handled]
        · simp [this, handled]
        · rename_i hx hy
          refine ⟨this, rfl, rfl, rfl, rfl, rfl, rfl, ?_⟩
          split
          · rename_i hr
            subst hr
            unfold handled
            split
            · exact absurd rfl (hx _ rfl)
            · exact absurd rfl (hy _ rfl)
            · rfl
          · rfl
      obtain ⟨p', he, k1, k2, k3, k4, k5, k6, k7, k8⟩ := key
      dsimp only at he ⊢
      rw [he]
      simp only [prepareMessage, Obj.serializeFails, Obj.vals, Body.vals, List.findSome?_nil,
        messageType, Body.type]
      refine
        { cl := g.cl, sv := k1, typed := g.typed, state := g.state, posS := g.posS,
          posC := ?_, toS := g.toS, toC := ?_, core := ?_ }
      · simp only [queue, k4, List.length_append]; exact Nat.le_add_right_of_le g.posC
      · simp only [Session.toClient, queue, k4]
        rw [List.drop_append_of_le_length g.posC]
        intro m hm
        rcases List.mem_append.mp hm with hm | hm
        · exact g.toC m hm
        · rw [List.mem_singleton.mp hm]; intro h; cases h
      · simp only [Session.toClient, queue, k2, k3, k4, k5, k6, k8]
        rw [List.drop_append_of_le_length g.posC, List.filterMap_append, List.map_append]
        exact hc

theorem Good.server_step {s : Session} {iss : List (Int × Option Handler)} (g : Good s iss) {op : ServerOp}
    (ha : (SessionOp.server op).IsApi) : Good (s.step (.server op)).1 iss := by
  simp only [Session.step]
  by_cases hsp : op.special = false
  · refine g.server_frame (sFrame_step hsp ?_ ?_ g.sv)
    · rintro m rfl; exact ha.elim
    · rintro m t pid st rfl; exact ha.elim
  · cases op <;> simp only [ServerOp.special, not_true, Bool.not_eq_false] at hsp <;>
      (try (exact absurd hsp (by decide)))
    · exact g.server_answer _ _
    · exact ha.elim

/-- The position of the server moves past a message that is no request. -/
theorem Good.pass_server {s : Session} {iss : List (Int × Option Handler)} (g : Good s iss) {m : Msg}
    (hm : s.client.sendBuffer[s.atServer]? = some m) (hq : requestOf m = none) :
    Good { s with atServer := s.atServer + 1 } iss := by
  have hlt := (List.getElem?_eq_some_iff.mp hm).1
  have hd : s.toServer = m :: Session.toServer { s with atServer := s.atServer + 1 } := by
    simp only [Session.toServer]
    rw [List.drop_eq_getElem_cons hlt, (List.getElem?_eq_some_iff.mp hm).2]
  refine { g with posS := hlt, toS := ?_, core := ?_ }
  · intro x hx; exact g.toS x (by rw [hd]; exact List.mem_cons_of_mem _ hx)
  · have := g.core
    rw [hd, List.filterMap_cons, hq] at this
    exact this

/-- The position of the client moves past a message that concerns no request and no limit. -/
theorem Good.pass_client {s : Session} {iss : List (Int × Option Handler)} (g : Good s iss) {m : Msg}
    (hm : s.server.sendBuffer[s.atClient]? = some m) (h1 : responseOf m = none)
    (h2 : initOf m = none) : Good { s with atClient := s.atClient + 1 } iss := by
  have hlt := (List.getElem?_eq_some_iff.mp hm).1
  have hd : s.toClient = m :: Session.toClient { s with atClient := s.atClient + 1 } := by
    simp only [Session.toClient]
    rw [List.drop_eq_getElem_cons hlt, (List.getElem?_eq_some_iff.mp hm).2]
  refine { g with posC := hlt, toC := ?_, core := ?_ }
  · intro x hx; exact g.toC x (by rw [hd]; exact List.mem_cons_of_mem _ hx)
  · have := g.core
    rw [hd] at this
    have := this.delivered
    rw [effect, h1, h2] at this
    exact this

theorem wire_type (m : Msg) : (wire m).type = m.type := rfl
theorem wire_content (m : Msg) : (wire m).content = m.content := rfl
theorem requestOf_wire (m : Msg) : requestOf (wire m) = requestOf m := rfl

theorem Good.server_connect {s : Session} {iss : List (Int × Option Handler)} (g : Good s iss) :
    Good { s with server := (s.server.serverConnect none none).1 } iss := by
  have h0 : serverConnect s.server none none =
      ((s.server.queue .RunspacePoolInitData
        (some (.msg (.runspacePoolInitData s.server.minR s.server.maxR))) none .default).prepareMessage
        (some (.msg (.applicationPrivateData s.server.appPrivate)))).next fun p _ =>
          p.changeState .Opened := by
    simp [serverConnect, orCurrent, prepareMessage, Obj.serializeFails, Obj.vals, Body.vals, Res.next,
      messageType, Body.type, queue]
  have g1 : ∀ q, q = s.server.queue .RunspacePoolInitData
      (some (.msg (.runspacePoolInitData s.server.minR s.server.maxR))) none .default →
      Good { s with server := q } iss := by
    rintro q rfl
    refine
      { cl := g.cl, sv := g.sv, typed := g.typed, state := g.state, posS := g.posS,
        posC := ?_, toS := g.toS, toC := ?_, core := ?_ }
    · simp only [queue, List.length_append]; exact Nat.le_add_right_of_le g.posC
    · simp only [Session.toClient, queue]
      rw [List.drop_append_of_le_length g.posC]
      intro m hm
      rcases List.mem_append.mp hm with hm | hm
      · exact g.toC m hm
      · rw [List.mem_singleton.mp hm]; intro h; cases h
    · simp only [Session.toClient, queue]
      rw [List.drop_append_of_le_length g.posC, List.filterMap_append]
      simp only [List.filterMap_cons, responseOf, List.filterMap_nil, List.append_nil]
      exact g.core.initData rfl rfl
  rw [h0]
  replace g1 := g1 _ rfl
  generalize s.server.queue .RunspacePoolInitData
        (some (.msg (.runspacePoolInitData s.server.minR s.server.maxR))) none .default = q at *
  refine Good.server_frame (s := { s with server := q }) g1 ?_
  have hq : SFrame q q := ⟨g1.sv, rfl, rfl, rfl, Adds.refl _ _⟩
  refine keeps_next (I := SFrame q) ?_ (fun p _ hp => sFrame_change q p _ _ (by simp) hp)
  exact keeps_prepare_body (A := sFree) (sFrame_queue q) (by simp [sFree, Body.type]) hq

theorem Good.to_server {s : Session} {iss : List (Int × Option Handler)} (g : Good s iss) :
    Good (s.step .toServer).1 iss := by
  simp only [Session.step]
  split
  · exact g
  rename_i m hm
  have hlt := (List.getElem?_eq_some_iff.mp hm).1
  have hd : s.toServer = m :: Session.toServer { s with atServer := s.atServer + 1 } := by
    simp only [Session.toServer]
    rw [List.drop_eq_getElem_cons hlt, (List.getElem?_eq_some_iff.mp hm).2]
  have hso := g.toS m (by rw [hd]; simp)
  simp only [serverReceives]
  have gr : Good { s with server := (ServerOp.receiveData.step s.server).1 } iss :=
    g.server_frame (sFrame_step rfl (by simp) (by simp) g.sv)
  generalize (ServerOp.receiveData.step s.server).1 = q at *
  cases hr : requestOf m with
  | none =>
    have g1 := gr.pass_server hm hr
    by_cases hsp : (ServerOp.recv (wire m)).special = false
    · exact g1.server_frame (sFrame_step hsp (by rintro _ ⟨⟩; exact hso.1) (by simp) gr.sv)
    · simp only [ServerOp.special, requestOf_wire, hr, Option.isSome_none, Bool.false_eq_true, or_false,
        decide_eq_false_iff_not, Decidable.not_not] at hsp
      have hc := hso.2 hsp
      have : ((ServerOp.recv (wire m)).step q).1 = (q.serverConnect none none).1 := by
        simp only [ServerOp.step, Res.ret, recvServer, decode]
        rw [if_neg (by rw [hsp]; simp), wire_content, hc]
        simp only [Obj.deserializeFails, Obj.vals, Body.vals, List.findSome?_nil, processServer, hsp]
        rcases q.serverConnect none none with ⟨a, b | b⟩ <;> rfl
      rw [this]
      exact g1.server_connect
  | some x =>
    obtain ⟨ci, h⟩ := x
    have hstep : ((ServerOp.recv (wire m)).step q).1 =
        { q with ciEvents := q.ciEvents.set ci (wire m), ciHandlers := q.ciHandlers.set ci h } := by
      unfold requestOf at hr
      split at hr <;> cases hr <;> rename_i ht hc <;>
      · simp only [ServerOp.step, Res.ret, recvServer, decode]
        rw [if_neg (by rw [wire_type, ht]; simp), wire_content, hc]
        simp [Obj.deserializeFails, Obj.vals, Body.vals, processServer, wire_type, ht, record, Res.next]
    rw [hstep]
    have hc := gr.core
    rw [show Session.toServer { s with server := q } = s.toServer from rfl, hd, List.filterMap_cons,
      hr] at hc
    refine
      { cl := g.cl, sv := gr.sv, typed := g.typed, state := g.state, posS := hlt,
        posC := gr.posC, toS := ?_, toC := gr.toC, core := ?_ }
    · intro x hx; exact g.toS x (by rw [hd]; exact List.mem_cons_of_mem _ hx)
    · exact hc.record (m := wire m) hr

theorem Good.to_client {s : Session} {iss : List (Int × Option Handler)} (g : Good s iss) :
    Good (s.step .toClient).1 iss := by
  simp only [Session.step]
  split
  · exact g
  rename_i m hm
  have hlt := (List.getElem?_eq_some_iff.mp hm).1
  have hd : s.toClient = m :: Session.toClient { s with atClient := s.atClient + 1 } := by
    simp only [Session.toClient]
    rw [List.drop_eq_getElem_cons hlt, (List.getElem?_eq_some_iff.mp hm).2]
  have hso := g.toC m (by rw [hd]; simp)
  have hty := pipesTyped_step (.recv (wire m)) g.typed
  simp only [clientReceives]
  have hc := g.core
  rw [hd] at hc
  have htail : ∀ x ∈ Session.toClient { s with atClient := s.atClient + 1 }, SSound x :=
    fun x hx => g.toC x (by rw [hd]; exact List.mem_cons_of_mem _ hx)
  cases hr : responseOf m with
  | some x =>
    obtain ⟨r, ci⟩ := x
    obtain ⟨ht, hcon⟩ := responseOf_mem hr
    obtain ⟨_, h, hh, hb⟩ := hc.coming (r, ci) (by simp [hr])
    have heff : effect s.client.ciHandlers (s.client.minR, s.client.maxR) m =
        if r = .bool true then handled h (s.client.minR, s.client.maxR)
        else (s.client.minR, s.client.maxR) := by
      unfold effect
      rw [hr]
      dsimp only at hh
      rcases r with b | n
      · cases b <;> simp [initOf_response hr, hh]
      · simp [initOf_response hr]
    by_cases hfit : ∀ n, r = .int n → bareIntFits n = true
    · have hstep : ((ClientOp.recv (wire m)).step s.client).1 =
          { s.client with
            ciHandlers := s.client.ciHandlers.erase ci
            minR := (effect s.client.ciHandlers (s.client.minR, s.client.maxR) m).1
            maxR := (effect s.client.ciHandlers (s.client.minR, s.client.maxR) m).2 } := by
        rw [heff]
        dsimp only at hh
        simp only [ClientOp.step, Res.ret, recvClient, decode]
        rw [if_neg (by rw [wire_type, ht]; simp), wire_content, hcon]
        have hdf : Obj.deserializeFails (.msg (.runspaceAvailability r ci)) = none := by
          rcases r with b | n
          · simp [Obj.deserializeFails, Obj.vals, Body.vals]
          · simp [Obj.deserializeFails, hfit n rfl]
        simp only [hdf, processClient, wire_type, ht, clientAvailability, hh]
        rcases h with _ | (v | v) <;> rcases r with (_ | _) | n <;> simp [Res.next, handled]
      rw [hstep]
      refine
        { cl := g.cl, sv := g.sv, typed := ?_, state := g.state, posS := g.posS,
          posC := hlt, toS := g.toS, toC := htail, core := hc.response hr }
      rw [hstep] at hty; exact hty
    · have hri : ∃ n, r = .int n ∧ bareIntFits n = false := by
        refine Classical.byContradiction fun hn => hfit fun n hn' => ?_
        cases hb : bareIntFits n with
        | true => rfl
        | false => exact absurd ⟨n, hn', hb⟩ hn
      obtain ⟨n, rfl, hn⟩ := hri
      have hstep : ((ClientOp.recv (wire m)).step s.client).1 = s.client := by
        simp only [ClientOp.step, Res.ret, recvClient, decode]
        rw [if_neg (by rw [wire_type, ht]; simp), wire_content, hcon]
        simp [Obj.deserializeFails, hn]
      rw [hstep]
      have := hc.delivered
      rw [heff] at this
      exact
        { cl := g.cl, sv := g.sv, typed := g.typed, state := g.state, posS := g.posS,
          posC := hlt, toS := g.toS, toC := htail, core := this }
  | none =>
    cases hi : initOf m with
    | some x =>
      obtain ⟨ht, hcon⟩ := initOf_mem hi
      have hstep : ((ClientOp.recv (wire m)).step s.client).1 =
          { s.client with minR := x.1, maxR := x.2 } := by
        simp only [ClientOp.step, Res.ret, recvClient, decode]
        rw [if_neg (by rw [wire_type, ht]; simp), wire_content, hcon]
        simp [Obj.deserializeFails, Obj.vals, Body.vals, processClient, wire_type, ht, Res.next]
      rw [hstep]
      have := hc.delivered
      rw [effect, hr, hi] at this
      exact
        { cl := g.cl, sv := g.sv, typed := by rw [hstep] at hty; exact hty, state := g.state,
          posS := g.posS, posC := hlt, toS := g.toS, toC := htail, core := this }
    | none =>
      have g1 := g.pass_client hm hr hi
      refine g1.client_frame (s := { s with atClient := s.atClient + 1 }) ?_ hty
      by_cases hsp : (ClientOp.recv (wire m)).special = false
      · exact cFrame_step hsp (by rintro _ ⟨⟩; exact hso) (by simp) g.cl g.state g.typed
      · have : ((ClientOp.recv (wire m)).step s.client).1 = s.client := by
          replace hsp : m.type = .RunspaceAvailability ∨ m.type = .RunspacePoolInitData := by
            simpa [ClientOp.special, wire_type, -not_or, Classical.or_iff_not_imp_left] using hsp
          simp only [ClientOp.step, Res.ret, recvClient]
          cases hdec : Pool.decode (wire m) with
          | error e => rfl
          | ok o =>
            have hne : (wire m).type ≠ .EndOfPipelineInput := by
              rw [wire_type]; rcases hsp with h | h <;> rw [h] <;> simp
            have hoc : ∀ o', o = some o' → m.content = some o' := by
              rintro o' rfl; exact decode_content hdec hne
            dsimp only
            unfold processClient
            rcases hsp with h | h
            · simp only [wire_type, h]
              split <;> simp_all [Res.next, responseOf]
            · simp only [wire_type, h]
              split <;> simp_all [Res.next, initOf]
        rw [this]
        exact ⟨g.cl, rfl, rfl, rfl, g.state, Adds.refl _ _⟩

theorem Good.step {s : Session} {iss : List (Int × Option Handler)} (g : Good s iss) {op : SessionOp} (ha : op.IsApi) :
    Good (s.step op).1 (iss ++ issued [(op, (s.step op).2)]) := by
  cases op with
  | client op => exact g.client_step ha
  | server op => simpa [issued] using g.server_step ha
  | toServer => simpa [issued] using g.to_server
  | toClient => simpa [issued] using g.to_client

theorem Good.run {s : Session} {iss : List (Int × Option Handler)} (g : Good s iss) (ops : List SessionOp)
    (ha : ∀ op ∈ ops, op.IsApi) : Good (s.run ops).1 (iss ++ issued (s.run ops).2) := by
  induction ops generalizing s iss with
  | nil => simpa [Session.run, issued] using g
  | cons op ops ih =>
    have := ih (g.step (ha op (by simp))) fun x hx => ha x (by simp [hx])
    simp only [Session.run]
    have he : issued ((op, (s.step op).2) :: ((s.step op).1.run ops).2) =
        issued [(op, (s.step op).2)] ++ issued ((s.step op).1.run ops).2 := by
      simp only [issued, ← List.filterMap_append, List.singleton_append]
    rw [he, ← List.append_assoc]
    exact this

end Verif
