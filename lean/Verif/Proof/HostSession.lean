import Verif.Proof.Frames
import Verif.Spec.HostSession

/-! # Host calls and their answers in a session (C80) -/

namespace Verif
open Pool

/-- The host call in a message. -/
def callOf (m : Msg) : Option MadeCall :=
  match m.type, m.content with
  | .PipelineHostCall, some (.msg (.pipelineHostCall ci mi mp)) => some ⟨m.pid, ci, mi, mp⟩
  | .RunspacePoolHostCall, some (.msg (.runspacePoolHostCall ci mi mp)) => some ⟨m.pid, ci, mi, mp⟩
  | _, _ => none

/-- The id in the answer of a host call. -/
def replyId (m : Msg) : Option Int :=
  match m.type, m.content with
  | .PipelineHostResponse, some (.msg (.pipelineHostResponse ci _ _ _)) => some ci
  | .RunspacePoolHostResponse, some (.msg (.runspacePoolHostResponse ci _ _ _)) => some ci
  | _, _ => none

theorem callOf_iff (m : Msg) (c : MadeCall) : callOf m = some c ↔ c.Sent m := by
  unfold callOf MadeCall.Sent
  constructor
  · intro h
    split at h
    · cases h; rename_i ht hm; exact ⟨rfl, Or.inl ⟨ht, hm⟩⟩
    · cases h; rename_i ht hm; exact ⟨rfl, Or.inr ⟨ht, hm⟩⟩
    · cases h
  · rintro ⟨hp, ⟨ht, hm⟩ | ⟨ht, hm⟩⟩ <;> simp [ht, hm, hp]

theorem replyId_iff (m : Msg) (ci : Int) : replyId m = some ci ↔ m.IsHostReply ci := by
  unfold replyId Msg.IsHostReply
  constructor
  · intro h
    split at h
    · cases h; rename_i ht hm; exact ⟨_, _, _, Or.inl ⟨ht, hm⟩⟩
    · cases h; rename_i ht hm; exact ⟨_, _, _, Or.inr ⟨ht, hm⟩⟩
    · cases h
  · rintro ⟨mi, a, b, ⟨ht, hm⟩ | ⟨ht, hm⟩⟩ <;> simp [ht, hm]

theorem replyId_answer {c : MadeCall} {a b : Option Val} {m : Msg} (h : c.Answer a b m) :
    replyId m = some c.ci := by
  obtain ⟨_, ⟨_, ht, hm⟩ | ⟨_, ht, hm⟩⟩ := h <;> simp [replyId, ht, hm]

theorem callId_callOf (m : Msg) : callId m = (callOf m).map (·.ci) := by
  unfold callId callOf
  split <;> simp_all

theorem seenBy_seenBy (pid : Option UUID) : seenBy (seenBy pid) = seenBy pid := by
  unfold seenBy; split <;> simp_all

theorem callOf_wire (m : Msg) : callOf (wire m) = (callOf m).map fun c => { c with pid := seenBy c.pid } := by
  unfold callOf wire
  dsimp only
  split <;> simp_all [seenBy]

theorem replyId_wire (m : Msg) : replyId (wire m) = replyId m := rfl

theorem answer_wire {c : MadeCall} {a b : Option Val} {m : Msg} (h : c.Answer a b m) :
    c.Answer a b (wire m) := by
  have hp : (wire m).pid = m.pid := by
    have := h.1
    show seenBy m.pid = m.pid
    rw [this, seenBy_seenBy]
  obtain ⟨h1, ⟨h2, h3⟩ | ⟨h2, h3⟩⟩ := h
  · exact ⟨hp.trans h1, Or.inl ⟨by rw [hp]; exact h2, h3⟩⟩
  · exact ⟨hp.trans h1, Or.inr ⟨by rw [hp]; exact h2, h3⟩⟩

/-! ## What a step of the client does -/

/-- What a client operation that does not concern host calls leaves alone. -/
def CHost (p0 p : Pool) : Prop :=
  p.isClient = true ∧ p.ciEvents = p0.ciEvents ∧ Adds (fun m => replyId m = none) p0.sendBuffer p.sendBuffer

/-- The types a client queues that are no answers. -/
def cPlain (t : MsgType) (_ : Option Obj) : Prop := t ∉ [MsgType.PipelineHostResponse, .RunspacePoolHostResponse]

theorem replyId_plain {m : Msg} (h : cPlain m.type m.content) : replyId m = none := by
  simp only [cPlain, List.mem_cons, List.not_mem_nil, or_false, not_or] at h
  unfold replyId
  split <;> simp_all

theorem cHost_queue (p0 p : Pool) (t : MsgType) (c : Option Obj) (pid : Option UUID)
    (s : StreamType) (ha : cPlain t c) (h : CHost p0 p) : CHost p0 (p.queue t c pid s) := by
  obtain ⟨h1, h2, h3⟩ := h
  exact ⟨h1, h2, h3.snoc (replyId_plain ha)⟩

theorem cHost_client (p0 : Pool) (op : ClientOp) (hn : op.answers = none)
    (hr : ∀ m, op = .recv m → ∀ ci, callId m = some ci → ci = -100) : ClientStable cPlain (CHost p0) op where
  queue := fun p t c pid s ha h => cHost_queue p0 p t c pid s ha h
  changeState := fun p s e _ h => changeState_of (I := CHost p0) (A := cPlain) (cHost_queue p0)
    (fun s e => by simp [cPlain]) (fun p s h => h) p s e h
  pipeChange := fun p n s e _ h => pipeChange_of (I := CHost p0) (A := cPlain) (cHost_queue p0)
    (fun s e => by simp [cPlain]) (fun p n s h => h) p n s e h
  setPipe := fun p n s _ h => h
  hostCall := fun p ci m hop _ hv hc => absurd (hr m hop ci hc) hv
  responded := fun p ci ha => by rw [hn] at ha; cases ha
  keySent := fun p h _ => by
    obtain ⟨h1, h2, h3⟩ := h
    exact ⟨h1, h2, h3.snoc (replyId_plain (by simp [cPlain]))⟩

theorem cHost_step {p : Pool} {op : ClientOp} (hn : op.answers = none)
    (hr : ∀ m, op = .recv m → ∀ ci, callId m = some ci → ci = -100)
    (hraw : ∀ m t pid s, op ≠ .base (.prepare m t pid s)) (hc : p.isClient = true) (ht : PipesTyped p) :
    CHost p (op.step p).1 := by
  refine step_keeps_client (cHost_client p op hn hr) ?_ ?_ ht ⟨hc, rfl, Adds.refl _ _⟩
  · intro t c hm
    cases op <;> simp only [ClientOp.answers, ClientOp.mayQueue] at hn hm <;>
      (try cases hn) <;> (try simp at hm) <;>
      (first | (rcases hm with rfl | rfl | rfl <;> simp [cPlain])
             | (rcases hm with rfl | rfl <;> simp [cPlain]) | (subst hm; simp [cPlain]))
  · intro b hb
    cases b <;> try trivial
    exact absurd hb (hraw _ _ _ _)

/-- Answering a host call: it fails and changes nothing, or the answer is queued. -/
theorem hostResponse_cases (p : Pool) (ci : Int) (a b : Option Val)
    (hw : ∀ ci m, p.ciEvents.get? ci = some m → ∃ c : MadeCall, c.ci = ci ∧
      MadeCall.Sent { c with pid := seenBy c.pid } m) :
    (∃ e, p.hostResponse ci a b = (p, .error e)) ∨
    ∃ m c r, p.ciEvents.get? ci = some m ∧ c.ci = ci ∧ MadeCall.Sent { c with pid := seenBy c.pid } m ∧
      MadeCall.Answer c a b r ∧ r.pid = m.pid ∧
      (p.hostResponse ci a b).2 = .ok () ∧
      (p.hostResponse ci a b).1.sendBuffer = p.sendBuffer ++ [r] ∧
      (p.hostResponse ci a b).1.ciEvents = p.ciEvents.erase ci ∧
      (p.hostResponse ci a b).1.isClient = p.isClient := by
  unfold hostResponse
  split
  · exact Or.inl ⟨_, rfl⟩
  cases hg : p.ciEvents.get? ci with
  | none => exact Or.inl ⟨_, rfl⟩
  | some m =>
    dsimp only
    obtain ⟨c, hci, hs⟩ := hw ci m hg
    have hm : hostCallOf m = some c.method := by
      obtain ⟨_, ⟨_, h⟩ | ⟨_, h⟩⟩ := hs <;> simp [hostCallOf, h]
    rw [hm]
    dsimp only
    rcases prepare_cases p (some (.msg (responseBody m.pid ci c.method a b))) none m.pid
      .prompt_response with ⟨e, he⟩ | ⟨t, x, hp, h2⟩
    · rw [he]; exact Or.inl ⟨e, rfl⟩
    · rw [h2]
      have hpid : m.pid = seenBy c.pid := hs.1
      refine Or.inr ⟨m, c, ⟨t, x, p.rpid, m.pid, p.fragmentCount, .prompt_response⟩, rfl, hci, hs, ?_,
        rfl, rfl, rfl, rfl, rfl⟩
      cases hmp : m.pid with
      | none =>
        rw [hmp] at hp
        cases hp
        exact ⟨hmp ▸ hpid, Or.inr ⟨rfl, rfl, by rw [hci]; rfl⟩⟩
      | some u =>
        rw [hmp] at hp
        cases hp
        exact ⟨hmp ▸ hpid, Or.inl ⟨nofun, rfl, by rw [hci]; rfl⟩⟩

/-! ## What a step of the server does -/

/-- What a server operation that makes no host call leaves alone. -/
def SHost (p0 p : Pool) : Prop :=
  p.isClient = false ∧ p.ciCount = p0.ciCount ∧ Adds (fun m => callOf m = none) p0.sendBuffer p.sendBuffer

/-- The types a server queues that are no host calls. -/
def sPlain (t : MsgType) (_ : Option Obj) : Prop := t ∉ [MsgType.PipelineHostCall, .RunspacePoolHostCall]

theorem callOf_plain {m : Msg} (h : sPlain m.type m.content) : callOf m = none := by
  simp only [sPlain, List.mem_cons, List.not_mem_nil, or_false, not_or] at h
  unfold callOf
  split <;> simp_all

theorem sHost_queue (p0 p : Pool) (t : MsgType) (c : Option Obj) (pid : Option UUID)
    (s : StreamType) (ha : sPlain t c) (h : SHost p0 p) : SHost p0 (p.queue t c pid s) := by
  obtain ⟨h1, h2, h3⟩ := h
  exact ⟨h1, h2, h3.snoc (callOf_plain ha)⟩

/-- The server operations that make host calls. -/
def _root_.Verif.ServerOp.calls : ServerOp → Bool
  | .hostCall .. | .pipeHostCall .. => true
  | _ => false

theorem sHost_server (p0 : Pool) (op : ServerOp) (hn : op.calls = false) (hc : op ≠ .connect) :
    ServerStable sPlain (SHost p0) op where
  queue := fun p t c pid s ha h => sHost_queue p0 p t c pid s ha h
  changeState := fun p s e _ h => changeState_of (I := SHost p0) (A := sPlain) (sHost_queue p0)
    (fun s e => by simp [sPlain]) (fun p s h => h) p s e h
  pipeChange := fun p n s e _ h => pipeChange_of (I := SHost p0) (A := sPlain) (sHost_queue p0)
    (fun s e => by simp [sPlain]) (fun p n s h => h) p n s e h
  reset := fun p hop => absurd hop hc
  nextCi := fun p hop => by cases op <;> simp [ServerOp.takesCi, ServerOp.calls] at hop hn
  keyAsked := fun p h _ => by
    obtain ⟨h1, h2, h3⟩ := h
    exact ⟨h1, h2, h3.snoc (callOf_plain (by simp [sPlain]))⟩
  keyReceived := fun p m k _ _ _ h => by
    obtain ⟨h1, h2, h3⟩ := h
    exact ⟨h1, h2, h3.snoc (callOf_plain (by simp [sPlain]))⟩

theorem sHost_step {p : Pool} {op : ServerOp} (hn : op.calls = false) (hcn : op ≠ .connect)
    (hraw : ∀ m t pid s, op ≠ .base (.prepare m t pid s))
    (hc : p.isClient = false) : SHost p (op.step p).1 := by
  refine keeps_server (sHost_server p op hn hcn) ?_ ?_ ⟨hc, rfl, Adds.refl _ _⟩
  · intro t c hm
    cases op <;> simp only [ServerOp.calls, ServerOp.mayQueue] at hn hm <;>
      (try cases hn) <;> (try simp at hm)
    · subst hm; simp [sPlain]
    · subst hm; simp [sPlain]
    · rcases hm with rfl | rfl <;> simp [sPlain]
    · subst hm; rename_i k _; cases k <;> simp [sPlain, RecordKind.type]
    · rcases hm with rfl | rfl | hm
      · simp [sPlain]
      · simp [sPlain]
      · rw [hm.2]; simp [sPlain]
  · intro b hb
    cases b <;> try trivial
    exact absurd hb (hraw _ _ _ _)

/-- The pipelines of a server. -/
theorem pids_step (p : Pool) (op : ServerOp) :
    (op.step p).1.pipes.map (·.pid) = p.pipes.map (·.pid) ++
      (match op with | .newPipe pid => [pid] | _ => []) := by
  by_cases hn : ∀ pid, op ≠ .newPipe pid
  · have hS : ServerStable Any (fun q => q.pipes.map (·.pid) = p.pipes.map (·.pid)) op :=
      { queue := fun p t c pid s _ h => h
        changeState := fun q s e _ => changeAny (I := fun q => q.pipes.map (·.pid) = p.pipes.map (·.pid))
          (fun _ _ _ _ _ h => h) (fun _ _ h => h) q s e
        pipeChange := fun q n s e _ => pipeChangeAny
          (I := fun q => q.pipes.map (·.pid) = p.pipes.map (·.pid)) (fun _ _ _ _ _ h => h)
          (fun p n s h => by rw [pids_upd]; exact h; intro _; rfl) q n s e
        setMeta := fun p n s h => by rw [pids_upd]; exact h; intro _; rfl
        keyAsked := fun p h _ => h
        keyReceived := fun p _ _ _ _ _ h => h
        newPipe := fun p pid h => absurd h (hn pid) }
    have := step_server hS (p := p) rfl
    rw [this]
    cases op <;> simp
    exact hn _ rfl
  · obtain ⟨pid, rfl⟩ : ∃ pid, op = .newPipe pid := by
      refine Classical.byContradiction fun h => hn fun pid hp => h ⟨pid, hp⟩
    simp [ServerOp.step, Pool.newPipe]

/-- A host call of the pool: it fails and queues nothing, though it may take an id, or it queues the
call under the id it returns. -/
theorem hostCall_cases (p : Pool) (mi : HostMethod) (mp : Val) (pid : Option UUID) :
    ((∃ e, (p.hostCall mi mp pid).2 = .error e) ∧ (p.hostCall mi mp pid).1.sendBuffer = p.sendBuffer ∧
      p.ciCount ≤ (p.hostCall mi mp pid).1.ciCount ∧ (p.hostCall mi mp pid).1.isClient = p.isClient) ∨
    ∃ c m, c.pid = pid ∧ c.method = mi ∧ c.params = mp ∧ MadeCall.Sent c m ∧
      c.ci = (if mi.isVoid = true then -100 else (p.ciCount : Int)) ∧
      (p.hostCall mi mp pid).2 = .ok c.ci ∧
      (p.hostCall mi mp pid).1.sendBuffer = p.sendBuffer ++ [m] ∧
      (p.hostCall mi mp pid).1.ciCount = (if mi.isVoid = true then p.ciCount else p.ciCount + 1) ∧
      (p.hostCall mi mp pid).1.isClient = p.isClient := by
  unfold hostCall
  split
  · exact Or.inl ⟨⟨_, rfl⟩, rfl, Nat.le_refl _, rfl⟩
  · have hq : ∀ (q : Pool) (ci : Int) (t : MsgType) (x : Option Obj),
        prepMsg (some (.msg (callBody pid ci mi mp))) none = some (t, x) →
        MadeCall.Sent ⟨pid, ci, mi, mp⟩ ⟨t, x, q.rpid, pid, q.fragmentCount, .prompt_response⟩ := by
      intro q ci t x hp
      cases pid with
      | none => cases hp; exact ⟨rfl, Or.inr ⟨rfl, rfl⟩⟩
      | some u => cases hp; exact ⟨rfl, Or.inl ⟨rfl, rfl⟩⟩
    by_cases hv : mi.isVoid = true
    · simp only [hv, if_true]
      rcases prepare_cases p (some (.msg (callBody pid (-100) mi mp))) none pid .prompt_response with
        ⟨e, he⟩ | ⟨t, x, hp, h2⟩
      · rw [he]; exact Or.inl ⟨⟨_, rfl⟩, rfl, Nat.le_refl _, rfl⟩
      · rw [h2]
        exact Or.inr ⟨⟨pid, -100, mi, mp⟩, _, rfl, rfl, rfl, hq p _ t x hp, rfl, rfl, rfl, rfl, rfl⟩
    · simp only [hv, Bool.false_eq_true, if_false, nextCi]
      rcases prepare_cases { p with ciCount := p.ciCount + 1 }
          (some (.msg (callBody pid (p.ciCount : Int) mi mp))) none pid .prompt_response with
        ⟨e, he⟩ | ⟨t, x, hp, h2⟩
      · rw [he]; exact Or.inl ⟨⟨_, rfl⟩, rfl, Nat.le_succ _, rfl⟩
      · rw [h2]
        exact Or.inr ⟨⟨pid, (p.ciCount : Int), mi, mp⟩, _, rfl, rfl, rfl, hq { p with ciCount := p.ciCount + 1 } _ t x hp,
          rfl, rfl, rfl, rfl, rfl⟩

/-! ## The invariant -/

/-- The id of the host call a step of the server made. -/
def madeId (e : SessionEntry) : Option Int :=
  match e with
  | (.server (.hostCall ..), .ok (.ci n)) => some n
  | (.server (.pipeHostCall ..), .ok (.ci n)) => some n
  | _ => none

/-- The id of the answer a step showed to the server. -/
def seenId (e : SessionEntry) : Option Int :=
  match e with
  | (.toServer, .ok (.event m)) => replyId m
  | _ => none

/-- The call was made and shown to the client. -/
def Chain2 (pl : List UUID) (tr : SessionTrace) (c : MadeCall) : Prop :=
  ∃ e1 e2, List.Sublist [e1, e2] tr ∧ c.MadeBy pl e1 ∧ c.ShownBy e2 ∧ c.method.isVoid = false

/-- The call was made, shown to the client, and answered. -/
def Chain3 (pl : List UUID) (tr : SessionTrace) (c : MadeCall) (a b : Option Val) : Prop :=
  ∃ e1 e2 e3, List.Sublist [e1, e2, e3] tr ∧ c.MadeBy pl e1 ∧ c.ShownBy e2 ∧ AnsweredBy c.ci a b e3 ∧
    c.method.isVoid = false

theorem Chain2.mono {pl : List UUID} {tr : SessionTrace} {c : MadeCall} (h : Chain2 pl tr c)
    (x : SessionTrace) : Chain2 pl (tr ++ x) c := by
  obtain ⟨e1, e2, h1, h2⟩ := h
  exact ⟨e1, e2, h1.trans (List.sublist_append_left _ _), h2⟩

theorem Chain3.mono {pl : List UUID} {tr : SessionTrace} {c : MadeCall} {a b : Option Val}
    (h : Chain3 pl tr c a b) (x : SessionTrace) : Chain3 pl (tr ++ x) c a b := by
  obtain ⟨e1, e2, e3, h1, h2⟩ := h
  exact ⟨e1, e2, e3, h1.trans (List.sublist_append_left _ _), h2⟩

theorem MadeBy.id {pl : List UUID} {c : MadeCall} {e : SessionEntry} (h : c.MadeBy pl e) :
    madeId e = some c.ci := by
  rcases h with rfl | ⟨_, _, _, _, rfl⟩ <;> rfl

/-- What is known about host calls in a session; `pl` are the pipelines of the server. -/
structure HostInv (pl : List UUID) (s : Session) (tr : SessionTrace) : Prop where
  posS : s.atServer ≤ s.client.sendBuffer.length
  posC : s.atClient ≤ s.server.sendBuffer.length
  made : ∀ m ∈ s.server.sendBuffer, ∀ c, callOf m = some c →
    (c.ci ≠ -100 → c.method.isVoid = false) ∧ ∃ e ∈ tr, c.MadeBy pl e
  madeIds : tr.filterMap madeId = s.server.sendBuffer.filterMap callId
  ids : ((s.server.sendBuffer.filterMap callId).filter (· ≠ -100)).Nodup
  idsLt : ∀ ci ∈ s.server.sendBuffer.filterMap callId, ci < s.server.ciCount
  shown : ∀ ci m, s.client.ciEvents.get? ci = some m → ∃ c : MadeCall, c.ci = ci ∧
    MadeCall.Sent { c with pid := seenBy c.pid } m ∧ Chain2 pl tr c
  waiting : (s.client.ciEvents.keys ++ s.client.sendBuffer.filterMap replyId).Nodup
  known : ∀ ci ∈ s.client.ciEvents.keys ++ s.client.sendBuffer.filterMap replyId,
    ci ∈ (s.server.sendBuffer.take s.atClient).filterMap callId
  replied : ∀ m ∈ s.client.sendBuffer, ∀ ci, replyId m = some ci → ∃ (c : MadeCall) (a b : Option Val),
    c.ci = ci ∧ c.Answer a b m ∧ Chain3 pl tr c a b
  seen : List.Sublist (tr.filterMap seenId) ((s.client.sendBuffer.take s.atServer).filterMap replyId)
  callsGo : ∀ (t1 t2 : SessionTrace) (e : SessionEntry) (c : MadeCall), tr = t1 ++ e :: t2 →
    c.MadeBy pl e → Readable (some c.params) →
    (∃ e' ∈ t2, c.ShownBy e') ∨ ∃ m ∈ s.toClient, c.Sent m
  answersGo : ∀ (t1 t2 : SessionTrace) (e : SessionEntry) (ci : Int) (a b : Option Val),
    tr = t1 ++ e :: t2 → AnsweredBy ci a b e → ∃ c : MadeCall, c.ci = ci ∧ Chain2 pl t1 c ∧
      (Readable a → Readable b → (∃ e' ∈ t2, ∃ m, c.Answer a b m ∧ ServerSees m e') ∨
        ∃ m ∈ s.toServer, c.Answer a b m)
  events : ∀ (t1 t2 : SessionTrace) (e : SessionEntry) (m : Msg) (ci : Int), tr = t1 ++ e :: t2 →
    ServerSees m e → m.IsHostReply ci → ∃ (c : MadeCall) (a b : Option Val),
      c.ci = ci ∧ c.Answer a b m ∧ Chain3 pl t1 c a b

/-- A step that neither makes, shows nor answers host calls, and shows no answer. -/
def Neutral (e : SessionEntry) : Prop :=
  madeId e = none ∧ seenId e = none ∧ ∀ ci a b, ¬ AnsweredBy ci a b e

/-- A list with one more element, cut somewhere. -/
theorem snoc_split {α : Type} {tr t1 t2 : List α} {x e : α} (h : tr ++ [x] = t1 ++ e :: t2) :
    (t1 = tr ∧ e = x ∧ t2 = []) ∨ ∃ t2', t2 = t2' ++ [x] ∧ tr = t1 ++ e :: t2' := by
  rcases List.eq_nil_or_concat t2 with rfl | ⟨t2', y, rfl⟩
  · have := List.append_inj' h rfl
    exact Or.inl ⟨this.1.symm, by simpa using this.2.symm, rfl⟩
  · simp only [List.concat_eq_append] at h ⊢
    rw [← List.cons_append, ← List.append_assoc] at h
    have := List.append_inj' h rfl
    have hx : x = y := by simpa using this.2
    subst hx
    exact Or.inr ⟨t2', rfl, this.1⟩

section
variable {pl : List UUID} {s : Session} {tr : SessionTrace}

/-- A change of the two pools that does not concern host calls. -/
theorem HostInv.quiet (h : HostInv pl s tr) {p q : Pool} (hp : CHost s.client p)
    (hq : q.ciCount ≥ s.server.ciCount ∧ Adds (fun m => callOf m = none) s.server.sendBuffer q.sendBuffer) :
    HostInv pl { s with client := p, server := q } tr := by
  obtain ⟨-, he, new, hb, hn⟩ := hp
  obtain ⟨hcc, new', hb', hn'⟩ := hq
  have hr : new.filterMap replyId = [] := by
    rw [List.filterMap_eq_nil_iff]; exact hn
  have hc : new'.filterMap callId = [] := by
    rw [List.filterMap_eq_nil_iff]
    intro m hm
    rw [callId_callOf, hn' m hm]; rfl
  have hts : Session.toServer { s with client := p, server := q } = s.toServer ++ new := by
    simp only [Session.toServer, hb]
    rw [List.drop_append_of_le_length h.posS]
  have htc : Session.toClient { s with client := p, server := q } = s.toClient ++ new' := by
    simp only [Session.toClient, hb']
    rw [List.drop_append_of_le_length h.posC]
  refine
    { posS := by simp only [hb, List.length_append]; exact Nat.le_add_right_of_le h.posS
      posC := by simp only [hb', List.length_append]; exact Nat.le_add_right_of_le h.posC
      made := ?_, madeIds := ?_, ids := ?_, idsLt := ?_, shown := ?_, waiting := ?_, known := ?_
      replied := ?_, seen := ?_, callsGo := ?_, answersGo := ?_, events := h.events }
  · dsimp only; rw [hb']
    intro m hm c hmc
    rcases List.mem_append.mp hm with hm | hm
    · exact h.made m hm c hmc
    · rw [hn' m hm] at hmc; cases hmc
  · dsimp only; rw [hb', List.filterMap_append, hc, List.append_nil]; exact h.madeIds
  · dsimp only; rw [hb', List.filterMap_append, hc, List.append_nil]; exact h.ids
  · dsimp only; rw [hb', List.filterMap_append, hc, List.append_nil]
    intro ci hci
    have := h.idsLt ci hci
    omega
  · dsimp only; rw [he]; exact h.shown
  · dsimp only; rw [he, hb, List.filterMap_append, hr, List.append_nil]; exact h.waiting
  · dsimp only
    rw [he, hb, List.filterMap_append, hr, List.append_nil, hb', List.take_append_of_le_length h.posC]
    exact h.known
  · dsimp only; rw [hb]
    intro m hm ci hmc
    rcases List.mem_append.mp hm with hm | hm
    · exact h.replied m hm ci hmc
    · rw [hn m hm] at hmc; cases hmc
  · dsimp only; rw [hb, List.take_append_of_le_length h.posS]; exact h.seen
  · intro t1 t2 e c ht hm hr
    rcases h.callsGo t1 t2 e c ht hm hr with h1 | ⟨m, hm, hs⟩
    · exact Or.inl h1
    · exact Or.inr ⟨m, by rw [htc]; exact List.mem_append_left _ hm, hs⟩
  · intro t1 t2 e ci a b ht hm
    obtain ⟨c, h1, h2, h3⟩ := h.answersGo t1 t2 e ci a b ht hm
    refine ⟨c, h1, h2, fun ha hb => ?_⟩
    rcases h3 ha hb with h3 | ⟨m, hm, hs⟩
    · exact Or.inl h3
    · exact Or.inr ⟨m, by rw [hts]; exact List.mem_append_left _ hm, hs⟩

/-- A step that does not concern host calls. -/
theorem HostInv.entry (h : HostInv pl s tr) {e : SessionEntry} (hn : Neutral e) :
    HostInv pl s (tr ++ [e]) := by
  obtain ⟨h1, h2, h3⟩ := hn
  refine { h with made := ?_, madeIds := ?_, shown := ?_, replied := ?_, seen := ?_, callsGo := ?_,
                  answersGo := ?_, events := ?_ }
  · intro m hm c hc
    obtain ⟨ha, e', he', hx⟩ := h.made m hm c hc
    exact ⟨ha, e', List.mem_append_left _ he', hx⟩
  · rw [List.filterMap_append, List.filterMap_cons, h1, List.filterMap_nil, List.append_nil]
    exact h.madeIds
  · intro ci m hm
    obtain ⟨c, ha, hb, hc⟩ := h.shown ci m hm
    exact ⟨c, ha, hb, hc.mono _⟩
  · intro m hm ci hc
    obtain ⟨c, a, b, ha, hb, hx⟩ := h.replied m hm ci hc
    exact ⟨c, a, b, ha, hb, hx.mono _⟩
  · rw [List.filterMap_append, List.filterMap_cons, h2, List.filterMap_nil, List.append_nil]
    exact h.seen
  · intro t1 t2 e' c ht hm hr
    rcases snoc_split ht with ⟨-, rfl, -⟩ | ⟨t2', rfl, ht'⟩
    · rw [MadeBy.id hm] at h1; cases h1
    · rcases h.callsGo t1 t2' e' c ht' hm hr with ⟨e'', h4, h5⟩ | h4
      · exact Or.inl ⟨e'', List.mem_append_left _ h4, h5⟩
      · exact Or.inr h4
  · intro t1 t2 e' ci a b ht hm
    rcases snoc_split ht with ⟨-, rfl, -⟩ | ⟨t2', rfl, ht'⟩
    · exact absurd hm (h3 _ _ _)
    · obtain ⟨c, h4, h5, h6⟩ := h.answersGo t1 t2' e' ci a b ht' hm
      refine ⟨c, h4, h5, fun ha hb => ?_⟩
      rcases h6 ha hb with ⟨e'', h7, h8⟩ | h7
      · exact Or.inl ⟨e'', List.mem_append_left _ h7, h8⟩
      · exact Or.inr h7
  · intro t1 t2 e' m ci ht hm hr
    rcases snoc_split ht with ⟨-, rfl, -⟩ | ⟨t2', rfl, ht'⟩
    · rw [hm] at h2
      rw [← replyId_iff] at hr
      simp only [seenId, hr] at h2
      cases h2
    · exact h.events t1 t2' e' m ci ht' hm hr

/-- The server makes a host call. -/
theorem HostInv.call (h : HostInv pl s tr) {q : Pool} {m : Msg} {c : MadeCall} {e : SessionEntry}
    (hb : q.sendBuffer = s.server.sendBuffer ++ [m]) (hm : c.Sent m) (he : c.MadeBy pl e)
    (hci : c.ci = if c.method.isVoid = true then -100 else (s.server.ciCount : Int))
    (hcc : q.ciCount = if c.method.isVoid = true then s.server.ciCount else s.server.ciCount + 1) :
    HostInv pl { s with server := q } (tr ++ [e]) := by
  have hcm : callOf m = some c := (callOf_iff m c).mpr hm
  have hidm : callId m = some c.ci := by rw [callId_callOf, hcm]; rfl
  have hs : seenId e = none := by rcases he with rfl | ⟨_, _, _, _, rfl⟩ <;> rfl
  have hna : ∀ ci a b, ¬ AnsweredBy ci a b e := by
    rintro ci a b (rfl | ⟨_, rfl⟩) <;> rcases he with he | ⟨_, _, _, _, he⟩ <;> simp at he
  have htc : Session.toClient { s with server := q } = s.toClient ++ [m] := by
    simp only [Session.toClient, hb]
    rw [List.drop_append_of_le_length h.posC]
  refine
    { posS := h.posS
      posC := by simp only [hb, List.length_append]; exact Nat.le_add_right_of_le h.posC
      made := ?_, madeIds := ?_, ids := ?_, idsLt := ?_, shown := ?_, waiting := h.waiting, known := ?_
      replied := ?_, seen := ?_, callsGo := ?_, answersGo := ?_, events := ?_ }
  · dsimp only; rw [hb]
    intro m' hm' c' hc'
    rcases List.mem_append.mp hm' with hm' | hm'
    · obtain ⟨h1, e', h2, h3⟩ := h.made m' hm' c' hc'
      exact ⟨h1, e', List.mem_append_left _ h2, h3⟩
    · rw [List.mem_singleton.mp hm', hcm] at hc'
      cases hc'
      refine ⟨fun hne => ?_, e, by simp, he⟩
      cases hv : c.method.isVoid with
      | false => rfl
      | true => rw [hv, if_pos rfl] at hci; exact absurd hci hne
  · dsimp only
    rw [hb, List.filterMap_append, List.filterMap_append, h.madeIds, List.filterMap_cons,
      MadeBy.id he, List.filterMap_cons, hidm]
    rfl
  · dsimp only
    rw [hb, List.filterMap_append, List.filterMap_cons, hidm, List.filterMap_nil, List.filter_append]
    rw [List.nodup_append]
    refine ⟨h.ids, by simp only [List.filter_cons]; split <;> simp, ?_⟩
    intro x hx y hy
    simp only [List.mem_filter, List.mem_singleton] at hx hy
    obtain ⟨rfl, hy⟩ := hy
    have hne : c.ci ≠ -100 := by simpa using hy
    have hlt := h.idsLt x hx.1
    cases hv : c.method.isVoid with
    | true => rw [hv, if_pos rfl] at hci; exact absurd hci hne
    | false =>
      rw [hv, if_neg (by simp)] at hci
      omega
  · dsimp only
    rw [hb, List.filterMap_append, List.filterMap_cons, hidm, List.filterMap_nil]
    intro x hx
    cases hv : c.method.isVoid with
    | true =>
      rw [hv, if_pos rfl] at hci hcc
      rcases List.mem_append.mp hx with hx | hx
      · have := h.idsLt x hx; omega
      · rw [List.mem_singleton.mp hx]; omega
    | false =>
      rw [hv, if_neg (by simp)] at hci hcc
      rcases List.mem_append.mp hx with hx | hx
      · have := h.idsLt x hx; omega
      · rw [List.mem_singleton.mp hx]; omega
  · intro ci m' hm'
    obtain ⟨c', ha, hb', hc⟩ := h.shown ci m' hm'
    exact ⟨c', ha, hb', hc.mono _⟩
  · dsimp only
    rw [hb, List.take_append_of_le_length h.posC]
    exact h.known
  · intro m' hm' ci hc'
    obtain ⟨c', a, b, ha, hb', hx⟩ := h.replied m' hm' ci hc'
    exact ⟨c', a, b, ha, hb', hx.mono _⟩
  · rw [List.filterMap_append, List.filterMap_cons, hs, List.filterMap_nil, List.append_nil]
    exact h.seen
  · intro t1 t2 e' c' ht hm' hr
    rw [htc]
    rcases snoc_split ht with ⟨-, rfl, -⟩ | ⟨t2', rfl, ht'⟩
    · have : c' = c := by
        rcases hm' with hm' | ⟨n, u, hu, hp, hm'⟩ <;> rcases he with he | ⟨n', u', hu', hp', he⟩ <;>
          rw [hm'] at he <;> simp only [Prod.mk.injEq, SessionOp.server.injEq, ServerOp.hostCall.injEq,
            ServerOp.pipeHostCall.injEq, Except.ok.injEq, Ret.ci.injEq, reduceCtorEq, false_and] at he
        · obtain ⟨⟨h1, h2, h3⟩, h4⟩ := he
          cases c; cases c'; simp_all
        · obtain ⟨⟨h1, h2, h3⟩, h4⟩ := he
          subst h1
          rw [hu] at hu'
          cases hu'
          cases c; cases c'; simp_all
      subst this
      exact Or.inr ⟨m, by simp, hm⟩
    · rcases h.callsGo t1 t2' e' c' ht' hm' hr with ⟨e'', h4, h5⟩ | ⟨m', h4, h5⟩
      · exact Or.inl ⟨e'', List.mem_append_left _ h4, h5⟩
      · exact Or.inr ⟨m', List.mem_append_left _ h4, h5⟩
  · intro t1 t2 e' ci a b ht hm'
    rcases snoc_split ht with ⟨-, rfl, -⟩ | ⟨t2', rfl, ht'⟩
    · exact absurd hm' (hna _ _ _)
    · obtain ⟨c', h4, h5, h6⟩ := h.answersGo t1 t2' e' ci a b ht' hm'
      refine ⟨c', h4, h5, fun ha hb' => ?_⟩
      rcases h6 ha hb' with ⟨e'', h7, h8⟩ | h7
      · exact Or.inl ⟨e'', List.mem_append_left _ h7, h8⟩
      · exact Or.inr h7
  · intro t1 t2 e' m' ci ht hm' hr
    rcases snoc_split ht with ⟨-, rfl, -⟩ | ⟨t2', rfl, ht'⟩
    · rw [hm'] at he
      rcases he with he | ⟨_, _, _, _, he⟩ <;> simp at he
    · exact h.events t1 t2' e' m' ci ht' hm' hr

/-- The client answers a host call. -/
theorem HostInv.reply (h : HostInv pl s tr) {p : Pool} {m r : Msg} {c : MadeCall} {a b : Option Val}
    {e : SessionEntry} (hg : s.client.ciEvents.get? c.ci = some m)
    (hk : Chain2 pl tr c) (hr : c.Answer a b r) (he : AnsweredBy c.ci a b e)
    (hb : p.sendBuffer = s.client.sendBuffer ++ [r])
    (hev : p.ciEvents = s.client.ciEvents.erase c.ci) :
    HostInv pl { s with client := p } (tr ++ [e]) := by
  have hri : replyId r = some c.ci := replyId_answer hr
  have hmi : madeId e = none := by rcases he with rfl | ⟨_, rfl⟩ <;> rfl
  have hsi : seenId e = none := by rcases he with rfl | ⟨_, rfl⟩ <;> rfl
  have hke : c.ci ∈ s.client.ciEvents.keys := get?_mem_keys hg
  have hen : s.client.ciEvents.keys.Nodup := (List.nodup_append.mp h.waiting).1
  have hperm : List.Perm (p.ciEvents.keys ++ p.sendBuffer.filterMap replyId)
      (s.client.ciEvents.keys ++ s.client.sendBuffer.filterMap replyId) := by
    rw [hev, hb, List.filterMap_append, List.filterMap_cons, hri, List.filterMap_nil]
    refine List.Perm.trans ?_ ((keys_erase_perm hke).symm.append_right _)
    rw [← List.append_assoc]
    refine List.perm_append_comm.trans ?_
    simp
  have hchain : Chain3 pl (tr ++ [e]) c a b := by
    obtain ⟨e1, e2, h1, h2, h3, h4⟩ := hk
    exact ⟨e1, e2, e, by simpa using List.Sublist.append h1 (List.Sublist.refl [e]), h2, h3, he, h4⟩
  have hts : Session.toServer { s with client := p } = s.toServer ++ [r] := by
    simp only [Session.toServer, hb]
    rw [List.drop_append_of_le_length h.posS]
  refine
    { posS := by simp only [hb, List.length_append]; exact Nat.le_add_right_of_le h.posS
      posC := h.posC, ids := h.ids, idsLt := h.idsLt
      made := ?_, madeIds := ?_, shown := ?_, waiting := ?_, known := ?_
      replied := ?_, seen := ?_, callsGo := ?_, answersGo := ?_, events := ?_ }
  · intro m' hm' c' hc'
    obtain ⟨ha, e', he', hx⟩ := h.made m' hm' c' hc'
    exact ⟨ha, e', List.mem_append_left _ he', hx⟩
  · rw [List.filterMap_append, List.filterMap_cons, hmi, List.filterMap_nil, List.append_nil]
    exact h.madeIds
  · dsimp only; rw [hev]
    intro ci m' hm'
    have hne : c.ci ≠ ci := by
      rintro rfl
      rw [Dict.get?_erase_self _ _ hen] at hm'
      cases hm'
    rw [Dict.get?_erase_ne _ hne] at hm'
    obtain ⟨c', h1, h2, h3⟩ := h.shown ci m' hm'
    exact ⟨c', h1, h2, h3.mono _⟩
  · exact hperm.nodup_iff.mpr h.waiting
  · intro ci hci
    exact h.known ci (hperm.mem_iff.mp hci)
  · dsimp only; rw [hb]
    intro m' hm' ci hci
    rcases List.mem_append.mp hm' with hm' | hm'
    · obtain ⟨c', a', b', h1, h2, h3⟩ := h.replied m' hm' ci hci
      exact ⟨c', a', b', h1, h2, h3.mono _⟩
    · rw [List.mem_singleton.mp hm'] at hci ⊢
      rw [hri] at hci
      cases hci
      exact ⟨c, a, b, rfl, hr, hchain⟩
  · dsimp only
    rw [hb, List.take_append_of_le_length h.posS, List.filterMap_append, List.filterMap_cons, hsi,
      List.filterMap_nil, List.append_nil]
    exact h.seen
  · intro t1 t2 e' c' ht hm' hrd
    rcases snoc_split ht with ⟨-, rfl, -⟩ | ⟨t2', rfl, ht'⟩
    · rw [MadeBy.id hm'] at hmi; cases hmi
    · rcases h.callsGo t1 t2' e' c' ht' hm' hrd with ⟨e'', h4, h5⟩ | h4
      · exact Or.inl ⟨e'', List.mem_append_left _ h4, h5⟩
      · exact Or.inr h4
  · intro t1 t2 e' ci a' b' ht hm'
    rw [hts]
    rcases snoc_split ht with ⟨rfl, rfl, -⟩ | ⟨t2', rfl, ht'⟩
    · have : c.ci = ci ∧ a = a' ∧ b = b' := by
        rcases he with rfl | ⟨_, rfl⟩ <;> rcases hm' with hm' | ⟨_, hm'⟩ <;> cases hm' <;> exact ⟨rfl, rfl, rfl⟩
      obtain ⟨rfl, rfl, rfl⟩ := this
      exact ⟨c, rfl, hk, fun _ _ => Or.inr ⟨r, by simp, hr⟩⟩
    · obtain ⟨c', h4, h5, h6⟩ := h.answersGo t1 t2' e' ci a' b' ht' hm'
      refine ⟨c', h4, h5, fun ha hb' => ?_⟩
      rcases h6 ha hb' with ⟨e'', h7, h8⟩ | ⟨m', h7, h8⟩
      · exact Or.inl ⟨e'', List.mem_append_left _ h7, h8⟩
      · exact Or.inr ⟨m', List.mem_append_left _ h7, h8⟩
  · intro t1 t2 e' m' ci ht hm' hrd
    rcases snoc_split ht with ⟨-, rfl, -⟩ | ⟨t2', rfl, ht'⟩
    · rw [hm'] at he
      rcases he with he | ⟨_, he⟩ <;> simp at he
    · exact h.events t1 t2' e' m' ci ht' hm' hrd

/-- The server receives a message. -/
theorem HostInv.deliverS (h : HostInv pl s tr) {m : Msg} {x : Except Err Ret}
    (hm : s.client.sendBuffer[s.atServer]? = some m)
    (hx : ∀ m', x = .ok (.event m') → m' = wire m)
    (ha : ∀ (c : MadeCall) a b, c.Answer a b m → Readable a → Readable b → x = .ok (.event (wire m))) :
    HostInv pl { s with atServer := s.atServer + 1 } (tr ++ [(.toServer, x)]) := by
  obtain ⟨hlt, hmi⟩ := List.getElem?_eq_some_iff.mp hm
  have hmem : m ∈ s.client.sendBuffer := hmi ▸ List.getElem_mem hlt
  have htake : s.client.sendBuffer.take (s.atServer + 1) = s.client.sendBuffer.take s.atServer ++ [m] := by
    rw [List.take_add_one, hm]; rfl
  have hdrop : s.toServer = m :: Session.toServer { s with atServer := s.atServer + 1 } := by
    simp only [Session.toServer]
    rw [List.drop_eq_getElem_cons hlt, hmi]
  have hmade : madeId (SessionOp.toServer, x) = none := rfl
  refine { h with posS := hlt, made := ?_, madeIds := ?_, shown := ?_, replied := ?_, seen := ?_,
                  callsGo := ?_, answersGo := ?_, events := ?_ }
  · intro m' hm' c' hc'
    obtain ⟨ha, e', he', hx⟩ := h.made m' hm' c' hc'
    exact ⟨ha, e', List.mem_append_left _ he', hx⟩
  · rw [List.filterMap_append, List.filterMap_cons, hmade, List.filterMap_nil, List.append_nil]
    exact h.madeIds
  · intro ci m' hm'
    obtain ⟨c', h1, h2, h3⟩ := h.shown ci m' hm'
    exact ⟨c', h1, h2, h3.mono _⟩
  · intro m' hm' ci hci
    obtain ⟨c', a', b', h1, h2, h3⟩ := h.replied m' hm' ci hci
    exact ⟨c', a', b', h1, h2, h3.mono _⟩
  · dsimp only
    rw [htake, List.filterMap_append, List.filterMap_append]
    refine List.Sublist.append h.seen ?_
    simp only [List.filterMap_cons, List.filterMap_nil]
    have : seenId (SessionOp.toServer, x) = none ∨ seenId (SessionOp.toServer, x) = replyId m := by
      rcases x with _ | r
      · exact Or.inl rfl
      · cases r with
        | none => exact Or.inl rfl
        | ci n => exact Or.inl rfl
        | event m' =>
          rw [hx m' rfl]
          exact Or.inr (replyId_wire m)
    rcases this with ht | ht <;> rw [ht]
    · exact List.nil_sublist _
    · exact List.Sublist.refl _
  · intro t1 t2 e' c' ht hm' hrd
    rcases snoc_split ht with ⟨-, rfl, -⟩ | ⟨t2', rfl, ht'⟩
    · rw [MadeBy.id hm'] at hmade; cases hmade
    · rcases h.callsGo t1 t2' e' c' ht' hm' hrd with ⟨e'', h4, h5⟩ | h4
      · exact Or.inl ⟨e'', List.mem_append_left _ h4, h5⟩
      · exact Or.inr h4
  · intro t1 t2 e' ci a b ht hm'
    rcases snoc_split ht with ⟨-, rfl, -⟩ | ⟨t2', rfl, ht'⟩
    · rcases hm' with hm' | ⟨_, hm'⟩ <;> simp at hm'
    · obtain ⟨c', h4, h5, h6⟩ := h.answersGo t1 t2' e' ci a b ht' hm'
      refine ⟨c', h4, h5, fun ha' hb' => ?_⟩
      rcases h6 ha' hb' with ⟨e'', h7, h8⟩ | ⟨m', h7, h8⟩
      · exact Or.inl ⟨e'', List.mem_append_left _ h7, h8⟩
      · rw [hdrop, List.mem_cons] at h7
        rcases h7 with rfl | h7
        · exact Or.inl ⟨(.toServer, x), by simp, wire m', answer_wire h8, by
            rw [ha c' a b h8 ha' hb']; rfl⟩
        · exact Or.inr ⟨m', h7, h8⟩
  · intro t1 t2 e' m' ci ht hm' hrd
    rcases snoc_split ht with ⟨rfl, rfl, -⟩ | ⟨t2', rfl, ht'⟩
    · have hxe : x = .ok (.event m') := by
        have := congrArg Prod.snd hm'
        exact this
      have := hx m' hxe
      subst this
      have hri : replyId m = some ci := by rw [← replyId_wire]; exact (replyId_iff _ _).mpr hrd
      obtain ⟨c', a', b', h1, h2, h3⟩ := h.replied m hmem ci hri
      exact ⟨c', a', b', h1, answer_wire h2, h3⟩
    · exact h.events t1 t2' e' m' ci ht' hm' hrd

/-- The client receives a message that it does not record. -/
theorem HostInv.deliverC (h : HostInv pl s tr) {m : Msg} {x : Except Err Ret}
    (hm : s.server.sendBuffer[s.atClient]? = some m)
    (ha : ∀ c, callOf m = some c → Readable (some c.params) → x = .ok (.event (wire m))) :
    HostInv pl { s with atClient := s.atClient + 1 } (tr ++ [(.toClient, x)]) := by
  obtain ⟨hlt, hmi⟩ := List.getElem?_eq_some_iff.mp hm
  have htake : s.server.sendBuffer.take (s.atClient + 1) = s.server.sendBuffer.take s.atClient ++ [m] := by
    rw [List.take_add_one, hm]; rfl
  have hdrop : s.toClient = m :: Session.toClient { s with atClient := s.atClient + 1 } := by
    simp only [Session.toClient]
    rw [List.drop_eq_getElem_cons hlt, hmi]
  have hmade : madeId (SessionOp.toClient, x) = none := rfl
  have hseen : seenId (SessionOp.toClient, x) = none := rfl
  refine { h with posC := hlt, made := ?_, madeIds := ?_, shown := ?_, known := ?_, replied := ?_, seen := ?_,
                  callsGo := ?_, answersGo := ?_, events := ?_ }
  · intro m' hm' c' hc'
    obtain ⟨ha, e', he', hx⟩ := h.made m' hm' c' hc'
    exact ⟨ha, e', List.mem_append_left _ he', hx⟩
  · rw [List.filterMap_append, List.filterMap_cons, hmade, List.filterMap_nil, List.append_nil]
    exact h.madeIds
  · intro ci m' hm'
    obtain ⟨c', h1, h2, h3⟩ := h.shown ci m' hm'
    exact ⟨c', h1, h2, h3.mono _⟩
  · intro ci hci
    dsimp only
    rw [htake, List.filterMap_append]
    exact List.mem_append_left _ (h.known ci hci)
  · intro m' hm' ci hci
    obtain ⟨c', a', b', h1, h2, h3⟩ := h.replied m' hm' ci hci
    exact ⟨c', a', b', h1, h2, h3.mono _⟩
  · rw [List.filterMap_append, List.filterMap_cons, hseen, List.filterMap_nil, List.append_nil]
    exact h.seen
  · intro t1 t2 e' c' ht hm' hrd
    rcases snoc_split ht with ⟨-, rfl, -⟩ | ⟨t2', rfl, ht'⟩
    · rw [MadeBy.id hm'] at hmade; cases hmade
    · rcases h.callsGo t1 t2' e' c' ht' hm' hrd with ⟨e'', h4, h5⟩ | ⟨m', h4, h5⟩
      · exact Or.inl ⟨e'', List.mem_append_left _ h4, h5⟩
      · rw [hdrop, List.mem_cons] at h4
        rcases h4 with rfl | h4
        · have hc := (callOf_iff _ _).mpr h5
          refine Or.inl ⟨(.toClient, x), by simp, wire m', ?_, by rw [ha c' hc hrd]⟩
          rw [← callOf_iff, callOf_wire, hc]; rfl
        · exact Or.inr ⟨m', h4, h5⟩
  · intro t1 t2 e' ci a b ht hm'
    rcases snoc_split ht with ⟨-, rfl, -⟩ | ⟨t2', rfl, ht'⟩
    · rcases hm' with hm' | ⟨_, hm'⟩ <;> simp at hm'
    · obtain ⟨c', h4, h5, h6⟩ := h.answersGo t1 t2' e' ci a b ht' hm'
      refine ⟨c', h4, h5, fun ha' hb' => ?_⟩
      rcases h6 ha' hb' with ⟨e'', h7, h8⟩ | h7
      · exact Or.inl ⟨e'', List.mem_append_left _ h7, h8⟩
      · exact Or.inr h7
  · intro t1 t2 e' m' ci ht hm' hrd
    rcases snoc_split ht with ⟨-, rfl, -⟩ | ⟨t2', rfl, ht'⟩
    · simp [ServerSees] at hm'
    · exact h.events t1 t2' e' m' ci ht' hm' hrd

/-- The client records a call it was shown. -/
theorem HostInv.record (h : HostInv pl s tr) {p : Pool} {m : Msg} {c : MadeCall}
    (hs : MadeCall.Sent { c with pid := seenBy c.pid } m) (hc : Chain2 pl tr c)
    (hn : c.ci ∉ s.client.ciEvents.keys ++ s.client.sendBuffer.filterMap replyId)
    (hk : c.ci ∈ (s.server.sendBuffer.take s.atClient).filterMap callId)
    (hb : p.sendBuffer = s.client.sendBuffer) (hev : p.ciEvents = s.client.ciEvents.set c.ci m) :
    HostInv pl { s with client := p } tr := by
  have hne : c.ci ∉ s.client.ciEvents.keys := fun hm => hn (List.mem_append_left _ hm)
  have hkeys : p.ciEvents.keys = s.client.ciEvents.keys ++ [c.ci] := by rw [hev, keys_set_new hne]
  have hts : Session.toServer { s with client := p } = s.toServer := by
    simp only [Session.toServer, hb]
  have hperm : List.Perm (p.ciEvents.keys ++ p.sendBuffer.filterMap replyId)
      (c.ci :: (s.client.ciEvents.keys ++ s.client.sendBuffer.filterMap replyId)) := by
    rw [hkeys, hb, List.append_assoc]
    exact List.perm_middle
  refine { h with posS := by dsimp only; rw [hb]; exact h.posS
                  shown := ?_, waiting := ?_, known := ?_
                  replied := by dsimp only; rw [hb]; exact h.replied
                  seen := by dsimp only; rw [hb]; exact h.seen
                  answersGo := by rw [hts]; exact h.answersGo }
  · dsimp only
    rw [hev]
    intro ci m' hm'
    by_cases he : c.ci = ci
    · subst he
      rw [Dict.get?_set_self] at hm'
      cases hm'
      exact ⟨c, rfl, hs, hc⟩
    · rw [Dict.get?_set_ne _ _ he] at hm'
      exact h.shown ci m' hm'
  · exact hperm.nodup_iff.mpr (List.nodup_cons.mpr ⟨hn, h.waiting⟩)
  · intro ci hci
    rcases List.mem_cons.mp (hperm.mem_iff.mp hci) with rfl | hci
    · exact hk
    · exact h.known ci hci

end

/-! ## The steps -/

/-- What a client that receives a message does with it. -/
theorem clientReceives_cases (p : Pool) (m : Msg) (hc : p.isClient = true) (ht : PipesTyped p) :
    (∃ c, callOf m = some c ∧ c.ci ≠ -100 ∧ clientReceives p m =
      ({ p with ciEvents := p.ciEvents.set c.ci (wire m) }, .ok (.event (wire m)))) ∨
    (CHost p (clientReceives p m).1 ∧ ∀ c, callOf m = some c → Readable (some c.params) →
      (clientReceives p m).2 = .ok (.event (wire m))) := by
  cases hcm : callOf m with
  | none =>
    refine Or.inr ⟨cHost_step (op := .recv (wire m)) rfl ?_ (by simp) hc ht, by simp⟩
    intro m' hm' ci hci
    injection hm' with hm'
    subst hm'
    rw [callId_callOf, callOf_wire, hcm] at hci
    cases hci
  | some c =>
    have hsent := (callOf_iff m c).mp hcm
    have hde : m.type ≠ .EndOfPipelineInput := by
      obtain ⟨_, ⟨h, _⟩ | ⟨h, _⟩⟩ := hsent <;> simp [h]
    have hdec : Pool.decode (wire m) = match c.params.deserializeFails with
        | some e => .error e
        | none => .ok m.content := by
      obtain ⟨_, ⟨h, h'⟩ | ⟨h, h'⟩⟩ := hsent <;>
        simp [Pool.decode, wire, h, h', Obj.deserializeFails, Obj.vals, Body.vals] <;>
        cases c.params.deserializeFails <;> rfl
    cases hf : c.params.deserializeFails with
    | some e =>
      rw [hf] at hdec
      have : clientReceives p m = (p, .error e) := by
        simp [clientReceives, ClientOp.step, recvClient, hdec, Res.ret, Except.map]
      rw [this]
      refine Or.inr ⟨⟨hc, rfl, Adds.refl _ _⟩, ?_⟩
      intro c' hc' hr
      cases hc'
      have := hr _ rfl
      rw [hf] at this
      cases this
    | none =>
      rw [hf] at hdec
      by_cases hv : c.ci = -100
      · have : clientReceives p m = (p, .ok (.event (wire m))) := by
          obtain ⟨_, ⟨h, h'⟩ | ⟨h, h'⟩⟩ := hsent <;>
            simp [clientReceives, ClientOp.step, recvClient, hdec, Res.ret, Except.map, processClient,
              Res.next, h', show (wire m).type = m.type from rfl, h, hv]
        rw [this]
        exact Or.inr ⟨⟨hc, rfl, Adds.refl _ _⟩, fun _ _ _ => rfl⟩
      · refine Or.inl ⟨c, rfl, hv, ?_⟩
        obtain ⟨_, ⟨h, h'⟩ | ⟨h, h'⟩⟩ := hsent <;>
          simp [clientReceives, ClientOp.step, recvClient, hdec, Res.ret, Except.map, processClient,
            Res.next, h', show (wire m).type = m.type from rfl, h, hv]

theorem SHost.trans {p q r : Pool} (h1 : SHost p q) (h2 : SHost q r) : SHost p r := by
  obtain ⟨_, h3, n1, h4, h5⟩ := h1
  obtain ⟨h6, h7, n2, h8, h9⟩ := h2
  refine ⟨h6, h7.trans h3, n1 ++ n2, by rw [h8, h4, List.append_assoc], ?_⟩
  intro m hm
  rcases List.mem_append.mp hm with hm | hm
  · exact h5 m hm
  · exact h9 m hm

/-- What a server that receives a message does with it. -/
theorem serverReceives_cases (p : Pool) (m : Msg) (hc : p.isClient = false) :
    SHost p (serverReceives p m).1 ∧
    (∀ m', (serverReceives p m).2 = .ok (.event m') → m' = wire m) ∧
    (∀ (c : MadeCall) a b, c.Answer a b m → Readable a → Readable b →
      (serverReceives p m).2 = .ok (.event (wire m))) ∧
    (serverReceives p m).1.pipes.map (·.pid) = p.pipes.map (·.pid) := by
  refine ⟨?_, ?_, ?_, ?_⟩
  · have h1 : SHost p (ServerOp.receiveData.step p).1 :=
      sHost_step (op := .receiveData) rfl (by simp) (by simp) hc
    exact h1.trans (sHost_step (op := .recv (wire m)) rfl (by simp) (by simp) h1.1)
  · intro m' h
    simp only [serverReceives, ServerOp.step, Res.ret, recvServer] at h
    generalize (receiveServer p).1 = q at h
    cases hd : Pool.decode (wire m) with
    | error e => rw [hd] at h; cases h
    | ok o =>
      rw [hd] at h
      dsimp only at h
      rcases hps : q.processServer (wire m) o with ⟨q', e | u⟩ <;> rw [hps] at h <;>
        simp only [Res.next, Except.map] at h
      · cases h
      · injection h with h
        injection h with h
        exact h.symm
  · intro c a b ha hra hrb
    have hvals : ∀ v, v ∈ a.toList ++ b.toList → v.deserializeFails = none := by
      intro v hv
      rcases List.mem_append.mp hv with hv | hv
      · exact hra v (by cases a <;> simp_all)
      · exact hrb v (by cases b <;> simp_all)
    have hfs : (a.toList ++ b.toList).findSome? Val.deserializeFails = none := by
      rw [List.findSome?_eq_none_iff]; exact hvals
    have hdec : Pool.decode (wire m) = .ok m.content := by
      obtain ⟨_, ⟨_, h, h'⟩ | ⟨_, h, h'⟩⟩ := ha <;>
        simp only [Pool.decode, wire, h, h', Obj.deserializeFails, Obj.vals, Body.vals, hfs] <;> simp
    obtain ⟨_, ⟨_, h, h'⟩ | ⟨_, h, h'⟩⟩ := ha <;>
      simp [serverReceives, ServerOp.step, recvServer, hdec, Res.ret, Except.map, processServer,
        Res.next, h', show (wire m).type = m.type from rfl, h]
  · rw [serverReceives, pids_step, pids_step]
    simp

/-- What is known about a session in which the server does not count anew. -/
structure HostGood (s : Session) (tr : SessionTrace) : Prop where
  cl : s.client.isClient = true
  sv : s.server.isClient = false
  typed : PipesTyped s.client
  pids : s.server.pipes.map (·.pid) = tr.pipelines
  inv : ∀ pl, tr.pipelines <+: pl → HostInv pl s tr

theorem pipelines_snoc (tr : SessionTrace) (e : SessionEntry) :
    SessionTrace.pipelines (tr ++ [e]) = tr.pipelines ++ SessionTrace.pipelines [e] :=
  List.filterMap_append

theorem pipelines_server (op : ServerOp) (r : Except Err Ret) :
    SessionTrace.pipelines [(.server op, r)] = (match op with | .newPipe pid => [pid] | _ => []) := by
  cases op <;> rfl

theorem neutral_client {op : ClientOp} {r : Except Err Ret} (h : op.answers = none ∨ ∃ e, r = .error e) :
    Neutral (.client op, r) := by
  refine ⟨rfl, rfl, ?_⟩
  rintro ci a b (he | ⟨n, he⟩) <;> cases he <;> rcases h with h | ⟨_, h⟩ <;> cases h

theorem neutral_server {op : ServerOp} {r : Except Err Ret} (h : op.calls = false ∨ ∃ e, r = .error e) :
    Neutral (.server op, r) := by
  refine ⟨?_, rfl, ?_⟩
  · rcases h with h | ⟨_, rfl⟩
    · cases op <;> simp [ServerOp.calls] at h <;> rfl
    · cases op <;> rfl
  · rintro ci a b (he | ⟨n, he⟩) <;> cases he

theorem CHost.refl {p : Pool} (h : p.isClient = true) : CHost p p := ⟨h, rfl, Adds.refl _ _⟩

/-- The client calls a method. -/
theorem HostGood.client {s : Session} {tr : SessionTrace} (g : HostGood s tr) {op : ClientOp}
    (ha : (SessionOp.client op).IsApi) :
    HostGood (s.step (.client op)).1 (tr ++ [(.client op, (s.step (.client op)).2)]) := by
  have hpl : SessionTrace.pipelines (tr ++ [(.client op, (s.step (.client op)).2)]) = tr.pipelines := by
    rw [pipelines_snoc]; exact List.append_nil _
  have hraw : ∀ m t pid st, op ≠ .base (.prepare m t pid st) := by
    rintro m t pid st rfl; exact ha.elim
  have hrecv : ∀ m, op = .recv m → ∀ ci, callId m = some ci → ci = -100 := by
    rintro m rfl; exact ha.elim
  simp only [Session.step] at *
  have key : (op.step s.client).1.isClient = true ∧ ∀ pl, tr.pipelines <+: pl →
      HostInv pl { s with client := (op.step s.client).1 } (tr ++ [(.client op, (op.step s.client).2)]) := by
    by_cases hans : op.answers = none
    · have hf := cHost_step hans hrecv hraw g.cl g.typed
      refine ⟨hf.1, fun pl hp => HostInv.entry ?_ (neutral_client (Or.inl hans))⟩
      exact (g.inv pl hp).quiet hf ⟨Nat.le_refl _, Adds.refl _ _⟩
    · -- an answer
      have hresp : ∀ (e : Except Err Ret → SessionEntry) ci a b,
          (∀ x, e x = (.client op, x)) → AnsweredBy ci a b (e (.ok .none)) →
          (op.step s.client = (s.client.hostResponse ci a b).ret fun _ => .none) →
          (op.step s.client).1.isClient = true ∧ ∀ pl, tr.pipelines <+: pl →
            HostInv pl { s with client := (op.step s.client).1 }
              (tr ++ [(.client op, (op.step s.client).2)]) := by
        intro e ci a b he hab hst
        have hex : ∀ pl, tr.pipelines <+: pl → HostInv pl s tr := g.inv
        have hw : ∀ ci m, s.client.ciEvents.get? ci = some m → ∃ c : MadeCall, c.ci = ci ∧
            MadeCall.Sent { c with pid := seenBy c.pid } m := by
          intro ci m hm
          obtain ⟨c, h1, h2, _⟩ := (hex _ (List.prefix_refl _)).shown ci m hm
          exact ⟨c, h1, h2⟩
        rw [hst]
        rcases hostResponse_cases s.client ci a b hw with ⟨er, her⟩ | ⟨m, c, r, h1, h2, h3, h4, h5, h6, h7, h8, h9⟩
        · rw [her]
          exact ⟨g.cl, fun pl hp => (hex pl hp).entry (neutral_client (Or.inr ⟨er, rfl⟩))⟩
        · refine ⟨by rw [Res.ret, h9]; exact g.cl, fun pl hp => ?_⟩
          obtain ⟨c', h1', h2', h3'⟩ := (hex pl hp).shown ci m h1
          have hr : c'.Answer a b r := by
            have e1 : ({ c with pid := seenBy c.pid } : MadeCall) = { c' with pid := seenBy c'.pid } := by
              have x1 := (callOf_iff _ _).mpr h3
              have x2 := (callOf_iff _ _).mpr h2'
              rw [x1] at x2
              exact Option.some.inj x2
            have e2 : seenBy c.pid = seenBy c'.pid := congrArg MadeCall.pid e1
            have e3 : c.method = c'.method := by
              have := congrArg MadeCall.method e1
              exact this
            have e4 : c.ci = c'.ci := h2.trans h1'.symm
            unfold MadeCall.Answer at h4 ⊢
            rw [← e2, ← e3, ← e4]
            exact h4
          subst h1'
          refine HostInv.reply (hex pl hp) h1 h3' hr ?_ h7 h8
          have : (.client op, ((s.client.hostResponse c'.ci a b).ret fun _ => Ret.none).2) = e (.ok .none) := by
            rw [he]; simp only [Res.ret, h6, Except.map]
          rw [this]
          exact hab
      cases op <;> simp [ClientOp.answers] at hans
      · rename_i ci a b
        exact hresp (fun x => (.client (.hostResponse ci a b), x)) ci a b (fun _ => rfl) (Or.inl rfl) rfl
      · rename_i n ci a b
        by_cases hst : (ClientOp.pipeHostResponse n ci a b).step s.client =
            (s.client.hostResponse ci a b).ret fun _ => .none
        · exact hresp (fun x => (.client (.pipeHostResponse n ci a b), x)) ci a b (fun _ => rfl)
            (Or.inr ⟨n, rfl⟩) hst
        · have : ∃ er, (ClientOp.pipeHostResponse n ci a b).step s.client = (s.client, .error er) := by
            simp only [ClientOp.step, pipeHostResponse, onPipe] at hst ⊢
            cases hq : s.client.pipes[n]? with
            | none => exact ⟨_, rfl⟩
            | some x =>
              rw [hq] at hst
              dsimp only at hst ⊢
              split
              · exact ⟨_, rfl⟩
              · rename_i hne; rw [if_neg hne] at hst; exact absurd rfl hst
          obtain ⟨er, her⟩ := this
          rw [her]
          exact ⟨g.cl, fun pl hp => (g.inv pl hp).entry (neutral_client (Or.inr ⟨er, rfl⟩))⟩
  exact
    { cl := key.1, sv := g.sv, typed := pipesTyped_step op g.typed
      pids := by rw [hpl]; exact g.pids
      inv := by rw [hpl]; exact key.2 }

/-- The server calls a method. -/
theorem HostGood.server {s : Session} {tr : SessionTrace} (g : HostGood s tr) {op : ServerOp}
    (ha : (SessionOp.server op).KeepsCount) :
    HostGood (s.step (.server op)).1 (tr ++ [(.server op, (s.step (.server op)).2)]) := by
  obtain ⟨ha, hcon⟩ := ha
  have hraw : ∀ m t pid st, op ≠ .base (.prepare m t pid st) := by
    rintro m t pid st rfl; exact ha.elim
  have hpl : SessionTrace.pipelines (tr ++ [(.server op, (s.step (.server op)).2)]) =
      (op.step s.server).1.pipes.map (·.pid) := by
    rw [pipelines_snoc, pipelines_server, pids_step, g.pids]
  have hpre : tr.pipelines <+: (op.step s.server).1.pipes.map (·.pid) := by
    rw [pids_step, g.pids]; exact List.prefix_append _ _
  simp only [Session.step] at *
  have key : (op.step s.server).1.isClient = false ∧ ∀ pl, (op.step s.server).1.pipes.map (·.pid) <+: pl →
      HostInv pl { s with server := (op.step s.server).1 } (tr ++ [(.server op, (op.step s.server).2)]) := by
    by_cases hcalls : op.calls = false
    · have hf := sHost_step hcalls (fun h => hcon (by rw [h])) hraw g.sv
      refine ⟨hf.1, fun pl hp => HostInv.entry ?_ (neutral_server (Or.inl hcalls))⟩
      exact (g.inv pl (hpre.trans hp)).quiet (CHost.refl g.cl) ⟨Nat.le_of_eq hf.2.1.symm, hf.2.2⟩
    · have hcall : ∀ mi mp pid, op.step s.server = (s.server.hostCall mi mp pid).ret .ci →
          (∀ pl, (op.step s.server).1.pipes.map (·.pid) <+: pl →
            ∀ c : MadeCall, c.pid = pid → c.method = mi → c.params = mp →
              c.MadeBy pl (.server op, .ok (.ci c.ci))) →
          (op.step s.server).1.isClient = false ∧
          ∀ pl, (op.step s.server).1.pipes.map (·.pid) <+: pl →
            HostInv pl { s with server := (op.step s.server).1 }
              (tr ++ [(.server op, (op.step s.server).2)]) := by
        intro mi mp pid hst hmade
        rcases hostCall_cases s.server mi mp pid with ⟨⟨er, h1⟩, h2, h3, h4⟩ |
          ⟨c, m, h1, h2, h3, h4, h5, h6, h7, h8, h9⟩
        · refine ⟨by rw [hst]; exact h4.trans g.sv, fun pl hp => HostInv.entry ?_ (neutral_server (Or.inr ⟨er, ?_⟩))⟩
          · refine (g.inv pl (hpre.trans hp)).quiet (CHost.refl g.cl) ?_
            rw [hst]
            exact ⟨h3, ⟨[], by rw [List.append_nil]; exact h2, by simp⟩⟩
          · rw [hst, Res.ret, h1]; rfl
        · refine ⟨by rw [hst]; exact h9.trans g.sv, fun pl hp => ?_⟩
          have hm := hmade pl hp c h1 h2 h3
          have : (op.step s.server).2 = .ok (.ci c.ci) := by rw [hst, Res.ret, h6]; rfl
          rw [this]
          refine HostInv.call (g.inv pl (hpre.trans hp)) (by rw [hst]; exact h7) h4 hm ?_ ?_
          · rw [h2]; exact h5
          · rw [hst, h2]; exact h8
      cases op <;> simp [ServerOp.calls] at hcalls
      · rename_i mi mp pid
        refine hcall mi mp pid rfl ?_
        rintro pl hp c rfl rfl rfl
        exact Or.inl rfl
      · rename_i n mi mp
        cases hq : s.server.pipes[n]? with
        | none =>
          have : ∃ er, (ServerOp.pipeHostCall n mi mp).step s.server = (s.server, .error er) := by
            simp only [ServerOp.step, pipeHostCall, onPipe, hq]
            exact ⟨_, rfl⟩
          obtain ⟨er, her⟩ := this
          rw [her]
          refine ⟨g.sv, fun pl hp => HostInv.entry (g.inv pl ?_) (neutral_server (Or.inr ⟨er, rfl⟩))⟩
          rw [← g.pids]; exact hp
        | some q =>
          by_cases hrun : q.state = .Running
          · have hst : (ServerOp.pipeHostCall n mi mp).step s.server =
                (s.server.hostCall mi mp (some q.pid)).ret .ci := by
              simp only [ServerOp.step, pipeHostCall, onPipe, hq]
              rw [if_neg (by simp [hrun])]
            refine hcall mi mp (some q.pid) hst ?_
            rintro pl hp c h1 rfl rfl
            refine Or.inr ⟨n, q.pid, ?_, h1, rfl⟩
            rw [pids_step] at hp
            obtain ⟨x, hx⟩ := hp
            have hq' : (s.server.pipes.map (·.pid))[n]? = some q.pid := by rw [List.getElem?_map, hq]; rfl
            have hn := (List.getElem?_eq_some_iff.mp hq').1
            rw [← hx, List.append_assoc, List.getElem?_append_left hn, hq']
          · have : (ServerOp.pipeHostCall n mi mp).step s.server = (s.server, .error .invalidPipelineState) := by
              simp only [ServerOp.step, pipeHostCall, onPipe, hq]
              rw [if_pos hrun]
              rfl
            rw [this]
            refine ⟨g.sv, fun pl hp => HostInv.entry (g.inv pl ?_) (neutral_server (Or.inr ⟨_, rfl⟩))⟩
            rw [← g.pids]; exact hp
  exact
    { cl := g.cl, sv := key.1, typed := g.typed
      pids := hpl.symm
      inv := by rw [hpl]; exact key.2 }

/-- Nothing to deliver. -/
theorem HostGood.idle {s : Session} {tr : SessionTrace} (g : HostGood s tr) {op : SessionOp}
    (hop : op = .toServer ∨ op = .toClient) : HostGood s (tr ++ [(op, .ok .none)]) := by
  have hpl : SessionTrace.pipelines (tr ++ [(op, .ok .none)]) = tr.pipelines := by
    rw [pipelines_snoc]; rcases hop with rfl | rfl <;> exact List.append_nil _
  refine { g with pids := by rw [hpl]; exact g.pids, inv := ?_ }
  rw [hpl]
  intro pl hp
  refine (g.inv pl hp).entry ⟨?_, ?_, ?_⟩
  · rcases hop with rfl | rfl <;> rfl
  · rcases hop with rfl | rfl <;> rfl
  · rintro ci a b (h | ⟨_, h⟩) <;> rcases hop with rfl | rfl <;> cases h

/-- The server receives the next message. -/
theorem HostGood.toServer {s : Session} {tr : SessionTrace} (g : HostGood s tr) :
    HostGood (s.step .toServer).1 (tr ++ [(.toServer, (s.step .toServer).2)]) := by
  simp only [Session.step]
  cases hm : s.client.sendBuffer[s.atServer]? with
  | none => exact g.idle (Or.inl rfl)
  | some m =>
    dsimp only
    obtain ⟨h1, h2, h3, h4⟩ := serverReceives_cases s.server m g.sv
    have hpl : SessionTrace.pipelines (tr ++ [(.toServer, (serverReceives s.server m).2)]) = tr.pipelines := by
      rw [pipelines_snoc]; exact List.append_nil _
    refine { cl := g.cl, sv := h1.1, typed := g.typed, pids := by rw [hpl, ← g.pids]; exact h4, inv := ?_ }
    rw [hpl]
    intro pl hp
    have := (g.inv pl hp).quiet (CHost.refl g.cl) ⟨Nat.le_of_eq h1.2.1.symm, h1.2.2⟩
    exact this.deliverS hm h2 h3

/-- The client receives the next message. -/
theorem HostGood.toClient {s : Session} {tr : SessionTrace} (g : HostGood s tr) :
    HostGood (s.step .toClient).1 (tr ++ [(.toClient, (s.step .toClient).2)]) := by
  simp only [Session.step]
  cases hm : s.server.sendBuffer[s.atClient]? with
  | none => exact g.idle (Or.inr rfl)
  | some m =>
    dsimp only
    have hpl : SessionTrace.pipelines (tr ++ [(.toClient, (clientReceives s.client m).2)]) = tr.pipelines := by
      rw [pipelines_snoc]; exact List.append_nil _
    have htyped : PipesTyped (clientReceives s.client m).1 := pipesTyped_step _ g.typed
    obtain ⟨hlt, hmi⟩ := List.getElem?_eq_some_iff.mp hm
    have hmem : m ∈ s.server.sendBuffer := hmi ▸ List.getElem_mem hlt
    rcases clientReceives_cases s.client m g.cl g.typed with ⟨c, hc, hv, hcr⟩ | ⟨hf, hr⟩
    · rw [hcr] at hpl ⊢
      refine { cl := g.cl, sv := g.sv, typed := by rw [hcr] at htyped; exact htyped, pids := by rw [hpl]; exact g.pids, inv := ?_ }
      rw [hpl]
      intro pl hp
      have h0 := g.inv pl hp
      have hd := h0.deliverC hm (x := .ok (.event (wire m))) fun _ _ _ => rfl
      have hidm : callId m = some c.ci := by rw [callId_callOf, hc]; rfl
      have htake : s.server.sendBuffer.take (s.atClient + 1) = s.server.sendBuffer.take s.atClient ++ [m] := by
        rw [List.take_add_one, hm]; rfl
      have hsent : MadeCall.Sent { c with pid := seenBy c.pid } (wire m) := by
        rw [← callOf_iff, callOf_wire, hc]; rfl
      refine HostInv.record (m := wire m) (c := c) hd hsent ?_ ?_ ?_ rfl rfl
      · obtain ⟨h1, e, he, h2⟩ := h0.made m hmem c hc
        obtain ⟨t1, t2, rfl⟩ := List.append_of_mem he
        refine ⟨e, (.toClient, .ok (.event (wire m))), ?_, h2, ⟨wire m, hsent, rfl⟩, h1 hv⟩
        exact List.Sublist.append (l₁ := [e]) (by simp) (List.Sublist.refl _)
      · intro hin
        have hk := h0.known c.ci hin
        have hnd := h0.ids
        rw [← List.take_append_drop (s.atClient + 1) s.server.sendBuffer, List.filterMap_append,
          List.filter_append, htake, List.filterMap_append, List.filterMap_cons, hidm, List.filterMap_nil,
          List.filter_append] at hnd
        have hnd := (List.nodup_append.mp hnd).1
        have := (List.nodup_append.mp hnd).2.2 c.ci (List.mem_filter.mpr ⟨hk, by simpa using hv⟩) c.ci
          (List.mem_filter.mpr ⟨by simp, by simpa using hv⟩)
        exact this rfl
      · dsimp only
        rw [htake, List.filterMap_append, List.filterMap_cons, hidm, List.filterMap_nil]
        simp
    · refine { cl := hf.1, sv := g.sv, typed := htyped, pids := by rw [hpl]; exact g.pids, inv := ?_ }
      rw [hpl]
      intro pl hp
      have := (g.inv pl hp).quiet hf ⟨Nat.le_refl _, Adds.refl _ _⟩
      exact this.deliverC hm hr

theorem HostGood.step {s : Session} {tr : SessionTrace} (g : HostGood s tr) {op : SessionOp}
    (h : op.KeepsCount) : HostGood (s.step op).1 (tr ++ [(op, (s.step op).2)]) := by
  cases op with
  | client op => exact g.client h.1
  | server op => exact g.server h
  | toServer => exact g.toServer
  | toClient => exact g.toClient

theorem hostGood_start (k : Session.Config) : HostGood k.session [] where
  cl := rfl
  sv := rfl
  typed := by intro q hq; cases hq
  pids := rfl
  inv := fun pl _ =>
    { posS := Nat.le_refl _
      posC := Nat.le_refl _
      made := by intro m hm; cases hm
      madeIds := rfl
      ids := List.nodup_nil
      idsLt := by intro m hm; cases hm
      shown := by intro ci m hm; cases hm
      waiting := List.nodup_nil
      known := by intro m hm; cases hm
      replied := by intro m hm; cases hm
      seen := List.Sublist.refl _
      callsGo := by intro t1 t2 e c h; simp at h
      answersGo := by intro t1 t2 e ci a b h; simp at h
      events := by intro t1 t2 e m ci h; simp at h }

theorem hostGood_run (k : Session.Config) (ops : List SessionOp) (h : ∀ op ∈ ops, op.KeepsCount) :
    HostGood (k.session.run ops).1 (k.session.run ops).2 := by
  have key : ∀ (ops : List SessionOp) (s : Session) (tr : SessionTrace), HostGood s tr →
      (∀ op ∈ ops, op.KeepsCount) → HostGood (s.run ops).1 (tr ++ (s.run ops).2) := by
    intro ops
    induction ops with
    | nil => intro s tr g _; rw [Session.run, List.append_nil]; exact g
    | cons op ops ih =>
      intro s tr g hops
      have := ih _ _ (g.step (hops op (by simp))) fun o ho => hops o (by simp [ho])
      simpa [Session.run] using this
  simpa using key ops _ _ (hostGood_start k) h

end Verif
