import Verif.Spec.Pool
import Verif.Proof.Transport

/-! # Lemmas about the pool operations -/

namespace Verif

namespace Pool

/-- The pool a method leaves behind satisfies `I`. -/
def Keeps {α : Type} (I : Pool → Prop) (r : Res α) : Prop := I r.1

variable {I : Pool → Prop} {A : MsgType → Option Obj → Prop}

/-- What `prepare_message` queues when it does not raise. -/
def prepMsg (m : Option Obj) (t : Option MsgType) : Option (MsgType × Option Obj) :=
  match m with
  | none => some (.PipelineOutput, none)
  | some (.msg .endOfPipelineInput) => some (.EndOfPipelineInput, none)
  | some o =>
    match messageType o t with
    | .ok t => some (t, some o)
    | .error _ => none

/-- The types a client operation may queue, apart from the public key and raw messages. -/
def _root_.Verif.ClientOp.mayQueue : ClientOp → List MsgType
  | .open_ => [.SessionCapability, .InitRunspacePool]
  | .connect => [.SessionCapability, .ConnectRunspacePool]
  | .getAvailableRunspaces => [.GetAvailableRunspaces]
  | .resetRunspaceState => [.ResetRunspaceState]
  | .setMaxRunspaces _ => [.SetMaxRunspaces]
  | .setMinRunspaces _ => [.SetMinRunspaces]
  | .hostResponse .. => [.RunspacePoolHostResponse, .PipelineHostResponse]
  | .pipeHostResponse .. => [.RunspacePoolHostResponse, .PipelineHostResponse]
  | .pipeSend .. => [.PipelineInput, .PipelineOutput, .EndOfPipelineInput]
  | .pipeSendEof .. => [.EndOfPipelineInput]
  | .pipeStart .. => [.CreatePipeline, .GetCommandMetadata]
  | _ => []

/-- The types a server operation may queue, apart from the state messages, the two key
messages and raw messages. -/
def _root_.Verif.ServerOp.mayQueue : ServerOp → List MsgType
  | .sendEvent _ => [.UserEvent]
  | .hostCall .. => [.RunspacePoolHostCall, .PipelineHostCall]
  | .pipeHostCall .. => [.RunspacePoolHostCall, .PipelineHostCall]
  | .availabilityResponse .. => [.RunspaceAvailability]
  | .pipeWriteOutput .. => [.PipelineOutput, .EndOfPipelineInput]
  | .pipeWriteRecord _ k _ => [k.type]
  | .recv m => [.SessionCapability, .ApplicationPrivateData] ++
      if m.type = .ConnectRunspacePool then [.RunspacePoolInitData] else []
  | _ => []

theorem keeps_mk {α : Type} {p : Pool} {x : Except Err α} (h : I p) : Keeps I ((p, x) : Res α) := h

theorem keeps_next {α β : Type} {r : Res α} {f : Pool → α → Res β}
    (h1 : Keeps I r) (h2 : ∀ p a, I p → Keeps I (f p a)) : Keeps I (r.next f) := by
  obtain ⟨p, x⟩ := r
  cases x with
  | ok a => exact h2 p a h1
  | error e => exact h1

theorem keeps_ret {α : Type} {r : Res α} {f : α → Ret} (h : Keeps I r) : Keeps I (r.ret f) := h

theorem prepare_cases (p : Pool) (m : Option Obj) (t : Option MsgType) (pid : Option UUID)
    (s : StreamType) : (∃ e, p.prepareMessage m t pid s = (p, .error e)) ∨
      ∃ t' c, prepMsg m t = some (t', c) ∧ p.prepareMessage m t pid s = (p.queue t' c pid s, .ok ()) := by
  unfold prepareMessage prepMsg
  split
  · exact Or.inr ⟨_, _, rfl, rfl⟩
  · exact Or.inr ⟨_, _, rfl, rfl⟩
  · rename_i o ho
    split
    · exact Or.inl ⟨_, rfl⟩
    · cases hm : messageType o t with
      | error e => exact Or.inl ⟨_, rfl⟩
      | ok t' =>
        refine Or.inr ⟨t', some o, ?_, rfl⟩
        split
        · simp_all
        · rename_i h; injection h with h; exact absurd h ho
        · rename_i h; injection h with h; subst h; rw [hm]

theorem keeps_prepare (hq : ∀ p t c pid s, A t c → I p → I (queue p t c pid s)) {p : Pool}
    {m : Option Obj} {t : Option MsgType} {pid : Option UUID} {s : StreamType}
    (ht : ∀ t' c, prepMsg m t = some (t', c) → A t' c) (h : I p) :
    Keeps I (p.prepareMessage m t pid s) := by
  rcases prepare_cases p m t pid s with ⟨e, he⟩ | ⟨t', c, h1, h2⟩
  · rw [he]; exact h
  · rw [h2]; exact hq _ _ _ _ _ (ht _ _ h1) h

theorem keeps_prepare_body (hq : ∀ p t c pid s, A t c → I p → I (queue p t c pid s)) {p : Pool}
    {b : Body} {pid : Option UUID} {s : StreamType}
    (ht : A b.type (if b = .endOfPipelineInput then none else some (.msg b))) (h : I p) :
    Keeps I (p.prepareMessage (some (.msg b)) none pid s) := by
  refine keeps_prepare hq ?_ h
  intro t' c hc
  unfold prepMsg at hc
  split at hc
  · simp_all
  · rename_i heq; injection heq with heq; injection heq with heq; subst heq
    cases hc; simpa [Body.type] using ht
  · rename_i o ho heq
    injection heq with heq; subst heq
    have hne : b ≠ .endOfPipelineInput := fun hb => ho (by rw [hb])
    rw [if_neg hne] at ht
    simp only [messageType] at hc
    cases hc; exact ht

theorem decode_content {m : Msg} {o : Obj} (h : Pool.decode m = .ok (some o))
    (ht : m.type ≠ .EndOfPipelineInput) : m.content = some o := by
  unfold decode at h
  rw [if_neg ht] at h
  split at h
  · split at h <;> cases h
  · rename_i o' ho
    split at h
    · cases h
    · cases h; exact ho

theorem keeps_onPipe {α : Type} {p : Pool} {h : Nat} {f : Pipe → Res α} (hp : I p)
    (hf : ∀ q, p.pipes[h]? = some q → Keeps I (f q)) : Keeps I (p.onPipe h f) := by
  unfold onPipe
  split
  · exact hp
  · rename_i q hq; exact hf q hq

/-! ## Invariants by primitive updates

Every operation is a sequence of a few primitive updates of the pool. An invariant that is
kept by these is kept by every operation. `A` says which messages the plain queueing steps
may add. -/

/-- The call id of a host call message. -/
def callId (m : Msg) : Option Int :=
  match m.type, m.content with
  | .PipelineHostCall, some (.msg (.pipelineHostCall ci _ _)) => some ci
  | .RunspacePoolHostCall, some (.msg (.runspacePoolHostCall ci _ _)) => some ci
  | _, _ => none

/-- `I` is kept by the primitive updates both sides use; `closes` are the pipelines the
operation may close, `chg` the state changes it may make, `pchg` those of pipelines. -/
structure BaseStable (A : MsgType → Option Obj → Prop) (I : Pool → Prop) (closes : Nat → Prop)
    (chg : PoolState → Option Val → Prop) (pchg : Nat → PipeState → Option Val → Prop) :
    Prop where
  queue : ∀ p t c pid s, A t c → I p → I (Pool.queue p t c pid s)
  changeState : ∀ (p : Pool) s e, chg s e → I p → I (p.changeState s e).1
  pipeChange : ∀ (p : Pool) h s e, pchg h s e → I p → I (p.pipeChangeState h s e).1
  closePipe : ∀ (p : Pool) (h : Nat) (q : Pipe), closes h → I p → p.pipes[h]? = some q →
      q.state ∈ [PipeState.NotStarted, .Stopped, .Stopping, .Completed, .Failed] →
      I { p with table := p.table.erase q.pid } := by intros; assumption

/-- The state an operation common to both sides moves the pool to. -/
def _root_.Verif.BaseOp.moves : BaseOp → Option PoolState
  | .beginClose => some .Closing
  | .close => some .Closed
  | .beginDisconnect => some .Disconnecting
  | .disconnect => some .Disconnected
  | .reconnect => some .Opened
  | _ => none

/-- The state changes a client operation may make. -/
def _root_.Verif.ClientOp.Moves (op : ClientOp) (s : PoolState) (e : Option Val) : Prop :=
  e = none ∧ ((∃ b, op = .base b ∧ b.moves = some s) ∨ (op = .open_ ∧ s = .Opening) ∨
    (op = .connect ∧ s = .Connecting) ∨ ∃ m, op = .recv m ∧
      ((m.type = .ApplicationPrivateData ∧ s = .Opened) ∨ (m.type = .RunspacePoolState ∧
        ∃ e', m.content = some (.msg (.runspacePoolState s e')))))

/-- The state changes a server operation may make. -/
def _root_.Verif.ServerOp.Moves (op : ServerOp) (s : PoolState) (e : Option Val) : Prop :=
  (∃ v, op = .setBroken v ∧ s = .Broken ∧ e = some v) ∨
  (e = none ∧ ((∃ b, op = .base b ∧ b.moves = some s) ∨ (op = .connect ∧ s = .Connecting) ∨
    ((∃ m, op = .recv m ∧ (m.type = .InitRunspacePool ∨ m.type = .ConnectRunspacePool)) ∧ s = .Opened)))

/-- The pipeline state changes a client operation may make. -/
def _root_.Verif.ClientOp.PipeMoves (op : ClientOp) (h : Nat) (s : PipeState) (e : Option Val) :
    Prop :=
  op = .base (.pipeBeginStop h) ∧ s = .Stopping ∧ e = none

/-- The pipeline state changes a server operation may make. -/
def _root_.Verif.ServerOp.PipeMoves (op : ServerOp) (h : Nat) (s : PipeState) (e : Option Val) :
    Prop :=
  (e = none ∧ ((op = .base (.pipeBeginStop h) ∧ s = .Stopping) ∨ (op = .pipeComplete h ∧ s = .Completed)
    ∨ (op = .pipeStart h ∧ s = .Running))) ∨
  (op = .pipeStop h ∧ s = .Stopped ∧ e = some stoppedError)

/-- The client operations that ask the server for something under a call id. -/
def _root_.Verif.ClientOp.request : ClientOp → Option (Option Handler)
  | .getAvailableRunspaces => some none
  | .resetRunspaceState => some none
  | .setMaxRunspaces v => some (some (.setMax v))
  | .setMinRunspaces v => some (some (.setMin v))
  | _ => none

/-- The client operations that answer host call `ci`. -/
def _root_.Verif.ClientOp.answers : ClientOp → Option Int
  | .hostResponse ci _ _ => some ci
  | .pipeHostResponse _ ci _ _ => some ci
  | _ => none

/-- `I` is kept by the primitive updates the operation `op` of a client may make. -/
structure ClientStable (A : MsgType → Option Obj → Prop) (I : Pool → Prop) (op : ClientOp) : Prop
    extends BaseStable A I (fun h => op = .base (.pipeClose h)) op.Moves op.PipeMoves where
  setPipe : ∀ (p : Pool) h s, ((op = .pipeStart h ∧ s = .Running) ∨ (∃ m e pid, op = .recv m ∧
      m.type = .PipelineState ∧ m.content = some (.msg (.pipelineState s e)) ∧ m.pid = some pid ∧
      p.table.get? pid = some h)) → I p → I (p.updPipe h fun q => { q with state := s }) := by
    intros; assumption
  theirs : ∀ (p : Pool) m c, op = .recv m → m.type = .SessionCapability →
      m.content = some (.msg (.sessionCapability c)) → I p → I { p with theirs := some c } := by
    intros; assumption
  appPrivate : ∀ (p : Pool) v, I p → I { p with appPrivate := v } := by intros; assumption
  request : ∀ (p : Pool) h, op.request = some h → I p →
      I { p with ciCount := p.ciCount + 1, ciHandlers := p.ciHandlers.set (p.ciCount : Int) h } := by
    intros; assumption
  answered : ∀ (p : Pool) m r ci, op = .recv m → m.type = .RunspaceAvailability → m.content = some (.msg (.runspaceAvailability r ci)) →
      I p → I { p with ciHandlers := p.ciHandlers.erase ci } := by
    intros; assumption
  hostCall : ∀ (p : Pool) ci m, op = .recv m → I p → ci ≠ -100 → callId m = some ci →
      I { p with ciEvents := p.ciEvents.set ci m } := by intros; assumption
  responded : ∀ (p : Pool) ci, op.answers = some ci → I p →
      I { p with ciEvents := p.ciEvents.erase ci } := by
    intros; assumption
  keySent : ∀ (p : Pool), I p → p.keyRequested = false →
      I { (Pool.queue { p with exchangeKey := some p.keyPair } .PublicKey
            (some (.msg (.publicKey p.keyPair))) none .default) with keyRequested := true }
  sessionKey : ∀ (p : Pool) m k s, op = .recv m → m.type = .EncryptedSessionKey →
      m.content = some (.msg (.encryptedSessionKey k s)) → I p → p.exchangeKey = some k →
      I { p with cipher := some s } := by
    intros; assumption
  minR : ∀ (p : Pool) v, (op = .setMinRunspaces v ∧ (p.state = .BeforeOpen ∨ p.minR = v)) ∨
      (∃ m, op = .recv m ∧ (m.type = .RunspaceAvailability ∨ m.type = .RunspacePoolInitData)) → I p → I { p with minR := v } := by intros; assumption
  maxR : ∀ (p : Pool) v, (op = .setMaxRunspaces v ∧ (p.state = .BeforeOpen ∨ p.maxR = v)) ∨
      (∃ m, op = .recv m ∧ (m.type = .RunspaceAvailability ∨ m.type = .RunspacePoolInitData)) → I p → I { p with maxR := v } := by intros; assumption
  newPipe : ∀ (p : Pool) pid (k : PipeKind) v, op = .newPipe pid k v → I p →
      I (p.newPipe pid (some k.type) (some (.msg (k.body v)))) := by intros; assumption

/-- The server operations that take a call id. -/
def _root_.Verif.ServerOp.takesCi : ServerOp → Prop
  | .hostCall m _ _ => m.isVoid = false
  | .pipeHostCall _ m _ => m.isVoid = false
  | _ => False

/-- `I` is kept by the primitive updates the operation `op` of a server may make. -/
structure ServerStable (A : MsgType → Option Obj → Prop) (I : Pool → Prop) (op : ServerOp) : Prop
    extends BaseStable A I (fun h => op = .base (.pipeClose h)) op.Moves op.PipeMoves where
  reset : ∀ (p : Pool), op = .connect → I p → p.state = .Disconnected →
      I { p with ciCount := 1, fragmentCount := 1 } := by intros; assumption
  opening : ∀ (p : Pool), op = .receiveData → I p → p.state = .BeforeOpen →
      I { p with state := .Opening } := by
    intros; assumption
  theirs : ∀ (p : Pool) m c, op = .recv m → m.type = .SessionCapability →
      m.content = some (.msg (.sessionCapability c)) → I p → I { p with theirs := some c } := by
    intros; assumption
  rpid : ∀ (p : Pool) u, I p → I { p with rpid := u } := by intros; assumption
  init : ∀ (p : Pool) m a ar h t mx mn, op = .recv m → m.type = .InitRunspacePool → I p →
      I { p with apartment := a, appArgs := ar, host := h, threadOptions := t,
                 maxR := mx, minR := mn } := by intros; assumption
  nextCi : ∀ (p : Pool), op.takesCi → I p → I { p with ciCount := p.ciCount + 1 } := by
    intros; assumption
  record : ∀ (p : Pool) ci m h, op = .recv m → requestOf m = some (ci, h) → I p →
      I { p with ciEvents := p.ciEvents.set ci m, ciHandlers := p.ciHandlers.set ci h } := by
    intros; assumption
  answered : ∀ (p : Pool) ci r, op = .availabilityResponse ci r → I p →
      I { p with ciEvents := p.ciEvents.erase ci, ciHandlers := p.ciHandlers.erase ci } := by
    intros; assumption
  keyAsked : ∀ (p : Pool), I p → p.keyRequested = false →
      I { (Pool.queue p .PublicKeyRequest (some (.msg .publicKeyRequest)) none .default) with
          keyRequested := true }
  keyReceived : ∀ (p : Pool) m k, op = .recv m → m.type = .PublicKey → m.content = some (.msg (.publicKey k)) → I p →
      I (Pool.queue { p with keyRequested := true } .EncryptedSessionKey
        (some (.msg (.encryptedSessionKey k p.sessionKey))) none .default)
  limits : ∀ (p : Pool) mn mx,
      ((∃ ci, op = .availabilityResponse ci (.bool true)) ∨
        (∃ m, op = .recv m ∧ m.type = .ConnectRunspacePool)) → I p →
      I { p with minR := mn, maxR := mx } := by intros; assumption
  newPipe : ∀ (p : Pool) pid, op = .newPipe pid → I p → I (p.newPipe pid none none) := by
    intros; assumption
  setMeta : ∀ (p : Pool) h o, I p → I (p.updPipe h fun q => { q with metadata := o }) := by
    intros; assumption

/-- `changeState` keeps what setting the state and queueing keep. -/
theorem changeState_of (hq : ∀ p t c pid s, A t c → I p → I (Pool.queue p t c pid s))
    (hA : ∀ s e, A .RunspacePoolState (some (.msg (.runspacePoolState s e))))
    (hs : ∀ (p : Pool) s, I p → I { p with state := s }) (p : Pool) (s : PoolState)
    (e : Option Val) (h : I p) : I (p.changeState s e).1 := by
  unfold changeState
  split
  · exact hs _ _ h
  · split
    · exact keeps_prepare_body hq (by simpa [Body.type] using hA s e) (hs _ _ h)
    · exact hs _ _ h

/-- `pipeChangeState` keeps what setting the state and queueing keep. -/
theorem pipeChange_of (hq : ∀ p t c pid s, A t c → I p → I (Pool.queue p t c pid s))
    (hA : ∀ s e, A .PipelineState (some (.msg (.pipelineState s e))))
    (hs : ∀ (p : Pool) h s, I p → I (p.updPipe h fun q => { q with state := s })) (p : Pool)
    (n : Nat) (s : PipeState) (e : Option Val) (h : I p) : I (p.pipeChangeState n s e).1 := by
  show Keeps I _
  unfold pipeChangeState
  refine keeps_onPipe h fun q hq' => ?_
  split
  · exact hs _ _ _ h
  · refine keeps_next (keeps_prepare_body hq (by simpa [Body.type] using hA s e) h) fun p _ hp => ?_
    exact hs _ _ _ hp

/-- The messages a raw `prepare_message` call adds are allowed. -/
def RawAllowed (A : MsgType → Option Obj → Prop) : BaseOp → Prop
  | .prepare m t _ _ => ∀ t' c, prepMsg m t = some (t', c) → A t' c
  | _ => True

theorem keeps_base {closes : Nat → Prop} {chg : PoolState → Option Val → Prop}
    {pchg : Nat → PipeState → Option Val → Prop} (B : BaseStable A I closes chg pchg) {p : Pool}
    (op : BaseOp) (hr : RawAllowed A op) (hch : ∀ s, op.moves = some s → chg s none)
    (hpc : ∀ n, op = .pipeBeginStop n → pchg n .Stopping none) (hcl : ∀ n, op = .pipeClose n → closes n) (h : I p) : Keeps I (op.step p) := by
  cases op <;> refine keeps_ret ?_
  · exact B.changeState _ _ _ (hch _ rfl) h
  · unfold close
    split
    · exact h
    split
    · exact h
    · exact B.changeState _ _ _ (hch _ rfl) h
  · exact B.changeState _ _ _ (hch _ rfl) h
  · unfold disconnect
    split
    · exact h
    · exact B.changeState _ _ _ (hch _ rfl) h
  · unfold reconnect
    split
    · exact h
    · exact B.changeState _ _ _ (hch _ rfl) h
  · unfold pipeBeginStop
    refine keeps_onPipe h fun q hq => ?_
    split
    · exact h
    · exact B.pipeChange _ _ _ _ (hpc _ rfl) h
  · unfold pipeClose
    refine keeps_onPipe h fun q hq => ?_
    split
    · exact h
    · rename_i hst
      exact B.closePipe _ _ _ (hcl _ rfl) h hq (Decidable.not_not.mp hst)
  · exact keeps_prepare B.queue hr h

theorem keeps_exchangeKey {op : ClientOp} (C : ClientStable A I op) {p : Pool} (h : I p) : Keeps I p.exchangeKeyOp := by
  unfold exchangeKeyOp
  split
  · exact h
  · rename_i hk
    split
    · exact h
    · exact C.keySent p h (by simpa using hk)

/-- The pipelines of a client hold what the two pipeline classes put there. -/
def PipesTyped (p : Pool) : Prop :=
  ∀ q ∈ p.pipes, ∃ (k : PipeKind) (v : Val), q.kind = some k.type ∧ q.metadata = some (.msg (k.body v))

theorem pipesTyped_allowed (hA : ∀ t c, t ∈ [MsgType.CreatePipeline, .GetCommandMetadata] → A t c) {p : Pool} (hp : PipesTyped p) :
    ∀ q ∈ p.pipes, ∀ t c, prepMsg q.metadata q.kind = some (t, c) → A t c := by
  intro q hq t c h
  obtain ⟨k, v, h1, h2⟩ := hp q hq
  rw [h1, h2] at h
  apply hA
  cases k <;> simp [prepMsg, PipeKind.body, PipeKind.type, messageType] at h <;>
    simp [← h.1]

section
variable {op : ClientOp} (C : ClientStable A I op) (hA : ∀ t c, t ∈ op.mayQueue → A t c)
include C hA

theorem keeps_hostResponse {p : Pool} {ci : Int} {a b : Option Val} (hop : op.answers = some ci)
    (h : I p) : Keeps I (p.hostResponse ci a b) := by
  unfold hostResponse
  split
  · exact h
  · split
    · exact h
    · split
      · exact h
      · refine keeps_next (keeps_prepare_body C.queue ?_ h) fun p _ hp => ?_
        · apply hA
          unfold responseBody
          cases op <;> simp [ClientOp.answers] at hop <;>
            split <;> simp [Body.type, ClientOp.mayQueue]
        · exact C.responded _ _ hop hp

omit hA in
theorem keeps_processClient {p : Pool} {m : Msg} {o : Option Obj} (hop : op = .recv m) (hdec : Pool.decode m = .ok o)
    (h : I p) : Keeps I (p.processClient m o) := by
  unfold processClient
  split
  · exact C.theirs _ m _ hop ‹_› (decode_content hdec (by simp [*])) h
  · have h1 := C.appPrivate p ‹_› h
    dsimp only
    split
    · exact C.changeState _ _ _ ⟨rfl, Or.inr (Or.inr (Or.inr ⟨m, hop, Or.inl ⟨‹_›, rfl⟩⟩))⟩ h1
    · exact h1
  · unfold clientSessionKey
    split
    · exact h
    · rename_i k hk
      split
      · rename_i hkk
        exact C.sessionKey _ m _ _ hop ‹_› (decode_content hdec (by simp [*])) h (by rw [hk, hkk])
      · exact h
  · split
    · rename_i hne
      refine C.hostCall _ _ _ hop h hne ?_
      simp [callId, decode_content hdec (by simp [*]), *]
    · exact h
  · split
    · rename_i hne
      refine C.hostCall _ _ _ hop h hne ?_
      simp [callId, decode_content hdec (by simp [*]), *]
    · exact h
  · unfold clientPipelineState
    split
    · exact h
    · rename_i hb
      obtain ⟨pid, hp1, hp2⟩ := Option.bind_eq_some_iff.mp hb
      exact C.setPipe _ _ _ (Or.inr ⟨m, _, pid, hop, ‹_›, decode_content hdec (by simp [*]), hp1, hp2⟩) h
  · exact keeps_exchangeKey C h
  · unfold clientAvailability
    split
    · exact h
    · rename_i ci _ _ _ _
      have h1 := C.answered p m _ ci hop ‹_› (decode_content hdec (by simp [*])) h
      dsimp only
      split
      · exact h1
      · exact h1
      · exact h1
      · exact C.maxR { p with ciHandlers := _ } _ (Or.inr ⟨_, hop, by simp [*]⟩) h1
      · exact C.minR { p with ciHandlers := _ } _ (Or.inr ⟨_, hop, by simp [*]⟩) h1
  · rename_i mn mx _
    exact C.maxR { p with minR := mn } mx (Or.inr ⟨_, hop, by simp [*]⟩) (C.minR p mn (Or.inr ⟨_, hop, by simp [*]⟩) h)
  · exact C.changeState _ _ _ ⟨rfl, Or.inr (Or.inr (Or.inr ⟨m, hop,
      Or.inr ⟨‹_›, _, decode_content hdec (by simp [*])⟩⟩))⟩ h
  all_goals exact h

theorem keeps_client {p : Pool}
    (hr : ∀ b, op = .base b → RawAllowed A b)
    (hm : ∀ n, op = .pipeStart n → ∀ q ∈ p.pipes, ∀ t c,
      prepMsg q.metadata q.kind = some (t, c) → A t c)
    (h : I p) : Keeps I (op.step p) := by
  cases op <;> (try refine keeps_ret ?_)
  · exact keeps_base C.toBaseStable _ (hr _ rfl) (fun s hs => ⟨rfl, Or.inl ⟨_, rfl, hs⟩⟩)
      (fun n hn => by rw [hn]; exact ⟨rfl, rfl, rfl⟩) (fun n hn => by rw [hn]) h
  · unfold open_
    split
    · exact h
    split
    · exact h
    refine keeps_next (C.changeState _ _ _ ⟨rfl, by simp⟩ h) fun p _ h => ?_
    refine keeps_next (keeps_prepare_body C.queue (hA _ _ (by simp [Body.type, ClientOp.mayQueue])) h)
      fun p _ h => ?_
    split
    · exact h
    · exact keeps_prepare_body C.queue (hA _ _ (by simp [Body.type, ClientOp.mayQueue])) h
  · unfold connectClient
    split
    · exact h
    split
    · exact h
    refine keeps_next (C.changeState _ _ _ ⟨rfl, by simp⟩ h) fun p _ h => ?_
    refine keeps_next (keeps_prepare_body C.queue (hA _ _ (by simp [Body.type, ClientOp.mayQueue])) h)
      fun p _ h => ?_
    exact keeps_prepare_body C.queue (hA _ _ (by simp [Body.type, ClientOp.mayQueue])) h
  · unfold getAvailableRunspaces
    split
    · exact h
    · exact keeps_next (keeps_prepare_body C.queue (hA _ _ (by simp [Body.type, ClientOp.mayQueue]))
        (C.request p none rfl h)) fun p _ hp => hp
  · exact keeps_exchangeKey C h
  · unfold resetRunspaceState
    split
    · exact h
    split
    · exact h
    · exact keeps_next (keeps_prepare_body C.queue (hA _ _ (by simp [Body.type, ClientOp.mayQueue]))
        (C.request p none rfl h)) fun p _ hp => hp
  · exact keeps_hostResponse C hA rfl h
  · rename_i v
    unfold setMaxRunspaces
    have := C.request p (some (.setMax v)) rfl h
    split
    · exact C.maxR _ _ (Or.inl ⟨rfl, ‹_›⟩) h
    · simp only [nextCi]
      split
      · exact this
      · exact keeps_next (keeps_prepare_body C.queue (hA _ _ (by simp [Body.type, ClientOp.mayQueue]))
          this) fun p _ hp => hp
  · rename_i v
    unfold setMinRunspaces
    have := C.request p (some (.setMin v)) rfl h
    split
    · exact C.minR _ _ (Or.inl ⟨rfl, ‹_›⟩) h
    · simp only [nextCi]
      split
      · exact this
      · exact keeps_next (keeps_prepare_body C.queue (hA _ _ (by simp [Body.type, ClientOp.mayQueue]))
          this) fun p _ hp => hp
  · exact C.newPipe _ _ _ _ rfl h
  · unfold pipeStartClient pipePrepare
    refine keeps_onPipe h fun q hq => ?_
    split
    · exact h
    · refine keeps_next (keeps_prepare C.queue (hm _ rfl q (List.mem_of_getElem? hq)) h) fun p _ hp => ?_
      exact C.setPipe _ _ _ (Or.inl ⟨rfl, rfl⟩) hp
  · unfold pipeSend pipePrepare
    refine keeps_onPipe h fun q hq => ?_
    split
    · exact h
    · refine keeps_prepare C.queue ?_ h
      intro t' c hc
      apply hA
      unfold prepMsg at hc
      split at hc
      · cases hc; simp [ClientOp.mayQueue]
      · cases hc; simp [ClientOp.mayQueue]
      · simp only [messageType] at hc
        cases hc; simp [ClientOp.mayQueue]
  · unfold pipeSendEof pipePrepare
    refine keeps_onPipe h fun q hq => ?_
    split
    · exact h
    · exact keeps_prepare_body C.queue (hA _ _ (by simp [Body.type, ClientOp.mayQueue])) h
  · unfold pipeHostResponse
    refine keeps_onPipe h fun q hq => ?_
    split
    · exact h
    · exact keeps_hostResponse C hA rfl h
  · unfold recvClient
    split
    · exact h
    · rename_i o hdec
      exact keeps_next (keeps_processClient C rfl hdec h) fun p _ hp => hp

end

theorem mem_modify {α : Type} {l : List α} {n : Nat} {f : α → α} {x : α}
    (h : x ∈ l.modify n f) : x ∈ l ∨ ∃ y ∈ l, x = f y := by
  rw [List.mem_iff_getElem?] at h
  obtain ⟨i, hi⟩ := h
  rw [List.getElem?_modify] at hi
  by_cases hn : n = i
  · subst hn
    cases hl : l[n]? with
    | none => simp [hl] at hi
    | some y => simp [hl] at hi; exact Or.inr ⟨y, List.mem_of_getElem? hl, hi.symm⟩
  · have : l[i]? = some x := by simpa [hn] using hi
    exact Or.inl (List.mem_of_getElem? this)

theorem pipesTyped_upd {p : Pool} (h : PipesTyped p) (n : Nat) (s : PipeState) :
    PipesTyped (p.updPipe n fun q => { q with state := s }) := by
  intro q hq
  rcases mem_modify hq with hq | ⟨y, hy, rfl⟩
  · exact h q hq
  · exact h y hy

theorem pipesTyped_stable (op : ClientOp) : ClientStable (fun _ _ => True) PipesTyped op where
  queue := fun p t c pid s _ h => h
  changeState := fun p s e _ => changeState_of (I := PipesTyped) (A := fun _ _ => True)
    (fun p t c pid s _ h => h)
    (fun _ _ => trivial) (fun p s h => h) p s e
  pipeChange := fun p n s e _ => pipeChange_of (I := PipesTyped) (A := fun _ _ => True)
    (fun p t c pid s _ h => h)
    (fun _ _ => trivial) (fun p n s h => pipesTyped_upd h n s) p n s e
  setPipe := fun p n s _ h => pipesTyped_upd h n s
  keySent := fun p h _ => h
  newPipe := by
    intro p pid k v _ h q hq
    simp only [Pool.newPipe, List.mem_append, List.mem_singleton] at hq
    rcases hq with hq | rfl
    · exact h q hq
    · exact ⟨k, v, rfl, rfl⟩

theorem rawAllowed_true (b : BaseOp) : RawAllowed (fun _ _ => True) b := by
  cases b <;> simp [RawAllowed]

theorem pipesTyped_step {p : Pool} (op : ClientOp) (h : PipesTyped p) :
    PipesTyped (op.step p).1 :=
  keeps_client (pipesTyped_stable op) (fun _ _ _ => trivial) (fun b _ => rawAllowed_true b)
    (fun _ _ _ _ _ _ _ => trivial) h

/-- The history has no raw `prepare_message` call with a message outside `A`. -/
def ClientRaw (A : MsgType → Option Obj → Prop) (op : ClientOp) : Prop :=
  ∀ b, op = .base b → RawAllowed A b

theorem step_keeps_client {op : ClientOp} (C : ClientStable A I op)
    (hA : ∀ t c, t ∈ ClientOp.mayQueue op → A t c) {p : Pool} (hr : ClientRaw A op) (hp : PipesTyped p) (h : I p) :
    I (op.step p).1 :=
  keeps_client C hA hr
    (fun n hn => pipesTyped_allowed (fun t c ht => hA t c (by rw [hn]; exact ht)) hp) h

theorem run_keeps_client
    (ops : List ClientOp) (C : ∀ op ∈ ops, ClientStable A I op) {p : Pool}
    (hA : ∀ op ∈ ops, ∀ t c, t ∈ op.mayQueue → A t c)
    (hr : ∀ op ∈ ops, ClientRaw A op) (hp : PipesTyped p)
    (h : I p) : I (runClient p ops).1 := by
  induction ops generalizing p with
  | nil => exact h
  | cons op ops ih =>
    exact ih (fun o ho => C o (by simp [ho])) (fun o ho => hA o (by simp [ho])) (fun o ho => hr o (by simp [ho]))
      (pipesTyped_step op hp) (step_keeps_client (C op (by simp)) (hA op (by simp)) (hr op (by simp)) hp h)

/-! ## The server -/

section
variable {op : ServerOp} (S : ServerStable A I op) (hA : ∀ t c, t ∈ op.mayQueue → A t c)
include S hA

theorem keeps_hostCall {p : Pool} {m : HostMethod} {v : Val}
    {pid : Option UUID} (hop : m.isVoid = false → op.takesCi)
    (hq : MsgType.RunspacePoolHostCall ∈ op.mayQueue ∧ MsgType.PipelineHostCall ∈ op.mayQueue) (h : I p) :
    Keeps I (p.hostCall m v pid) := by
  unfold hostCall nextCi
  split
  · exact h
  · by_cases hv : m.isVoid = true
    · simp only [hv, if_true]
      refine keeps_next (keeps_prepare_body S.queue ?_ h) fun p _ hp => hp
      apply hA
      unfold callBody
      split <;> simp [Body.type, hq]
    · have h1 := S.nextCi p (hop (by simpa using hv)) h
      simp only [hv]
      refine keeps_next (keeps_prepare_body S.queue ?_ h1) fun p _ hp => hp
      apply hA
      unfold callBody
      split <;> simp [Body.type, hq]

theorem keeps_serverInit {p : Pool} {m : Msg} {mn mx : Int} {t a : Nat} {hv ar : Val}
    (hop : op = .recv m) (ht : m.type = .InitRunspacePool) (h : I p) : Keeps I (p.serverInit mn mx t a hv ar) := by
  unfold serverInit
  refine keeps_next (keeps_prepare_body S.queue (hA _ _ (by simp [Body.type, ServerOp.mayQueue, hop]))
    (S.init _ m _ _ _ _ _ _ hop ht h)) fun p _ hp => ?_
  exact S.changeState _ _ _ (Or.inr ⟨rfl, by simp [hop, ht]⟩) hp

theorem keeps_serverConnect {p : Pool} {m : Msg} {mn mx : Option Int} (hop : op = .recv m)
    (ht : m.type = .ConnectRunspacePool) (h : I p) : Keeps I (p.serverConnect mn mx) := by
  unfold serverConnect
  refine keeps_next (keeps_prepare_body S.queue (hA _ _ (by simp [Body.type, ServerOp.mayQueue, hop, ht]))
    (S.limits p _ _ (Or.inr ⟨_, hop, ht⟩) h)) fun p _ hp => ?_
  refine keeps_next (keeps_prepare_body S.queue (hA _ _ (by simp [Body.type, ServerOp.mayQueue, hop, ht]))
    hp) fun p _ hp => ?_
  exact S.changeState _ _ _ (Or.inr ⟨rfl, by simp [hop, ht]⟩) hp

theorem keeps_serverCapability {p : Pool} {m : Msg} {c : Capability} {u : UUID}
    (hop : op = .recv m) (ht : m.type = .SessionCapability)
    (hm : m.content = some (.msg (.sessionCapability c))) (h : I p) :
    Keeps I (p.serverCapability c u) := by
  have h1 : I (p.processSessionCapability c) := S.theirs p m _ hop ht hm h
  unfold serverCapability
  dsimp only
  split
  · split
    · exact h1
    · exact h1
  · refine keeps_next (keeps_prepare_body S.queue (hA _ _ (by simp [Body.type, ServerOp.mayQueue, hop])) h1)
      fun p _ hp => ?_
    exact S.rpid _ _ hp

omit hA in
theorem runServerHandler_keeps {p : Pool} {ci : Int} {hd : Option Handler} {r : Resp}
    (hop : op = .availabilityResponse ci r) (h : I p) : I (p.runServerHandler hd r) := by
  unfold runServerHandler
  split
  · exact S.limits p p.minR _ (Or.inl ⟨_, hop⟩) h
  · exact S.limits p _ p.maxR (Or.inl ⟨_, hop⟩) h
  · exact h

theorem keeps_availability {p : Pool} {ci : Int} {r : Resp}
    (hop : op = .availabilityResponse ci r) (h : I p) : Keeps I (p.availabilityResponse ci r) := by
  unfold availabilityResponse
  split
  · exact h
  · split
    · exact h
    · dsimp only
      refine keeps_prepare_body S.queue (hA _ _ (by simp [Body.type, ServerOp.mayQueue, hop])) ?_
      exact runServerHandler_keeps S hop (S.answered p ci r hop h)

theorem keeps_processServer {p : Pool} {m : Msg} {o : Option Obj} (hop : op = .recv m)
    (hdec : Pool.decode m = .ok o) (h : I p) : Keeps I (p.processServer m o) := by
  unfold processServer
  split
  · exact keeps_serverCapability S hA hop ‹_› (decode_content hdec (by simp [*])) h
  · exact keeps_serverInit S hA hop ‹_› h
  · exact keeps_serverConnect S hA hop ‹_› h
  · unfold serverPipelineData
    split
    · exact h
    · exact S.setMeta _ _ _ h
  · unfold serverPipelineData
    split
    · exact h
    · exact S.setMeta _ _ _ h
  · exact S.keyReceived p m _ hop ‹_› (decode_content hdec (by simp [*])) h
  · exact S.record _ _ _ _ hop
      (by simp [requestOf, decode_content hdec (by simp [*]), *]) h
  · exact S.record _ _ _ _ hop
      (by simp [requestOf, decode_content hdec (by simp [*]), *]) h
  · exact S.record _ _ _ _ hop
      (by simp [requestOf, decode_content hdec (by simp [*]), *]) h
  · exact S.record _ _ _ _ hop
      (by simp [requestOf, decode_content hdec (by simp [*]), *]) h
  all_goals exact h

theorem keeps_server {p : Pool}
    (hr : ∀ b, op = .base b → RawAllowed A b)
    (h : I p) : Keeps I (op.step p) := by
  cases op <;> (try refine keeps_ret ?_)
  · exact keeps_base S.toBaseStable _ (hr _ rfl) (fun s hs => Or.inr ⟨rfl, Or.inl ⟨_, rfl, hs⟩⟩)
      (fun n hn => by rw [hn]; exact Or.inl ⟨rfl, Or.inl ⟨rfl, rfl⟩⟩) (fun n hn => by rw [hn]) h
  · unfold connectServer
    split
    · exact h
    split
    · exact h
    · rename_i hs
      exact S.changeState _ _ _ (Or.inr ⟨rfl, by simp⟩) (S.reset p rfl h (by simpa using hs))
  · unfold requestKey
    split
    · exact h
    · rename_i hk
      split
      · exact h
      · exact S.keyAsked p h (by simpa using hk)
  · unfold sendEvent
    split
    · exact h
    · exact keeps_prepare_body S.queue (hA _ _ (by simp [Body.type, ServerOp.mayQueue])) h
  · unfold setBroken
    split
    · exact h
    · exact S.changeState _ _ _ (Or.inl ⟨_, rfl, rfl, rfl⟩) h
  · exact keeps_hostCall S hA id (by simp [ServerOp.mayQueue]) h
  · exact keeps_availability S hA rfl h
  · unfold receiveServer
    split
    · rename_i hs; exact S.opening _ rfl h hs
    · exact h
  · exact S.newPipe _ _ rfl h
  · exact S.pipeChange _ _ _ _ (Or.inl ⟨rfl, by simp⟩) h
  · unfold pipeStartServer
    refine keeps_onPipe h fun q hq => ?_
    split
    · exact h
    · exact S.pipeChange _ _ _ _ (Or.inl ⟨rfl, by simp⟩) h
  · unfold pipeStop
    refine keeps_onPipe h fun q hq => ?_
    split
    · exact h
    split
    · exact h
    · exact S.pipeChange _ _ _ _ (Or.inr ⟨rfl, rfl, rfl⟩) h
  · unfold pipeHostCall
    refine keeps_onPipe h fun q hq => ?_
    split
    · exact h
    · exact keeps_hostCall S hA id (by simp [ServerOp.mayQueue]) h
  · unfold pipeWriteOutput pipePrepare
    refine keeps_onPipe h fun q hq => ?_
    split
    · exact h
    · refine keeps_prepare S.queue ?_ h
      intro t' c hc
      apply hA
      unfold prepMsg at hc
      split at hc
      · cases hc; simp [ServerOp.mayQueue]
      · cases hc; simp [ServerOp.mayQueue]
      · simp only [messageType] at hc
        cases hc; simp [ServerOp.mayQueue]
  · rename_i k v
    unfold pipeWriteRecord pipePrepare
    refine keeps_onPipe h fun q hq => ?_
    split
    · exact h
    split
    · exact h
    · refine keeps_prepare S.queue ?_ h
      intro t' c hc
      apply hA
      simp only [prepMsg, messageType] at hc
      cases hc
      cases k <;> simp [ServerOp.mayQueue, RecordKind.type]
  · unfold recvServer
    split
    · exact h
    · rename_i o hdec
      exact keeps_next (keeps_processServer S hA rfl hdec h) fun p _ hp => hp

end

/-- The history has no raw `prepare_message` call with a message outside `A`. -/
def ServerRaw (A : MsgType → Option Obj → Prop) (op : ServerOp) : Prop :=
  ∀ b, op = .base b → RawAllowed A b

theorem run_keeps_server
    (ops : List ServerOp) (S : ∀ op ∈ ops, ServerStable A I op)
    (hA : ∀ op ∈ ops, ∀ t c, t ∈ op.mayQueue → A t c)
    (hr : ∀ op ∈ ops, ServerRaw A op) {p : Pool} (h : I p) : I (runServer p ops).1 := by
  induction ops generalizing p with
  | nil => exact h
  | cons op ops ih =>
    exact ih (fun o ho => S o (by simp [ho])) (fun o ho => hA o (by simp [ho])) (fun o ho => hr o (by simp [ho]))
      (keeps_server (S op (by simp)) (hA op (by simp)) (hr op (by simp)) h)

end Pool
end Verif
