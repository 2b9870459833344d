import Verif.Proof.Limits
import Verif.Proof.History

/-! # Lemmas about the key exchange (C20) -/

namespace Verif
open Pool

theorem rawAllowed_of_notRaw {ts : List MsgType} (h1 : MsgType.PipelineOutput ∉ ts)
    (h2 : MsgType.EndOfPipelineInput ∉ ts) {op : BaseOp} (h : op.NotRaw ts) :
    RawAllowed (fun t _ => t ∉ ts) op := by
  cases op <;> try trivial
  rename_i m t pid s
  intro t' c hc
  unfold prepMsg at hc
  split at hc
  · cases hc; exact h1
  · cases hc; exact h2
  · rename_i o _
    cases t with
    | some t => simp only [messageType] at hc; cases hc; exact h.1 _ rfl
    | none =>
      cases o with
      | msg b => simp only [messageType] at hc; cases hc; exact h.2 _ rfl rfl
      | val v => simp [messageType] at hc

theorem ofType_append (t : MsgType) (a b : List Msg) : ofType t (a ++ b) = ofType t a ++ ofType t b := by
  simp [ofType]

/-! ## At most one key message -/

/-- The client queued as many public keys as it has a key requested. -/
def OneKey (p : Pool) : Prop :=
  (ofType .PublicKey p.sendBuffer).length = p.keyRequested.toNat

theorem oneKey_queue (p : Pool) (t : MsgType) (c : Option Obj) (pid : Option UUID) (s : StreamType)
    (ht : t ∉ [MsgType.PublicKey]) (h : OneKey p) : OneKey (p.queue t c pid s) := by
  have : t ≠ .PublicKey := by simpa using ht
  unfold OneKey at *
  simp only [queue, ofType_append, List.length_append, h]
  simp [ofType, this]

theorem oneKey_client (op : ClientOp) : ClientStable (fun t _ => t ∉ [MsgType.PublicKey]) OneKey op where
  queue := oneKey_queue
  changeState := fun p s e _ h => changeState_of (I := OneKey) (A := fun t _ => t ∉ [MsgType.PublicKey])
    oneKey_queue (by simp) (fun p s h => h) p s e h
  pipeChange := fun p n s e _ h => pipeChange_of (I := OneKey) (A := fun t _ => t ∉ [MsgType.PublicKey])
    oneKey_queue (by simp) (fun p n s h => h) p n s e h
  keySent := fun p h hk => by
    unfold OneKey at *
    rw [hk] at h
    simp only [queue, ofType_append, List.length_append, h]
    simp [ofType]

theorem client_mayQueue_key (op : ClientOp) : ∀ t ∈ op.mayQueue, t ∉ [MsgType.PublicKey] := by
  intro t hm
  cases op <;> simp only [ClientOp.mayQueue] at hm <;> (try simp at hm) <;>
    (first | (rcases hm with rfl | rfl | rfl <;> simp)
           | (rcases hm with rfl | rfl <;> simp) | (subst hm; simp))

theorem oneKey_run {p : Pool} (hp : FreshClient p) (ops : List ClientOp)
    (hr : ∀ op ∈ ops, op.NotRaw [.PublicKey]) : OneKey (runClient p ops).1 := by
  refine run_keeps_client ops (fun op _ => oneKey_client op) (fun op _ t _ => client_mayQueue_key op t) ?_ ?_ ?_
  · rintro op ho b rfl
    exact rawAllowed_of_notRaw (by simp) (by simp) (hr _ ho)
  · obtain ⟨_, _, _, _, _, _, _, _, rfl⟩ := hp
    intro q hq; simp [newClient] at hq
  · obtain ⟨_, _, _, _, _, _, _, _, rfl⟩ := hp
    rfl

/-- The server queued at most one key request, and then has a key requested. -/
def OneAsk (p : Pool) : Prop :=
  (ofType .PublicKeyRequest p.sendBuffer).length ≤ p.keyRequested.toNat

theorem oneAsk_queue (p : Pool) (t : MsgType) (c : Option Obj) (pid : Option UUID) (s : StreamType)
    (ht : t ∉ [MsgType.PublicKeyRequest]) (h : OneAsk p) : OneAsk (p.queue t c pid s) := by
  have : t ≠ .PublicKeyRequest := by simpa using ht
  unfold OneAsk at *
  simp only [queue, ofType_append, List.length_append]
  simpa [ofType, this] using h

theorem oneAsk_server (op : ServerOp) :
    ServerStable (fun t _ => t ∉ [MsgType.PublicKeyRequest]) OneAsk op where
  queue := oneAsk_queue
  changeState := fun p s e _ h => changeState_of (I := OneAsk) (A := fun t _ => t ∉ [MsgType.PublicKeyRequest])
    oneAsk_queue (by simp) (fun p s h => h) p s e h
  pipeChange := fun p n s e _ h => pipeChange_of (I := OneAsk) (A := fun t _ => t ∉ [MsgType.PublicKeyRequest])
    oneAsk_queue (by simp) (fun p n s h => h) p n s e h
  keyAsked := fun p h hk => by
    unfold OneAsk at *
    rw [hk] at h
    simp only [Bool.toNat_false, Nat.le_zero] at h
    simp only [queue, ofType_append, List.length_append, h]
    simp [ofType]
  keyReceived := fun p m k _ _ _ h => by
    refine oneAsk_queue _ _ _ _ _ (by simp) ?_
    unfold OneAsk at *
    exact Nat.le_trans h (Bool.toNat_le _)

theorem server_mayQueue_key (op : ServerOp) :
    ∀ t ∈ op.mayQueue, t ∉ [MsgType.PublicKeyRequest] ∧ t ∉ [MsgType.EncryptedSessionKey] := by
  intro t hm
  cases op <;> simp only [ServerOp.mayQueue] at hm <;> (try simp at hm)
  · subst hm; simp
  · rcases hm with rfl | rfl <;> simp
  · subst hm; simp
  · rcases hm with rfl | rfl <;> simp
  · rcases hm with rfl | rfl <;> simp
  · subst hm; rename_i k _; cases k <;> simp [RecordKind.type]
  · rcases hm with rfl | rfl | hm
    · simp
    · simp
    · rw [hm.2]; simp

theorem oneAsk_run {p : Pool} (hp : FreshServer p) (ops : List ServerOp)
    (hr : ∀ op ∈ ops, op.NotRaw [.PublicKeyRequest]) : OneAsk (runServer p ops).1 := by
  refine run_keeps_server ops (fun op _ => oneAsk_server op)
    (fun op _ t _ h => (server_mayQueue_key op t h).1) ?_ ?_
  · rintro op ho b rfl
    exact rawAllowed_of_notRaw (by simp) (by simp) (hr _ ho)
  · obtain ⟨_, _, rfl⟩ := hp
    exact Nat.zero_le _

/-! ## Where the cipher of a client comes from -/

/-- The cipher is that of `p0`, or the one just received. -/
def CipherFrom (p0 : Pool) (op : ClientOp) (p : Pool) : Prop :=
  p.cipher = p0.cipher ∨ ∃ m k s, op = .recv m ∧ m.type = .EncryptedSessionKey ∧
      m.content = some (.msg (.encryptedSessionKey k s)) ∧ p.cipher = some s

theorem cipher_client (p0 : Pool) (op : ClientOp) :
    ClientStable (fun _ _ => True) (CipherFrom p0 op) op where
  queue := fun p t c pid s _ h => h
  changeState := fun p s e _ h => changeState_of (I := CipherFrom p0 op) (A := fun _ _ => True)
    (fun p t c pid s _ h => h) (by simp) (fun p s h => h) p s e h
  pipeChange := fun p n s e _ h => pipeChange_of (I := CipherFrom p0 op) (A := fun _ _ => True)
    (fun p t c pid s _ h => h) (by simp) (fun p n s h => h) p n s e h
  keySent := fun p h hk => h
  sessionKey := fun p m k s hop ht hc _ _ => Or.inr ⟨m, k, s, hop, ht, hc, rfl⟩

/-- What a client that got its keys from `kp` has. -/
def Held (ops : List ClientOp) (kp : Nat) (p : Pool) : Prop :=
  p.keyPair = kp ∧ (p.exchangeKey = none ∨ p.exchangeKey = some kp) ∧
      (p.cipher = none ∨ ∃ m s, ClientOp.recv m ∈ ops ∧ m.type = .EncryptedSessionKey ∧
        m.content = some (.msg (.encryptedSessionKey kp s)) ∧ p.cipher = some s)

theorem held_client (ops : List ClientOp) (kp : Nat) (op : ClientOp) (ho : op ∈ ops) :
    ClientStable (fun _ _ => True) (Held ops kp) op where
  queue := fun p t c pid s _ h => h
  changeState := fun p s e _ h => changeState_of (I := Held ops kp) (A := fun _ _ => True)
    (fun p t c pid s _ h => h) (by simp) (fun p s h => h) p s e h
  pipeChange := fun p n s e _ h => pipeChange_of (I := Held ops kp) (A := fun _ _ => True)
    (fun p t c pid s _ h => h) (by simp) (fun p n s h => h) p n s e h
  keySent := fun p h hk => ⟨h.1, Or.inr (congrArg some h.1), h.2.2⟩
  sessionKey := fun p m k s hop ht hc h hk => by
    refine ⟨h.1, h.2.1, Or.inr ⟨m, s, hop ▸ ho, ht, ?_, rfl⟩⟩
    rcases h.2.1 with h | h
    · rw [h] at hk; cases hk
    · rw [h] at hk; cases hk; exact hc

/-! ## The session -/

/-- A message of a client whose key, if it is one, is `kp`. -/
def KeyMsg (kp : Nat) (m : Msg) : Prop :=
  m.type = .PublicKey → m.content = some (.msg (.publicKey kp))

/-- A message of a server whose key, if it is one, is `k` for `kp`. -/
def SessMsg (kp k : Nat) (m : Msg) : Prop :=
  m.type = .EncryptedSessionKey → m.content = some (.msg (.encryptedSessionKey kp k))

/-- What a client operation does to the keys. -/
def KeyC (kp k : Nat) (p0 p : Pool) : Prop :=
  p.keyPair = kp ∧ (p.keyRequested = true → p.exchangeKey = some kp) ∧
  (p.cipher = none ∨ p.cipher = some k) ∧ (p0.cipher = some k → p.cipher = some k) ∧
  (∀ m ∈ p.sendBuffer, m.type = .PublicKey → p.keyRequested = true) ∧
  ∃ new, p.sendBuffer = p0.sendBuffer ++ new ∧ (∀ m ∈ new, KeyMsg kp m) ∧
    (p.keyRequested = true → p0.keyRequested = true ∨ ∃ m ∈ new, m.type = .PublicKey)

theorem keyC_queue (kp k : Nat) (p0 p : Pool) (t : MsgType) (c : Option Obj) (pid : Option UUID)
    (s : StreamType) (ht : t ∉ [MsgType.PublicKey]) (h : KeyC kp k p0 p) :
    KeyC kp k p0 (p.queue t c pid s) := by
  obtain ⟨h1, h2, h3, h4, h8, new, h5, h6, h7⟩ := h
  refine ⟨h1, h2, h3, h4, ?_, new ++ [⟨t, c, p.rpid, pid, p.fragmentCount, s⟩], by simp [queue, h5], ?_, ?_⟩
  · intro m hm
    simp only [queue] at hm
    rcases List.mem_append.mp hm with hm | hm
    · exact h8 m hm
    · rw [List.mem_singleton.mp hm]; intro h; exact absurd h (by simpa using ht)
  · intro m hm
    rcases List.mem_append.mp hm with hm | hm
    · exact h6 m hm
    · rw [List.mem_singleton.mp hm]; intro h; exact absurd h (by simpa using ht)
  · intro hk
    rcases h7 hk with h | ⟨m, hm, ht⟩
    · exact Or.inl h
    · exact Or.inr ⟨m, List.mem_append_left _ hm, ht⟩

theorem keyC_client (kp k : Nat) (p0 : Pool) (op : ClientOp)
    (hs : ∀ m, op = .recv m → SessMsg kp k m) :
    ClientStable (fun t _ => t ∉ [MsgType.PublicKey]) (KeyC kp k p0) op where
  queue := keyC_queue kp k p0
  changeState := fun p s e _ h => changeState_of (I := KeyC kp k p0) (A := fun t _ => t ∉ [MsgType.PublicKey])
    (keyC_queue kp k p0) (by simp) (fun p s h => h) p s e h
  pipeChange := fun p n s e _ h => pipeChange_of (I := KeyC kp k p0) (A := fun t _ => t ∉ [MsgType.PublicKey])
    (keyC_queue kp k p0) (by simp) (fun p n s h => h) p n s e h
  keySent := fun p h hk => by
    obtain ⟨h1, h2, h3, h4, h8, new, h5, h6, h7⟩ := h
    refine ⟨h1, fun _ => congrArg some h1, h3, h4, fun _ _ _ => rfl, new ++ [_], by simp [queue, h5]; rfl, ?_, ?_⟩
    · intro m hm
      rcases List.mem_append.mp hm with hm | hm
      · exact h6 m hm
      · rw [List.mem_singleton.mp hm]; intro _; simp [h1]
    · exact fun _ => Or.inr ⟨_, List.mem_append_right _ (List.mem_singleton.mpr rfl), rfl⟩
  sessionKey := fun p m k' s hop ht hc h hk => by
    obtain ⟨h1, h2, h3, h4, h5⟩ := h
    have := hs m hop ht
    rw [hc] at this
    cases this
    exact ⟨h1, h2, Or.inr rfl, fun _ => rfl, h5⟩

theorem keyC_step {kp k : Nat} {p : Pool} {op : ClientOp} (hs : ∀ m, op = .recv m → SessMsg kp k m)
    (hr : ∀ m t pid s, op ≠ .base (.prepare m t pid s)) (ht : PipesTyped p) (h : KeyC kp k p p) :
    KeyC kp k p (op.step p).1 := by
  refine step_keeps_client (keyC_client kp k p op hs) (fun t _ => client_mayQueue_key op t) ?_ ht h
  rintro b rfl
  cases b <;> try trivial
  exact absurd rfl (hr _ _ _ _)

/-- What a server operation does to the keys. -/
def KeyS (kp k : Nat) (p0 p : Pool) : Prop :=
  p.sessionKey = k ∧ p.cipher = some k ∧ Adds (SessMsg kp k) p0.sendBuffer p.sendBuffer

theorem keyS_queue (kp k : Nat) (p0 p : Pool) (t : MsgType) (c : Option Obj) (pid : Option UUID)
    (s : StreamType) (ht : t ∉ [MsgType.EncryptedSessionKey]) (h : KeyS kp k p0 p) :
    KeyS kp k p0 (p.queue t c pid s) :=
  ⟨h.1, h.2.1, h.2.2.snoc fun h => absurd h (by simpa using ht)⟩

theorem keyS_server (kp k : Nat) (p0 : Pool) (op : ServerOp)
    (hs : ∀ m, op = .recv m → KeyMsg kp m) :
    ServerStable (fun t _ => t ∉ [MsgType.EncryptedSessionKey]) (KeyS kp k p0) op where
  queue := keyS_queue kp k p0
  changeState := fun p s e _ h => changeState_of (I := KeyS kp k p0) (A := fun t _ => t ∉ [MsgType.EncryptedSessionKey])
    (keyS_queue kp k p0) (by simp) (fun p s h => h) p s e h
  pipeChange := fun p n s e _ h => pipeChange_of (I := KeyS kp k p0) (A := fun t _ => t ∉ [MsgType.EncryptedSessionKey])
    (keyS_queue kp k p0) (by simp) (fun p n s h => h) p n s e h
  keyAsked := fun p h _ => keyS_queue kp k p0 p _ _ _ _ (by simp) h
  keyReceived := fun p m k' hop ht hc h => by
    have := hs m hop ht
    rw [hc] at this
    cases this
    exact ⟨h.1, h.2.1, h.2.2.snoc fun _ => by rw [h.1]⟩

theorem keyS_step {kp k : Nat} {p : Pool} {op : ServerOp} (hs : ∀ m, op = .recv m → KeyMsg kp m)
    (hr : ∀ m t pid s, op ≠ .base (.prepare m t pid s)) (h : p.sessionKey = k ∧ p.cipher = some k) :
    KeyS kp k p (op.step p).1 := by
  refine keeps_server (keyS_server kp k p op hs) (fun t _ h => (server_mayQueue_key op t h).2) ?_
    ⟨h.1, h.2, Adds.refl _ _⟩
  rintro b rfl
  cases b <;> try trivial
  exact absurd rfl (hr _ _ _ _)

/-- The invariant of the keys of a session. -/
structure Keys (kp k : Nat) (s : Session) : Prop where
  typed : PipesTyped s.client
  pair : s.client.keyPair = kp
  exch : s.client.keyRequested = true → s.client.exchangeKey = some kp
  held : s.client.cipher = none ∨ s.client.cipher = some k
  sent : ∀ m ∈ s.client.sendBuffer, m.type = .PublicKey → s.client.keyRequested = true
  skey : s.server.sessionKey = k
  scipher : s.server.cipher = some k
  posS : s.atServer ≤ s.client.sendBuffer.length
  posC : s.atClient ≤ s.server.sendBuffer.length
  toS : ∀ m ∈ s.toServer, KeyMsg kp m
  toC : ∀ m ∈ s.toClient, SessMsg kp k m
  coming : s.client.keyRequested = true → s.client.cipher = some k ∨
    (∃ m ∈ s.toServer, m.type = .PublicKey) ∨ ∃ m ∈ s.toClient, m.type = .EncryptedSessionKey

theorem Keys.client_frame {kp k : Nat} {s : Session} (g : Keys kp k s) {p : Pool}
    (h : KeyC kp k s.client p) (ht : PipesTyped p) : Keys kp k { s with client := p } := by
  obtain ⟨h1, h2, h3, h4, h8, new, h5, h6, h7⟩ := h
  have hts : Session.toServer { s with client := p } = s.toServer ++ new := by
    simp only [Session.toServer, h5]
    rw [List.drop_append_of_le_length g.posS]
  refine
    { typed := ht, pair := h1, exch := h2, held := h3, sent := h8, skey := g.skey, scipher := g.scipher,
      posS := ?_, posC := g.posC, toS := ?_, toC := g.toC, coming := ?_ }
  · simp only [h5, List.length_append]; exact Nat.le_add_right_of_le g.posS
  · rw [hts]
    intro m hm
    rcases List.mem_append.mp hm with hm | hm
    · exact g.toS m hm
    · exact h6 m hm
  · intro hk
    rw [hts]
    rcases h7 hk with hk | ⟨m, hm, ht⟩
    · rcases g.coming hk with h | ⟨m, hm, ht⟩ | h
      · exact Or.inl (h4 h)
      · exact Or.inr (Or.inl ⟨m, List.mem_append_left _ hm, ht⟩)
      · exact Or.inr (Or.inr h)
    · exact Or.inr (Or.inl ⟨m, List.mem_append_right _ hm, ht⟩)

theorem Keys.server_frame {kp k : Nat} {s : Session} (g : Keys kp k s) {p : Pool}
    (h : KeyS kp k s.server p) : Keys kp k { s with server := p } := by
  obtain ⟨h1, h2, new, h5, h6⟩ := h
  have htc : Session.toClient { s with server := p } = s.toClient ++ new := by
    simp only [Session.toClient, h5]
    rw [List.drop_append_of_le_length g.posC]
  refine { g with skey := h1, scipher := h2, posC := ?_, toC := ?_, coming := ?_ }
  · simp only [h5, List.length_append]; exact Nat.le_add_right_of_le g.posC
  · rw [htc]
    intro m hm
    rcases List.mem_append.mp hm with hm | hm
    · exact g.toC m hm
    · exact h6 m hm
  · intro hk
    rw [htc]
    rcases g.coming hk with h | h | ⟨m, hm, ht⟩
    · exact Or.inl h
    · exact Or.inr (Or.inl h)
    · exact Or.inr (Or.inr ⟨m, List.mem_append_left _ hm, ht⟩)

theorem Keys.self {kp k : Nat} {s : Session} (g : Keys kp k s) : KeyC kp k s.client s.client :=
  ⟨g.pair, g.exch, g.held, id, g.sent, [], by simp, by simp, Or.inl⟩

theorem Keys.to_server {kp k : Nat} {s : Session} (g : Keys kp k s) : Keys kp k (s.step .toServer).1 := by
  simp only [Session.step]
  split
  · exact g
  rename_i m hm
  have hlt := (List.getElem?_eq_some_iff.mp hm).1
  have hd : s.toServer = m :: Session.toServer { s with atServer := s.atServer + 1 } := by
    simp only [Session.toServer]
    rw [List.drop_eq_getElem_cons hlt, (List.getElem?_eq_some_iff.mp hm).2]
  have hso := g.toS m (by rw [hd]; simp)
  simp only [serverReceives]
  have gr : Keys kp k { s with server := (ServerOp.receiveData.step s.server).1 } :=
    g.server_frame (keyS_step (by simp) (by simp) ⟨g.skey, g.scipher⟩)
  generalize (ServerOp.receiveData.step s.server).1 = q at *
  have hf : KeyS kp k q ((ServerOp.recv (wire m)).step q).1 :=
    keyS_step (by rintro _ ⟨⟩; exact hso) (by simp) ⟨gr.skey, gr.scipher⟩
  have htail : ∀ x ∈ Session.toServer { s with atServer := s.atServer + 1 }, KeyMsg kp x :=
    fun x hx => g.toS x (by rw [hd]; exact List.mem_cons_of_mem _ hx)
  by_cases ht : m.type = .PublicKey
  · -- the key is answered
    have hstep : ((ServerOp.recv (wire m)).step q).1 = { (q.queue .EncryptedSessionKey
        (some (.msg (.encryptedSessionKey kp k))) none .default) with keyRequested := true } := by
      simp only [ServerOp.step, Res.ret, recvServer, decode]
      rw [if_neg (by rw [wire_type, ht]; simp), wire_content, hso ht]
      have := gr.skey
      dsimp only at this
      simp [Obj.deserializeFails, Obj.vals, Body.vals, processServer, wire_type, ht, serverPublicKey,
        prepareMessage, Obj.serializeFails, messageType, Body.type, Res.next, this, queue]
    obtain ⟨h1, h2, new, h5, h6⟩ := hf
    have htc : Session.toClient { s with server := ((ServerOp.recv (wire m)).step q).1, atServer := s.atServer + 1 } =
        Session.toClient { s with server := q } ++ new := by
      simp only [Session.toClient, h5]
      rw [List.drop_append_of_le_length gr.posC]
    have hnew : new = [⟨.EncryptedSessionKey, some (.msg (.encryptedSessionKey kp k)), q.rpid, none,
        q.fragmentCount, .default⟩] := by
      rw [hstep] at h5
      exact (List.append_cancel_left h5).symm
    refine
      { typed := g.typed, pair := g.pair, exch := g.exch, held := g.held, sent := g.sent, skey := h1, scipher := h2,
        posS := hlt, posC := ?_, toS := htail, toC := ?_, coming := ?_ }
    · simp only [h5, List.length_append]; exact Nat.le_add_right_of_le gr.posC
    · rw [htc]
      intro x hx
      rcases List.mem_append.mp hx with hx | hx
      · exact gr.toC x hx
      · exact h6 x hx
    · intro _
      rw [htc]
      exact Or.inr (Or.inr ⟨_, List.mem_append_right _ (by rw [hnew]; exact List.mem_singleton.mpr rfl), rfl⟩)
  · have g1 : Keys kp k { s with server := q, atServer := s.atServer + 1 } := by
      refine
        { typed := g.typed, pair := g.pair, exch := g.exch, held := g.held, sent := g.sent, skey := gr.skey, scipher := gr.scipher,
          posS := hlt, posC := gr.posC, toS := htail, toC := gr.toC, coming := ?_ }
      intro hk
      rcases gr.coming hk with h | ⟨x, hx, hxt⟩ | h
      · exact Or.inl h
      · refine Or.inr (Or.inl ⟨x, ?_, hxt⟩)
        have hx' : x ∈ s.toServer := hx
        rw [hd] at hx'
        rcases List.mem_cons.mp hx' with rfl | hx'
        · exact absurd hxt ht
        · exact hx'
      · exact Or.inr (Or.inr h)
    exact g1.server_frame hf

theorem Keys.to_client {kp k : Nat} {s : Session} (g : Keys kp k s) : Keys kp k (s.step .toClient).1 := by
  simp only [Session.step]
  split
  · exact g
  rename_i m hm
  have hlt := (List.getElem?_eq_some_iff.mp hm).1
  have hd : s.toClient = m :: Session.toClient { s with atClient := s.atClient + 1 } := by
    simp only [Session.toClient]
    rw [List.drop_eq_getElem_cons hlt, (List.getElem?_eq_some_iff.mp hm).2]
  have hso := g.toC m (by rw [hd]; simp)
  simp only [clientReceives]
  have hty := pipesTyped_step (.recv (wire m)) g.typed
  have htail : ∀ x ∈ Session.toClient { s with atClient := s.atClient + 1 }, SessMsg kp k x :=
    fun x hx => g.toC x (by rw [hd]; exact List.mem_cons_of_mem _ hx)
  have hf : KeyC kp k s.client ((ClientOp.recv (wire m)).step s.client).1 :=
    keyC_step (by rintro _ ⟨⟩; exact hso) (by simp) g.typed g.self
  by_cases hk : m.type = .EncryptedSessionKey ∧ s.client.keyRequested = true
  · obtain ⟨ht, hk⟩ := hk
    have hstep : ((ClientOp.recv (wire m)).step s.client).1 = { s.client with cipher := some k } := by
      simp only [ClientOp.step, Res.ret, recvClient, decode]
      rw [if_neg (by rw [wire_type, ht]; simp), wire_content, hso ht]
      simp [Obj.deserializeFails, Obj.vals, Body.vals, processClient, wire_type, ht, clientSessionKey,
        g.exch hk, Res.next]
    rw [hstep]
    exact
      { typed := g.typed, pair := g.pair, exch := g.exch, held := Or.inr rfl, sent := g.sent, skey := g.skey,
        scipher := g.scipher, posS := g.posS, posC := hlt, toS := g.toS, toC := htail,
        coming := fun _ => Or.inl rfl }
  · have g1 : Keys kp k { s with atClient := s.atClient + 1 } := by
      refine { g with posC := hlt, toC := htail, coming := ?_ }
      intro hkr
      rcases g.coming hkr with h | h | ⟨x, hx, hxt⟩
      · exact Or.inl h
      · exact Or.inr (Or.inl h)
      · refine Or.inr (Or.inr ⟨x, ?_, hxt⟩)
        rw [hd] at hx
        rcases List.mem_cons.mp hx with rfl | hx
        · exact absurd ⟨hxt, hkr⟩ hk
        · exact hx
    exact g1.client_frame hf hty

theorem Keys.step {kp k : Nat} {s : Session} (g : Keys kp k s) {op : SessionOp} (ha : op.IsApi) :
    Keys kp k (s.step op).1 := by
  cases op with
  | client op =>
    refine g.client_frame (keyC_step ?_ ?_ g.typed g.self) (pipesTyped_step op g.typed)
    · rintro m rfl; exact ha.elim
    · rintro m t pid st rfl; exact ha.elim
  | server op =>
    refine g.server_frame (keyS_step ?_ ?_ ⟨g.skey, g.scipher⟩)
    · rintro m rfl; exact ha.elim
    · rintro m t pid st rfl; exact ha.elim
  | toServer => exact g.to_server
  | toClient => exact g.to_client

theorem Keys.run {kp k : Nat} {s : Session} (g : Keys kp k s) (ops : List SessionOp)
    (ha : ∀ op ∈ ops, op.IsApi) : Keys kp k (s.run ops).1 := by
  induction ops generalizing s with
  | nil => exact g
  | cons op ops ih => exact ih (g.step (ha op (by simp))) fun x hx => ha x (by simp [hx])

theorem keys_config (c : Session.Config) : Keys c.keyPair c.sessionKey c.session where
  typed := by intro q hq; simp [Session.Config.session, Session.Config.client, newClient] at hq
  pair := rfl
  exch := by simp [Session.Config.session, Session.Config.client, newClient]
  held := Or.inl rfl
  sent := by simp [Session.Config.session, Session.Config.client, newClient]
  skey := rfl
  scipher := rfl
  posS := Nat.le_refl _
  posC := Nat.le_refl _
  toS := by simp [Session.toServer, Session.Config.session, Session.Config.client, newClient]
  toC := by simp [Session.toClient, Session.Config.session, Session.Config.server, newServer]
  coming := by simp [Session.Config.session, Session.Config.client, newClient]

end Verif
