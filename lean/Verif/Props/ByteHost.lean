import Verif.Props.ByteSession
import Verif.Props.HostSession
import Verif.Props.Keys
import Verif.Props.States

/-!
# C18, C20, C22 and C80 for bytes

The theorems about sessions of messages, for two pools that exchange bytes: by C73 what is observed is a session of messages. `K` writes and
reads the data of messages, payloads are cut and passed on in any way. As in C73 no message may be on the way to the client when the server
connects again.
-/

namespace Verif
open Pool Session

/-- The step keeps the count of the calls of the server, and is a call of the API or one of the transport. -/
def ByteOp.KeepsCount (op : ByteOp) : Prop := op.IsApi ∧ op ≠ .server .connect

/-- The step does not change the state of the pool of the client other than by reading, see `SessionOp.Mirrored`. -/
def ByteOp.Mirrored : ByteOp → Prop
  | .client op => (SessionOp.client op).Mirrored
  | .server op => (SessionOp.server op).Mirrored
  | _ => True

/-- What was seen and called in a history of two pools and the bytes between them. -/
def ByteSession.trace (K : Codec) (s0 : Session) (ops : List ByteOp) : SessionTrace := observed ((ByteSession.of s0).run K ops).2

private theorem calm_of (K : Codec) (s0 : Session) {ops : List ByteOp} (ho : ∀ op ∈ ops, op.KeepsCount) : (ByteSession.of s0).Calm K ops := by
  intro before after he
  exact absurd rfl (ho (.server .connect) (by rw [he]; simp)).2

private theorem observed_keeps (K : Codec) (b : ByteSession) (ops : List ByteOp) (h : ∀ op ∈ ops, op.KeepsCount) :
    ∀ op ∈ (observed (b.run K ops).2).map Prod.fst, op.KeepsCount := by
  intro op ho
  refine ⟨observed_api K b ops (fun o m => (h o m).1) op ho, ?_⟩
  obtain ⟨x, hx, rfl⟩ := List.mem_map.mp ho
  obtain ⟨y, hy, hl⟩ := observed_mem hx
  have hm : y.1 ∈ ops := by rw [← run_ops K b ops]; exact List.mem_map_of_mem hy
  have hk := (h y.1 hm).2
  obtain ⟨op, r⟩ := y
  cases op <;> cases r <;> simp [lift, observed] at hl
  all_goals (subst hl; simp at hk ⊢)
  all_goals exact hk

private theorem observed_mirrored (K : Codec) (b : ByteSession) (ops : List ByteOp) (h : ∀ op ∈ ops, op.Mirrored) :
    ∀ op ∈ (observed (b.run K ops).2).map Prod.fst, op.Mirrored := by
  intro op ho
  obtain ⟨x, hx, rfl⟩ := List.mem_map.mp ho
  obtain ⟨y, hy, hl⟩ := observed_mem hx
  have hm : y.1 ∈ ops := by rw [← run_ops K b ops]; exact List.mem_map_of_mem hy
  have hk := h y.1 hm
  obtain ⟨op, r⟩ := y
  cases op <;> cases r <;> simp [lift, observed] at hl
  all_goals subst hl
  all_goals first | exact hk | trivial

/-- The session of messages of C73. -/
private theorem messages (K : Codec) (s0 : Session) (h0 : s0.Drained) (ops : List ByteOp) (hops : ∀ op ∈ ops, op.IsCall)
    (hs : ((ByteSession.of s0).run K ops).1.Sendable K) (hc : (ByteSession.of s0).Calm K ops) :
    (s0.run ((ByteSession.trace K s0 ops).map Prod.fst)).2 = ByteSession.trace K s0 ops := by
  obtain ⟨s, h, _⟩ := C73_session_partial K s0 h0 ops hops hs hc
  exact congrArg Prod.snd h

/-- C80 for bytes: whenever the server gets an event with a response to a host call, it had before made that call, for that pipeline, with
that method and under that id; after that the client was shown the call with its parameters; and after that the client answered it with
exactly the values of the response. -/
theorem C80_bytes_response (K : Codec) (k : Config) (ops : List ByteOp) (ho : ∀ op ∈ ops, op.KeepsCount)
    (hsend : ((ByteSession.of k.session).run K ops).1.Sendable K) (tr : SessionTrace) (htr : tr = ByteSession.trace K k.session ops)
    (before after : SessionTrace) (m : Msg) (e : SessionEntry) (hs : tr = before ++ e :: after) (he : ServerSees m e) (ci : Int)
    (hm : m.IsHostReply ci) :
    ∃ (c : MadeCall) (a b : Option Val) (made shown answered : SessionEntry), List.Sublist [made, shown, answered] before ∧
      c.MadeBy tr.pipelines made ∧ c.ShownBy shown ∧ AnsweredBy c.ci a b answered ∧ c.method.isVoid = false ∧ c.ci = ci ∧ c.Answer a b m :=
  C80_response k _ (observed_keeps K _ ops ho) tr
    (htr.trans (messages K k.session ⟨rfl, rfl⟩ ops (fun o h => isApi_call (ho o h).1) hsend (calm_of K _ ho)).symm) before after m e hs he ci hm

/-- C80 for bytes: no two responses the server gets have the same id. -/
theorem C80_bytes_once (K : Codec) (k : Config) (ops : List ByteOp) (ho : ∀ op ∈ ops, op.KeepsCount)
    (hsend : ((ByteSession.of k.session).run K ops).1.Sendable K) (t1 t2 t3 : SessionTrace) (e e' : SessionEntry) (m m' : Msg) (ci ci' : Int)
    (hs : ByteSession.trace K k.session ops = t1 ++ e :: (t2 ++ e' :: t3))
    (he : ServerSees m e) (he' : ServerSees m' e') (hm : m.IsHostReply ci) (hm' : m'.IsHostReply ci') : ci ≠ ci' :=
  C80_once k _ (observed_keeps K _ ops ho) t1 t2 t3 e e' m m' ci ci'
    ((messages K k.session ⟨rfl, rfl⟩ ops (fun o h => isApi_call (ho o h).1) hsend (calm_of K _ ho)).trans hs) he he' hm hm'

/-- C80 for bytes: when all bytes were sent, passed on and read, the client has been shown every host call of the server that it can read,
with its pipeline, id, method and parameters. -/
theorem C80_bytes_call_arrives (K : Codec) (k : Config) (ops : List ByteOp) (ho : ∀ op ∈ ops, op.KeepsCount)
    (hsend : ((ByteSession.of k.session).run K ops).1.Sendable K) (hq : ((ByteSession.of k.session).run K ops).1.Quiet K)
    (tr : SessionTrace) (htr : tr = ByteSession.trace K k.session ops) (before after : SessionTrace) (e : SessionEntry) (c : MadeCall)
    (hs : tr = before ++ e :: after) (he : c.MadeBy tr.pipelines e) (hr : Readable (some c.params)) : ∃ e' ∈ after, c.ShownBy e' :=
  C80_call_arrives k _ (observed_keeps K _ ops ho) tr
    (htr.trans (messages K k.session ⟨rfl, rfl⟩ ops (fun o h => isApi_call (ho o h).1) hsend (calm_of K _ ho)).symm) before after e c hs he hr
    (C73_quiet_partial K k.session ⟨rfl, rfl⟩ ops (fun o h => isApi_call (ho o h).1) hsend (calm_of K _ ho) hq)

/-- C80 for bytes: when all bytes were sent, passed on and read, every answer the client gave has reached the server, for the pipeline and
with the id, the method and the values, if the server can read them. -/
theorem C80_bytes_answer_arrives (K : Codec) (k : Config) (ops : List ByteOp) (ho : ∀ op ∈ ops, op.KeepsCount)
    (hsend : ((ByteSession.of k.session).run K ops).1.Sendable K) (hq : ((ByteSession.of k.session).run K ops).1.Quiet K)
    (tr : SessionTrace) (htr : tr = ByteSession.trace K k.session ops) (before after : SessionTrace) (e : SessionEntry) (ci : Int)
    (a b : Option Val) (hs : tr = before ++ e :: after) (he : AnsweredBy ci a b e) (ha : Readable a) (hb : Readable b) :
    ∃ (c : MadeCall) (made shown : SessionEntry), c.ci = ci ∧ List.Sublist [made, shown] before ∧ c.MadeBy tr.pipelines made ∧
      c.ShownBy shown ∧ ∃ e' ∈ after, ∃ m, c.Answer a b m ∧ ServerSees m e' :=
  C80_answer_arrives k _ (observed_keeps K _ ops ho) tr
    (htr.trans (messages K k.session ⟨rfl, rfl⟩ ops (fun o h => isApi_call (ho o h).1) hsend (calm_of K _ ho)).symm) before after e ci a b hs
    he ha hb (C73_quiet_partial K k.session ⟨rfl, rfl⟩ ops (fun o h => isApi_call (ho o h).1) hsend (calm_of K _ ho) hq)

/-- C18 for bytes: when all bytes were sent, passed on and read, each request of the client, which all have different ids, either waits at
the server for its answer or was answered, and nothing was answered twice or without a request. Missing: see `C73_session_partial`. -/
theorem C18_bytes_partial (K : Codec) (s0 : Session) (h0 : OpenSession s0) (ops : List ByteOp) (hops : ∀ op ∈ ops, op.IsApi)
    (b : ByteSession) (hb : b = ((ByteSession.of s0).run K ops).1) (hs : b.Sendable K) (hc : (ByteSession.of s0).Calm K ops) (hq : b.Quiet K) :
    List.Perm (ByteSession.trace K s0 ops).requested (b.server.pool.ciEvents.keys ++ answerIds b.server.pool.sendBuffer) ∧
    (ByteSession.trace K s0 ops).requested.Nodup := by
  subst hb
  have hd0 : s0.Drained := by obtain ⟨_, _, _, _, _, h⟩ := h0; exact h
  have hcall : ∀ op ∈ ops, op.IsCall := fun op h => isApi_call (hops op h)
  obtain ⟨t, h⟩ := tracks_run (tracks_of K hd0) ops hcall hs hc
  have hd := tracks_quiet t hs hq
  obtain ⟨h1, h2⟩ := C18_place s0 h0 _ (observed_api K _ ops hops) _ rfl
  have htr : (s0.run ((observed ((ByteSession.of s0).run K ops).2).map Prod.fst)).2 = ByteSession.trace K s0 ops :=
    messages K s0 hd0 ops hcall hs hc
  rw [htr] at h1 h2
  refine ⟨?_, h2⟩
  have hsv := t.server
  unfold shadow at hd hsv
  generalize (s0.run ((observed ((ByteSession.of s0).run K ops).2).map Prod.fst)).1 = s at *
  have hd' : s.Drained := hd
  have hsv' : s.server.ciEvents = ((ByteSession.of s0).run K ops).1.server.pool.ciEvents ∧
      s.server.sendBuffer = ((ByteSession.of s0).run K ops).1.server.pool.sendBuffer := by
    rcases hsv with h | ⟨_, h⟩ <;> rw [h] <;> exact ⟨rfl, rfl⟩
  have hup : s.toServer = [] := by simp [Session.toServer, hd'.1]
  have hdown : s.toClient = [] := by simp [Session.toClient, hd'.2]
  rw [hup, hdown, hd'.2, List.take_length, hsv'.1, hsv'.2] at h1
  simpa [requestIds, answerIds] using h1

/-- C20 for bytes: once the client sent its public key and all bytes were sent, passed on and read, both can encrypt, with the same key; and
a client that can encrypt uses the key of the server whatever was read so far. Missing: see `C73_session_partial`. -/
theorem C20_bytes_partial (K : Codec) (k : Config) (ops : List ByteOp) (hops : ∀ op ∈ ops, op.IsApi)
    (b : ByteSession) (hb : b = ((ByteSession.of k.session).run K ops).1) (hs : b.Sendable K) (hc : (ByteSession.of k.session).Calm K ops) :
    b.server.pool.cipher = some k.sessionKey ∧ (b.client.pool.cipher = none ∨ b.client.pool.cipher = some k.sessionKey) ∧
    (b.Quiet K → ofType .PublicKey b.client.pool.sendBuffer ≠ [] → b.client.pool.cipher = some k.sessionKey) := by
  subst hb
  have hd0 : k.session.Drained := ⟨rfl, rfl⟩
  have hcall : ∀ op ∈ ops, op.IsCall := fun op h => isApi_call (hops op h)
  obtain ⟨t, h⟩ := tracks_run (tracks_of K hd0) ops hcall hs hc
  obtain ⟨h1, h2⟩ := C20_same_key k _ (observed_api K _ ops hops) _ rfl
  have h3 := fun hq => C20_complete k _ (observed_api K _ ops hops) _ rfl (tracks_quiet t hs hq)
  have hcl := t.client
  have hsv := t.server
  unfold shadow at hcl hsv
  generalize (k.session.run ((observed ((ByteSession.of k.session).run K ops).2).map Prod.fst)).1 = s at *
  have hci : ((ByteSession.of k.session).run K ops).1.server.pool.cipher = s.server.cipher := by
    rcases hsv with h | ⟨_, h⟩ <;> rw [h]
  refine ⟨hci.trans h1, ?_, fun hq hk => ?_⟩
  · rw [← hcl]
    exact h2.imp id fun h => h.trans h1
  · rw [← hcl]
    rw [← hcl] at hk
    exact (h3 hq hk).1

/-- C22 for bytes: in an open session, whatever is called on either side, as long as the client does not close, disconnect or reconnect the
pool itself, when all bytes were sent, passed on and read the client reports the state of the server's pool, if that is a state that is
announced. Missing: as in `C22_session_partial` and `C73_session_partial`. -/
theorem C22_bytes_partial (K : Codec) (s0 : Session) (h0 : OpenSession s0) (ops : List ByteOp) (hops : ∀ op ∈ ops, op.IsApi)
    (hm : ∀ op ∈ ops, op.Mirrored) (b : ByteSession) (hb : b = ((ByteSession.of s0).run K ops).1) (hs : b.Sendable K)
    (hc : (ByteSession.of s0).Calm K ops) (hq : b.Quiet K) (hann : b.server.pool.state.announced = true) :
    b.client.pool.state = b.server.pool.state := by
  subst hb
  have hd0 : s0.Drained := by obtain ⟨_, _, _, _, _, h⟩ := h0; exact h
  have hcall : ∀ op ∈ ops, op.IsCall := fun op h => isApi_call (hops op h)
  obtain ⟨t, h⟩ := tracks_run (tracks_of K hd0) ops hcall hs hc
  have h1 := C22_session_partial s0 h0 _ (observed_api K _ ops hops) (observed_mirrored K _ ops hm) _ rfl (tracks_quiet t hs hq)
  have hcl := t.client
  have hsv := t.server
  unfold shadow at hcl hsv
  generalize (s0.run ((observed ((ByteSession.of s0).run K ops).2).map Prod.fst)).1 = s at *
  rcases hsv with h | ⟨_, h⟩
  · rw [h] at hann ⊢
    rw [← hcl]
    exact h1 hann
  · rw [h] at hann
    exact nomatch hann

/-! ## Examples -/

/-- The objects of the example. -/
def hostObjs : List Obj :=
  [.msg (.sessionCapability ourCapability), .msg (.initRunspacePool 1 5 3 2 { tag := 4 } { tag := 1 }),
   .msg (.applicationPrivateData { tag := 7 }), .msg (.runspacePoolState .Opened none),
   .msg (.runspacePoolHostCall 1 .ReadLine { tag := 1 }), .msg (.runspacePoolHostCall 2 .GetName { tag := 2 }),
   .msg (.runspacePoolHostResponse 1 .ReadLine none (some { tag := 6 })), .msg (.runspacePoolHostResponse 2 .GetName (some { tag := 5 }) none),
   .msg .publicKeyRequest, .msg (.publicKey exampleConfig.keyPair),
   .msg (.encryptedSessionKey exampleConfig.keyPair exampleConfig.sessionKey)]

/-- Two host calls, answered in the other order, and an exchange of keys, in small portions. -/
def exampleHostBytes : List ByteOp :=
  [.client .open_] ++ upAll ++ downAll ++
  [.server (.hostCall .ReadLine { tag := 1 } none), .server (.hostCall .GetName { tag := 2 } none), .server .requestKey] ++ downAll ++
  [.client (.hostResponse 2 (some { tag := 5 }) none), .client (.hostResponse 1 none (some { tag := 6 }))] ++ upAll ++ downAll ++ upAll

example : (∀ op ∈ exampleHostBytes, op.KeepsCount) ∧ (∀ op ∈ exampleBytes, op.Mirrored) := by
  simp [exampleHostBytes, exampleBytes, upAll, downAll, ByteOp.KeepsCount, ByteOp.IsApi, SessionOp.IsApi, ByteOp.Mirrored, SessionOp.Mirrored,
    ClientOp.changesPool]

-- the conditions hold, and the server gets the two responses
example : ((ByteSession.of exampleConfig.session).run (tableCodec hostObjs) exampleHostBytes).1.Sendable (tableCodec hostObjs) ∧
    ((ByteSession.of exampleConfig.session).run (tableCodec hostObjs) exampleHostBytes).1.Quiet (tableCodec hostObjs) ∧
    (ByteSession.trace (tableCodec hostObjs) exampleConfig.session exampleHostBytes).filterMap (fun e => match e with
      | (.toServer, .ok (.event m)) => if m.type = .RunspacePoolHostResponse then m.content else none
      | _ => none) =
      [.msg (.runspacePoolHostResponse 2 .GetName (some { tag := 5 }) none), .msg (.runspacePoolHostResponse 1 .ReadLine none (some { tag := 6 }))] ∧
    ofType .PublicKey ((ByteSession.of exampleConfig.session).run (tableCodec hostObjs) exampleHostBytes).1.client.pool.sendBuffer ≠ [] ∧
    ((ByteSession.of exampleConfig.session).run (tableCodec hostObjs) exampleHostBytes).1.client.pool.cipher = some exampleConfig.sessionKey := by
  decide +kernel

-- a request that was answered (C18), in a session whose state is announced (C22); the other conditions are in `Props/ByteSession`
example : (ByteSession.trace exampleCodec exampleOpen exampleBytes).requested = [1] ∧
    answerIds ((ByteSession.of exampleOpen).run exampleCodec exampleBytes).1.server.pool.sendBuffer = [1] ∧
    ((ByteSession.of exampleOpen).run exampleCodec exampleBytes).1.server.pool.state.announced = true := by decide +kernel

end Verif
