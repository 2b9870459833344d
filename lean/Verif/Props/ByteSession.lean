import Verif.Proof.ByteSession
import Verif.Props.Session

/-!
# C73: a session over bytes is a session

Specifications: `Verif/Spec/ByteSession.lean`.
-/

namespace Verif
open Pool Session

/-- **C73** However the payloads of two pools are cut, held back and passed on, and whenever `next_event` is called: the
pools behave as if whole messages arrived one by one in the order they were prepared. The calls and events have the results
they have in that session of messages, no event is lost, doubled or out of order, no exception comes from the transport, and
the two pools end as the two pools of that session. Missing: histories in which the server connects again while messages are
on the way to the client (`C73_reconnect_violated`). -/
theorem C73_session_partial (K : Codec) (s0 : Session) (h0 : s0.Drained) (ops : List ByteOp) (hops : ∀ op ∈ ops, op.IsCall)
    (hs : ((ByteSession.of s0).run K ops).1.Sendable K) (hc : (ByteSession.of s0).Calm K ops) :
    ∃ s, s0.run ((observed ((ByteSession.of s0).run K ops).2).map Prod.fst) =
        (s, observed ((ByteSession.of s0).run K ops).2) ∧
      s.client = ((ByteSession.of s0).run K ops).1.client.pool ∧
      SeenAs s.server ((ByteSession.of s0).run K ops).1.server.pool := by
  obtain ⟨t, h⟩ := tracks_run (tracks_of K h0) ops hops hs hc
  exact ⟨(shadow K s0 (ByteSession.of s0) ops).1, Prod.ext rfl h, t.client, t.server⟩

/-- **C73** When everything was sent, passed on and read, every message prepared by one side has arrived at the other. -/
theorem C73_quiet_partial (K : Codec) (s0 : Session) (h0 : s0.Drained) (ops : List ByteOp) (hops : ∀ op ∈ ops, op.IsCall)
    (hs : ((ByteSession.of s0).run K ops).1.Sendable K) (hc : (ByteSession.of s0).Calm K ops)
    (hq : ((ByteSession.of s0).run K ops).1.Quiet K) :
    (s0.run ((observed ((ByteSession.of s0).run K ops).2).map Prod.fst)).1.Drained :=
  tracks_quiet (tracks_run (tracks_of K h0) ops hops hs hc).1 hs hq

/-- **C73** No message of the client is stuck: as long as one has not arrived, sending all that is queued, in portions of any
size, and passing it on makes the next `next_event` of the server return it. -/
theorem C73_server_progress_partial (K : Codec) (s0 : Session) (h0 : s0.Drained) (ops : List ByteOp)
    (hops : ∀ op ∈ ops, op.IsCall) (b : ByteSession) (hb : b = ((ByteSession.of s0).run K ops).1)
    (hs : b.Sendable K) (hc : (ByteSession.of s0).Calm K ops)
    (hp : (s0.run ((observed ((ByteSession.of s0).run K ops).2).map Prod.fst)).1.atServer < b.client.pool.sendBuffer.length)
    (amounts : List (Option Int)) (ha : ∀ a, some a ∈ amounts → 22 ≤ a) (hk : bytesQueued b.client.out ≤ amounts.length)
    (j : Nat) (hj : b.toServer.length + amounts.length ≤ j) :
    ((b.run K (amounts.map .clientSends ++ List.replicate j .serverGets)).1.step K .serverNext).2 ≠ none := by
  subst hb
  exact up_arrives (tracks_run (tracks_of K h0) ops hops hs hc).1 hs hp amounts ha hk j hj

/-- **C73** No message of the server is stuck. -/
theorem C73_client_progress_partial (K : Codec) (s0 : Session) (h0 : s0.Drained) (ops : List ByteOp)
    (hops : ∀ op ∈ ops, op.IsCall) (b : ByteSession) (hb : b = ((ByteSession.of s0).run K ops).1)
    (hs : b.Sendable K) (hc : (ByteSession.of s0).Calm K ops)
    (hp : (s0.run ((observed ((ByteSession.of s0).run K ops).2).map Prod.fst)).1.atClient < b.server.pool.sendBuffer.length)
    (amounts : List (Option Int)) (ha : ∀ a, some a ∈ amounts → 22 ≤ a) (hk : bytesQueued b.server.out ≤ amounts.length)
    (j : Nat) (hj : b.toClient.length + amounts.length ≤ j) :
    ((b.run K (amounts.map .serverSends ++ List.replicate j .clientGets)).1.step K .clientNext).2 ≠ none := by
  subst hb
  exact down_arrives (tracks_run (tracks_of K h0) ops hops hs hc).1 hs hp amounts ha hk j hj

/-- **C73** The handshake over bytes: after `open`, whatever the sizes of the payloads and the order of the steps, once
everything was sent and read both sides are opened and know each other (C21 for bytes). -/
theorem C73_handshake (K : Codec) (k : Config) (hk : k.Ok) (ops : List ByteOp) (hops : ∀ op ∈ ops, op.IsTransport)
    (b : ByteSession) (hb : b = ((ByteSession.of k.session).run K (.client .open_ :: ops)).1)
    (hs : b.Sendable K) (hq : b.Quiet K) :
    b.client.pool.state = .Opened ∧ b.server.pool.state = .Opened ∧
    b.server.pool.rpid = k.rpid ∧ b.server.pool.minR = k.min ∧ b.server.pool.maxR = k.max ∧
    b.server.pool.host = some (k.host.getD defaultHost) ∧ b.server.pool.appArgs = k.args ∧
    b.client.pool.appPrivate = k.privateData ∧
    b.client.pool.theirs = some b.server.pool.ours ∧ b.server.pool.theirs = some b.client.pool.ours := by
  subst hb
  have h0 : k.session.Drained := ⟨rfl, rfl⟩
  have hcall : ∀ op ∈ (ByteOp.client .open_ :: ops), op.IsCall := by
    intro op ho
    rcases List.mem_cons.mp ho with rfl | ho
    · trivial
    · exact isTransport_call (hops op ho)
  have hcalm : (ByteSession.of k.session).Calm K (.client .open_ :: ops) := by
    intro before after he
    have hm : ByteOp.server .connect ∈ (ByteOp.client .open_ :: ops) := by rw [he]; simp
    rcases List.mem_cons.mp hm with h | h
    · cases h
    · exact absurd (hops _ h) id
  obtain ⟨t, h⟩ := tracks_run (tracks_of K h0) _ hcall hs hcalm
  have hd := tracks_quiet t hs hq
  have hob : (observed ((ByteSession.of k.session).run K (.client .open_ :: ops)).2).map Prod.fst =
      .client .open_ :: (observed ((((ByteSession.of k.session).step K (.client .open_)).1).run K ops).2).map Prod.fst := rfl
  have hrun := C21_handshake k hk _ (observed_delivery K _ ops hops) (shadow K k.session _ (.client .open_ :: ops)).1
    (by unfold shadow; rw [hob]) hd
  obtain ⟨g1, g2, g3, g4, g5, -, -, g8, g9, g10, -, -, -, g14, g15⟩ := hrun
  have hc := t.client
  have hsv : (shadow K k.session (ByteSession.of k.session) (.client .open_ :: ops)).1.server =
      ((ByteSession.of k.session).run K (.client .open_ :: ops)).1.server.pool := by
    rcases t.server with h | ⟨h, -⟩
    · exact h.symm
    · rw [g2] at h; cases h
  rw [← hc, ← hsv]
  exact ⟨g1, g2, g3, g4, g5, g8, g9, g10, g14, g15⟩

/-- **C73** The limits over bytes: in an open session, whatever is called on either side and however the bytes travel, when
everything was sent and read both sides report the same limits (C17 for bytes). Missing: see `C73_session_partial`. -/
theorem C73_limits_partial (K : Codec) (s0 : Session) (h0 : OpenSession s0) (ops : List ByteOp) (hops : ∀ op ∈ ops, op.IsApi)
    (b : ByteSession) (hb : b = ((ByteSession.of s0).run K ops).1) (hs : b.Sendable K)
    (hc : (ByteSession.of s0).Calm K ops) (hq : b.Quiet K) :
    b.client.pool.limits = b.server.pool.limits := by
  subst hb
  have hd0 : s0.Drained := by obtain ⟨_, _, _, _, _, h⟩ := h0; exact h
  obtain ⟨t, h⟩ := tracks_run (tracks_of K hd0) ops (fun op ho => isApi_call (hops op ho)) hs hc
  have := C17_agree s0 h0 _ (observed_api K _ ops hops) _ rfl (tracks_quiet t hs hq)
  have hl : ∀ {p q : Pool}, SeenAs p q → q.limits = p.limits := by
    intro p q h
    rcases h with rfl | ⟨_, rfl⟩ <;> rfl
  rw [hl t.server, ← t.client]
  exact this

/-! ## Examples -/

/-- A codec for a few objects: the place in the list is the data. -/
def tableCodec (l : List Obj) : Codec where
  write := fun m => match m.content with
    | none => []
    | some o => [UInt8.ofNat (l.idxOf o)]
  read := fun _ b => match b with
    | [x] => l[x.toNat]?
    | _ => none

/-- The objects of the example. -/
def exampleObjs : List Obj :=
  [.msg (.sessionCapability ourCapability), .msg (.initRunspacePool 1 5 3 2 { tag := 4 } { tag := 1 }),
   .msg (.applicationPrivateData { tag := 7 }), .msg (.runspacePoolState .Opened none), .msg (.setMaxRunspaces 9 1),
   .msg (.runspaceAvailability (.bool true) 1), .msg (.userEvent { tag := 20 }), .msg (.userEvent { tag := 21 }),
   .msg (.connectRunspacePool none none), .msg (.runspacePoolInitData 1 5)]

/-- The codec of the example. -/
abbrev exampleCodec : Codec := tableCodec exampleObjs

/-- All bytes to the server in portions of 30, read. -/
def upAll : List ByteOp :=
  List.replicate 10 (.clientSends (some 30)) ++ List.replicate 10 .serverGets ++ List.replicate 3 .serverNext

/-- All bytes to the client in portions of 64, read. -/
def downAll : List ByteOp :=
  List.replicate 10 (.serverSends (some 64)) ++ List.replicate 10 .clientGets ++ List.replicate 5 .clientNext

instance (K : Codec) (m : Msg) : Decidable (K.Sendable m) :=
  decidable_of_iff (m.oid < 2 ^ 64 ∧ (K.write m).length + 40 < 2 ^ 32 ∧ ¬ [0xEF, 0xBB, 0xBF] <+: K.write m ∧
      K.read m.type (K.write m) = m.content)
    ⟨fun h => ⟨h.1, h.2.1, h.2.2.1, h.2.2.2⟩, fun h => ⟨h.oid, h.len, h.bom, h.back⟩⟩

instance (K : Codec) (b : ByteSession) : Decidable (b.Sendable K) :=
  inferInstanceAs (Decidable ((∀ m ∈ b.client.pool.sendBuffer, K.Sendable m) ∧ ∀ m ∈ b.server.pool.sendBuffer, K.Sendable m))

instance (K : Codec) (b : ByteSession) : Decidable (b.Quiet K) :=
  decidable_of_iff ((dataToSend b.client.out none).2 = .ok none ∧ (dataToSend b.server.out none).2 = .ok none ∧
      b.toServer = [] ∧ b.toClient = [] ∧ (b.step K .clientNext).2 = none ∧ (b.step K .serverNext).2 = none)
    ⟨fun h => ⟨h.1, h.2.1, h.2.2.1, h.2.2.2.1, h.2.2.2.2.1, h.2.2.2.2.2⟩,
     fun h => ⟨h.clientSent, h.serverSent, h.toServer, h.toClient, h.clientRead, h.serverRead⟩⟩

-- a handshake in small portions
example : ∀ op ∈ upAll ++ downAll, op.IsTransport := by simp [upAll, downAll, ByteOp.IsTransport]
example : ((ByteSession.of exampleConfig.session).run exampleCodec
      (.client .open_ :: (upAll ++ downAll))).1.Sendable exampleCodec ∧
    ((ByteSession.of exampleConfig.session).run exampleCodec (.client .open_ :: (upAll ++ downAll))).1.Quiet exampleCodec ∧
    (observed ((ByteSession.of exampleConfig.session).run exampleCodec
      (.client .open_ :: (upAll ++ downAll))).2).length = 6 := by
  decide +kernel

/-- A change of the limits that is granted, and an event, in small portions. -/
def exampleBytes : List ByteOp :=
  [.client (.setMaxRunspaces 9), .server (.sendEvent { tag := 20 })] ++ upAll ++
  [.server (.availabilityResponse 1 (.bool true))] ++ downAll

example : (∀ op ∈ exampleBytes, op.IsApi) ∧ (∀ op ∈ exampleBytes, op.IsCall) := by
  simp [exampleBytes, upAll, downAll, ByteOp.IsApi, ByteOp.IsCall, SessionOp.IsApi]
example : ((ByteSession.of exampleOpen).run exampleCodec exampleBytes).1.Sendable exampleCodec ∧
    ((ByteSession.of exampleOpen).run exampleCodec exampleBytes).1.Quiet exampleCodec ∧
    ((ByteSession.of exampleOpen).run exampleCodec exampleBytes).1.client.pool.limits = (1, 9) ∧
    (observed ((ByteSession.of exampleOpen).run exampleCodec exampleBytes).2).length = 6 := by
  decide +kernel
example : (ByteSession.of exampleOpen).Calm exampleCodec exampleBytes := by
  intro before after h
  have : ByteOp.server .connect ∈ exampleBytes := by rw [h]; simp
  simp [exampleBytes, upAll, downAll] at this
-- messages under way in both directions
example : (exampleOpen.run ((observed ((ByteSession.of exampleOpen).run exampleCodec (exampleBytes.take 5)).2).map
        Prod.fst)).1.atServer <
      ((ByteSession.of exampleOpen).run exampleCodec (exampleBytes.take 5)).1.client.pool.sendBuffer.length ∧
    (exampleOpen.run ((observed ((ByteSession.of exampleOpen).run exampleCodec (exampleBytes.take 5)).2).map
        Prod.fst)).1.atClient <
      ((ByteSession.of exampleOpen).run exampleCodec (exampleBytes.take 5)).1.server.pool.sendBuffer.length ∧
    bytesQueued ((ByteSession.of exampleOpen).run exampleCodec (exampleBytes.take 5)).1.server.out ≤
      (List.replicate 100 (some (22 : Int))).length := by
  decide +kernel

/-! ## A server that connects again -/

/-- An event reaches the client, which has not asked for it yet. Both sides disconnect and connect again, the server sends
another event. -/
def exampleReconnect : List ByteOp :=
  [.server (.sendEvent { tag := 20 }), .serverSends none, .clientGets,
   .server (.base .disconnect), .server .connect, .client (.base .disconnect), .client .connect,
   .clientSends none, .clientSends none, .serverGets, .serverGets, .serverNext, .serverNext,
   .server (.sendEvent { tag := 21 }), .serverSends none, .serverSends none, .clientGets, .clientGets,
   .clientNext, .clientNext, .clientNext, .clientNext, .clientNext]

/-- **C73** fails when the server connects again while a message is unread at the client: `connect` starts the object ids
over, the client keeps the messages it has not returned by object id, and a later message takes the place of the unread one.
`send_event` was called twice and succeeded, everything was sent, passed on and read, and the client never saw the first
event; the events it saw are out of order. -/
theorem C73_reconnect_violated :
    ∃ (K : Codec) (s0 : Session) (ops : List ByteOp), OpenSession s0 ∧ (∀ op ∈ ops, op.IsCall ∧ op.IsApi) ∧
      ((ByteSession.of s0).run K ops).1.Sendable K ∧ ((ByteSession.of s0).run K ops).1.Quiet K ∧
      (.server (.sendEvent { tag := 20 }), .ok .none) ∈ observed ((ByteSession.of s0).run K ops).2 ∧
      (.server (.sendEvent { tag := 21 }), .ok .none) ∈ observed ((ByteSession.of s0).run K ops).2 ∧
      (observed ((ByteSession.of s0).run K ops).2).filterMap (fun e => match e with
        | (.toClient, .ok (.event m)) => some m.content
        | _ => none) =
        [some (.msg (.userEvent { tag := 21 })), some (.msg (.runspacePoolInitData 1 5)),
         some (.msg (.applicationPrivateData { tag := 7 })), some (.msg (.runspacePoolState .Opened none))] :=
  ⟨exampleCodec, exampleOpen, exampleReconnect, exampleOpen_open,
    by simp [exampleReconnect, ByteOp.IsApi, ByteOp.IsCall, SessionOp.IsApi],
    by decide +kernel, by decide +kernel, by decide +kernel, by decide +kernel, by decide +kernel⟩

end Verif
