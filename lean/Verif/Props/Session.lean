import Verif.Proof.Frames
import Verif.Proof.Limits

/-! # Properties of a client and a server together (C17, C18, C20, C21) -/

namespace Verif
open Pool Session

/-! ## C21: the opening handshake -/

/-- C21: after `open` and any deliveries that leave nothing in flight, both sides are opened and
know each other. -/
theorem C21_handshake (k : Config) (hk : k.Ok) (ds : List SessionOp)
    (hd : ∀ d ∈ ds, d.IsDelivery) (s : Session)
    (hs : s = (k.session.run (.client .open_ :: ds)).1) (hdr : s.Drained) :
    s.client.state = .Opened ∧ s.server.state = .Opened ∧
    s.server.rpid = k.rpid ∧ s.server.minR = k.min ∧ s.server.maxR = k.max ∧
    s.server.threadOptions = k.threadOptions ∧ s.server.apartment = k.apartment ∧
    s.server.host = some (k.host.getD defaultHost) ∧ s.server.appArgs = k.args ∧
    s.client.appPrivate = k.privateData ∧
    s.client.minR = k.min ∧ s.client.maxR = k.max ∧ s.client.rpid = k.rpid ∧
    s.client.theirs = some s.server.ours ∧ s.server.theirs = some s.client.ours := by
  have h0 : (k.session.step (.client .open_)).1 =
      { client := k.clients 0, server := k.servers 0, atServer := 0, atClient := 0 } := by
    simp only [Session.step, Config.session, hk.opened]; rfl
  have hrun : s = ((k.session.step (.client .open_)).1.run ds).1 := hs
  rw [h0] at hrun
  obtain ⟨i, j, hi, hj, hij⟩ := (hk.during_run ⟨0, 0, by omega, by omega, rfl⟩ ds hd).1
  rw [hrun, hij] at hdr ⊢
  simp only [Drained, Config.clients_buffer] at hdr
  have hi2 : i = 2 := by simpa [Config.client0] using hdr.1
  subst hi2
  have hj3 : j = 3 := by simpa [Config.servers, Config.server2] using hdr.2
  subst hj3
  simp [Config.clients, Config.servers, Config.client3, Config.client2, Config.client1, Config.client0,
    Config.client, Config.server2, Config.server1, Config.server, newClient, newServer]

/-- C21: no delivery of the handshake raises an exception, at most five are needed, and as long
as something is in flight one of the two deliveries moves on. -/
theorem C21_progress (k : Config) (hk : k.Ok) (ds : List SessionOp)
    (hd : ∀ d ∈ ds, d.IsDelivery) (s : Session)
    (hs : s = (k.session.run (.client .open_ :: ds)).1) :
    (∀ e ∈ (k.session.run (.client .open_ :: ds)).2, ∃ r, e.2 = .ok r) ∧
    s.atServer + s.atClient ≤ 5 ∧
    (¬ s.Drained → (s.step .toServer).1.atServer = s.atServer + 1 ∨
      (s.step .toClient).1.atClient = s.atClient + 1) := by
  have h0 : (k.session.step (.client .open_)) =
      ({ client := k.clients 0, server := k.servers 0, atServer := 0, atClient := 0 }, .ok .none) := by
    simp only [Session.step, Config.session, hk.opened]; rfl
  have hrun : s = ((k.session.step (.client .open_)).1.run ds).1 := hs
  rw [h0] at hrun
  obtain ⟨⟨i, j, hi, hj, hij⟩, hok⟩ := hk.during_run ⟨0, 0, by omega, by omega, rfl⟩ ds hd
  refine ⟨?_, ?_, ?_⟩
  · intro e he
    simp only [Session.run, h0, List.mem_cons] at he
    rcases he with rfl | he
    · exact ⟨_, rfl⟩
    · exact hok e he
  · rw [hrun, hij]
    have : (k.servers i).sendBuffer.length ≤ 3 := (k.servers_buffer i).length_le
    simp only
    omega
  · rw [hrun, hij]
    intro hnd
    simp only [Drained, Config.clients_buffer] at hnd
    by_cases h1 : i = k.client0.sendBuffer.length
    · right
      have h2 : j < (k.servers i).sendBuffer.length := by
        have : j ≠ (k.servers i).sendBuffer.length := fun h => hnd ⟨h1, h⟩
        omega
      simp only [Session.step]
      rw [List.getElem?_eq_getElem h2]
    · left
      have h2 : i < k.client0.sendBuffer.length := by
        simp [Config.client0] at h1 ⊢; omega
      simp only [Session.step, Config.clients_buffer]
      rw [List.getElem?_eq_getElem h2]

/-- A configuration for the examples. -/
def exampleConfig : Config :=
  { rpid := ⟨List.replicate 16 7, by decide⟩, args := { tag := 1 }, apartment := 2,
    threadOptions := 3, host := some { tag := 4 }, min := 1, max := 5, keyPair := 6,
    privateData := { tag := 7 }, sessionKey := 8 }

example : exampleConfig.Ok := by constructor <;> decide
example : (exampleConfig.session.run (.client .open_ ::
    [.toServer, .toClient, .toClient, .toServer, .toClient, .toClient])).1.Drained := by
  unfold Drained; decide +kernel

/-! ## C17: limits change only by agreement -/

/-- C17: in an open session, whatever is called on either side and however the deliveries
interleave, when nothing is in flight both sides report the same limits. -/
theorem C17_agree (s0 : Session) (h0 : OpenSession s0) (ops : List SessionOp)
    (ha : ∀ op ∈ ops, op.IsApi) (s : Session) (hs : s = (s0.run ops).1) (hd : s.Drained) :
    s.client.limits = s.server.limits := by
  have g := (good_open h0).run ops ha
  rw [← hs] at g
  have := g.core.limits
  rw [show s.toClient = [] from by simp [toClient, hd.2]] at this
  exact this

/-- C17: in an open session the limits of the client change only on receiving the server's
positive answer to a request it made for just that change, or the server's answer to a connect. -/
theorem C17_session_client (s0 : Session) (h0 : OpenSession s0) (ops : List SessionOp)
    (ha : ∀ op ∈ ops, op.IsApi) (s : Session) (hs : s = (s0.run ops).1) (op : SessionOp)
    (hop : op.IsApi) (hch : (s.step op).1.client.limits ≠ s.client.limits) :
    op = .toClient ∧ ∃ m, s.server.sendBuffer[s.atClient]? = some m ∧
      (initOf m = some (s.step op).1.client.limits ∨
       ∃ ci v, responseOf m = some (.bool true, ci) ∧
        ((s.step op).1.client.limits = (s.client.minR, v) ∧
            (.client (.setMaxRunspaces v), .ok (.ci ci)) ∈ (s0.run ops).2 ∨
         (s.step op).1.client.limits = (v, s.client.maxR) ∧
            (.client (.setMinRunspaces v), .ok (.ci ci)) ∈ (s0.run ops).2)) := by
  have g := (good_open h0).run ops ha
  rw [← hs, List.nil_append] at g
  exact g.limits_change hop hch

/-- C17: the limits of a client that has been opened (or connected) change only when it receives
the answer to a connect, or a positive answer to an earlier request for just that change. (A
request for a number that is no 32 bit integer fails, but still registers its id.) -/
theorem C17_client (p : Pool) (hp : FreshClient p) (ops : List ClientOp) (op : ClientOp) (q : Pool)
    (hq : q = (runClient p ops).1) (ho : q.state ≠ .BeforeOpen)
    (hch : (op.step q).1.limits ≠ q.limits) :
    ∃ m, op = .recv m ∧ (initOf m = some (op.step q).1.limits ∨
      ∃ ci v, responseOf m = some (.bool true, ci) ∧
        ((op.step q).1.limits = (q.minR, v) ∧ (.setMaxRunspaces v, .ok (.ci ci)) ∈ (runClient p ops).2 ∨
         (op.step q).1.limits = (v, q.maxR) ∧ (.setMinRunspaces v, .ok (.ci ci)) ∈ (runClient p ops).2 ∨
         fitsInt32 v = false ∧
          ((op.step q).1.limits = (q.minR, v) ∧
              (.setMaxRunspaces v, .error .valueError) ∈ (runClient p ops).2 ∨
           (op.step q).1.limits = (v, q.maxR) ∧
              (.setMinRunspaces v, .error .valueError) ∈ (runClient p ops).2))) := by
  obtain ⟨m, rfl, h | ⟨ci, h, h1, h2, h3⟩⟩ := client_change ho hch
  · exact ⟨m, rfl, Or.inl h⟩
  · refine ⟨m, rfl, Or.inr ?_⟩
    rw [hq] at h2
    have ha := (handlers_asked p hp ops).2 ci h h2
    cases h with
    | setMax v =>
      refine ⟨ci, v, h1, ?_⟩
      rcases ha with ha | ⟨hf, ha⟩
      · exact Or.inl ⟨h3, ha⟩
      · exact Or.inr (Or.inr ⟨hf, Or.inl ⟨h3, ha⟩⟩)
    | setMin v =>
      refine ⟨ci, v, h1, ?_⟩
      rcases ha with ha | ⟨hf, ha⟩
      · exact Or.inr (Or.inl ⟨h3, ha⟩)
      · exact Or.inr (Or.inr ⟨hf, Or.inr ⟨h3, ha⟩⟩)

/-- C17: the limits of a server change only when it answers True to a received request for just
that change, or receives the limits from a client that opens or connects to it. -/
theorem C17_server (p : Pool) (hp : FreshServer p) (ops : List ServerOp) (op : ServerOp) (q : Pool)
    (hq : q = (runServer p ops).1) (hch : (op.step q).1.limits ≠ q.limits) :
    (∃ ci m h, op = .availabilityResponse ci (.bool true) ∧ .recv m ∈ ops ∧
      requestOf m = some (ci, h) ∧ (op.step q).1.limits = handled h q.limits) ∨
    (∃ m, op = .recv m ∧ ((∃ t a h args, m.type = .InitRunspacePool ∧
        m.content = some (.msg (.initRunspacePool (op.step q).1.minR (op.step q).1.maxR t a h args))) ∨
      (∃ mn mx, m.type = .ConnectRunspacePool ∧ m.content = some (.msg (.connectRunspacePool mn mx)) ∧
        ((op.step q).1.minR = q.minR ∨ mn = some (op.step q).1.minR) ∧
        ((op.step q).1.maxR = q.maxR ∨ mx = some (op.step q).1.maxR)))) := by
  by_cases h1 : ∀ ci, op ≠ .availabilityResponse ci (.bool true)
  · right
    have : ∃ m, op = .recv m ∧ (m.type = .InitRunspacePool ∨ m.type = .ConnectRunspacePool) := by
      refine Classical.byContradiction fun hn => hch (limits_server h1 fun m hop => ?_)
      constructor <;> intro ht <;> exact hn ⟨m, hop, by simp [ht]⟩
    obtain ⟨m, rfl, ht⟩ := this
    exact ⟨m, rfl, server_init_limits ht hch⟩
  · left
    have : ∃ ci, op = .availabilityResponse ci (.bool true) :=
      Classical.byContradiction fun hn => h1 fun ci h => hn ⟨ci, h⟩
    obtain ⟨ci, rfl⟩ := this
    simp only [ServerOp.step, Res.ret, availabilityResponse] at hch ⊢
    split at hch
    · exact absurd rfl hch
    rename_i req hreq
    split at hch
    · exact absurd rfl hch
    rename_i hs
    simp only [hs, if_false]
    cases hg : q.ciHandlers.get? ci with
    | none =>
      simp [hg, runServerHandler, prepareMessage, Obj.serializeFails, Obj.vals, Body.vals, messageType,
        queue, limits] at hch
    | some h =>
      rw [hq] at hg
      obtain ⟨m, hm1, hm2⟩ := (handlers_server p hp ops).2 ci h hg
      refine ⟨ci, m, h, rfl, hm1, hm2, ?_⟩
      rcases h with _ | (v | v) <;>
        simp [runServerHandler, prepareMessage, Obj.serializeFails, Obj.vals, Body.vals, messageType,
          queue, limits, handled]

/-! ## C18: availability requests are answered at most once -/

/-- C18: every request the client made is in exactly one place: on its way to the server, waiting
at the server, answered and on the way back, or answered and delivered; and no answer exists
that was not asked for. -/
theorem C18_place (s0 : Session) (h0 : OpenSession s0) (ops : List SessionOp)
    (ha : ∀ op ∈ ops, op.IsApi) (s : Session) (hs : s = (s0.run ops).1) :
    List.Perm (SessionTrace.requested (s0.run ops).2)
      (requestIds s.toServer ++ s.server.ciEvents.keys ++
        answerIds (s.server.sendBuffer.take s.atClient) ++ answerIds s.toClient) ∧
    (SessionTrace.requested (s0.run ops).2).Nodup := by
  have g := (good_open h0).run ops ha
  rw [← hs, List.nil_append] at g
  rw [requested_issued]
  have hsplit : answerIds s.server.sendBuffer =
      answerIds (s.server.sendBuffer.take s.atClient) ++ answerIds s.toClient := by
    simp only [answerIds, toClient, ← List.map_append, ← List.filterMap_append, List.take_append_drop]
  rw [List.append_assoc, ← hsplit]
  exact ⟨g.core.issued, g.core.issued.nodup_iff.mpr g.core.nodup⟩

/-- C18: at most one answer is ever queued for a request, and none without a request. -/
theorem C18_once (s0 : Session) (h0 : OpenSession s0) (ops : List SessionOp)
    (ha : ∀ op ∈ ops, op.IsApi) (s : Session) (hs : s = (s0.run ops).1) :
    (answerIds s.server.sendBuffer).Nodup ∧
    ∀ ci ∈ answerIds s.server.sendBuffer, ci ∈ SessionTrace.requested (s0.run ops).2 := by
  have g := (good_open h0).run ops ha
  rw [← hs, List.nil_append] at g
  refine ⟨?_, fun ci hci => ?_⟩
  · have := g.core.nodup
    rw [List.nodup_append] at this
    exact this.2.1
  · rw [requested_issued]
    refine g.core.issued.mem_iff.mpr ?_
    rw [List.mem_append]; exact Or.inr hci

/-- The client can read the answer: a bool, or an int that the serializer brings across. -/
def Resp.Readable : Resp → Prop
  | .bool _ => True
  | .int n => -(2 ^ 31) ≤ n ∧ n < 2 ^ 63

/-- C18: every answer the client receives is to a request of its own that was not answered
before, and is accepted: the client reports it as an event. This is partial: an int answer out
of the range the serializer brings across is lost, see `C18_violated`. -/
theorem C18_known_partial (s0 : Session) (h0 : OpenSession s0) (ops : List SessionOp)
    (ha : ∀ op ∈ ops, op.IsApi) (s : Session) (hs : s = (s0.run ops).1) (m : Msg)
    (hm : s.server.sendBuffer[s.atClient]? = some m) (r : Resp) (ci : Int)
    (hr : responseOf m = some (r, ci)) (hread : r.Readable) :
    (s.step .toClient).2 = .ok (.event (wire m)) ∧
    ci ∈ SessionTrace.requested (s0.run ops).2 ∧
    ci ∉ answerIds (s.server.sendBuffer.take s.atClient) := by
  have g := (good_open h0).run ops ha
  rw [← hs, List.nil_append] at g
  have hlt := (List.getElem?_eq_some_iff.mp hm).1
  have hd : s.server.sendBuffer = s.server.sendBuffer.take s.atClient ++
      m :: s.server.sendBuffer.drop (s.atClient + 1) := by
    conv => lhs; rw [← List.take_append_drop s.atClient s.server.sendBuffer]
    rw [List.drop_eq_getElem_cons hlt, (List.getElem?_eq_some_iff.mp hm).2]
  have hmem : m ∈ s.toClient := by
    simp only [toClient]
    rw [List.drop_eq_getElem_cons hlt, (List.getElem?_eq_some_iff.mp hm).2]; simp
  obtain ⟨h1, h, h2, h3⟩ := g.core.coming (r, ci) (List.mem_filterMap.mpr ⟨m, hmem, hr⟩)
  refine ⟨?_, ?_, ?_⟩
  · obtain ⟨ht, hcon⟩ := responseOf_mem hr
    simp only [Session.step, hm, clientReceives, ClientOp.step, Res.ret, recvClient, decode]
    rw [if_neg (by rw [wire_type, ht]; simp), wire_content, hcon]
    have hdf : Obj.deserializeFails (.msg (.runspaceAvailability r ci)) = none := by
      rcases r with b | n
      · simp [Obj.deserializeFails, Obj.vals, Body.vals]
      · have hb : bareIntFits n = true := decide_eq_true hread
        simp [Obj.deserializeFails, hb]
    dsimp only at h2 h3
    simp only [hdf, processClient, wire_type, ht, clientAvailability, h2]
    rcases h with _ | (v | v)
    · simp [Res.next, Except.map]
    · obtain ⟨b, rfl⟩ := h3 (by simp)
      cases b <;> simp [Res.next, Except.map]
    · obtain ⟨b, rfl⟩ := h3 (by simp)
      cases b <;> simp [Res.next, Except.map]
  · rw [requested_issued]
    refine g.core.issued.mem_iff.mpr ?_
    rw [List.mem_append]; exact Or.inr h1
  · have := (C18_once s0 h0 ops ha s hs).1
    rw [hd] at this
    simp only [answerIds, List.filterMap_append, List.filterMap_cons, hr, List.map_append, List.map_cons,
      List.nodup_append] at this
    intro hx
    exact this.2.2 ci hx ci (by simp) rfl

/-- An opened session for the examples. -/
def exampleOpen : Session := (exampleConfig.session.run (.client .open_ ::
    [.toServer, .toClient, .toClient, .toServer, .toClient, .toClient])).1

theorem exampleOpen_open : OpenSession exampleOpen :=
  ⟨exampleConfig, [.toServer, .toClient, .toClient, .toServer, .toClient, .toClient],
    by constructor <;> decide, by simp [SessionOp.IsDelivery], rfl, by unfold Drained; decide +kernel⟩

/-- C18 fails for an int answer out of that range: the client raises instead of reporting it, and
the request stays unanswered for ever. -/
theorem C18_violated :
    ∃ (s0 : Session) (ops : List SessionOp), OpenSession s0 ∧ (∀ op ∈ ops, op.IsApi) ∧
      (s0.run ops).1.Drained ∧
      (.client .getAvailableRunspaces, .ok (.ci 1)) ∈ (s0.run ops).2 ∧
      (.server (.availabilityResponse 1 (.int (2 ^ 63))), .ok .none) ∈ (s0.run ops).2 ∧
      (.toClient, .error .valueError) ∈ (s0.run ops).2 ∧
      (s0.run ops).1.server.ciEvents = [] ∧
      (s0.run ops).1.client.ciHandlers.get? 1 = some none :=
  ⟨exampleOpen, [.client .getAvailableRunspaces, .toServer,
      .server (.availabilityResponse 1 (.int (2 ^ 63))), .toClient], exampleOpen_open,
    by simp [SessionOp.IsApi], by unfold Drained; decide +kernel, by decide +kernel,
    by decide +kernel, by decide +kernel, by decide +kernel, by decide +kernel⟩

/-- A history with a request that is granted and one that is refused, in flight together. -/
def exampleRequests : List SessionOp :=
  [.client (.setMaxRunspaces 9), .client (.setMinRunspaces 3), .toServer, .toServer,
   .server (.availabilityResponse 2 (.bool false)), .server (.availabilityResponse 1 (.bool true)),
   .toClient]

example : ∀ op ∈ exampleRequests, op.IsApi := by simp [exampleRequests, SessionOp.IsApi]
example : (exampleOpen.run (exampleRequests ++ [.toClient])).1.Drained := by
  unfold Drained; decide +kernel
example : (exampleOpen.run (exampleRequests ++ [.toClient])).1.client.limits = (1, 9) := by
  decide +kernel
example : ((exampleOpen.run exampleRequests).1.step .toClient).1.client.limits ≠
    (exampleOpen.run exampleRequests).1.client.limits := by decide +kernel
example : SessionTrace.requested (exampleOpen.run exampleRequests).2 = [1, 2] := by decide +kernel

/-- A message for the examples. -/
def exampleMsg (t : MsgType) (b : Body) : Msg :=
  { type := t, content := some (.msg b), rpid := exampleConfig.rpid, pid := none, oid := 1 }

example : ((ClientOp.recv (exampleMsg .RunspaceAvailability (.runspaceAvailability (.bool true) 1))).step
      (runClient exampleConfig.client [.open_, .setMaxRunspaces 9]).1).1.limits = (1, 9) ∧
    (runClient exampleConfig.client [.open_, .setMaxRunspaces 9]).1.limits = (1, 5) ∧
    (runClient exampleConfig.client [.open_, .setMaxRunspaces 9]).1.state ≠ .BeforeOpen := by
  decide +kernel
example : ((ServerOp.availabilityResponse 4 (.bool true)).step (runServer exampleConfig.server
      [.recv (exampleMsg .SetMaxRunspaces (.setMaxRunspaces 9 4))]).1).1.limits = (0, 9) ∧
    (runServer exampleConfig.server
      [.recv (exampleMsg .SetMaxRunspaces (.setMaxRunspaces 9 4))]).1.limits = (0, 0) := by
  decide +kernel

end Verif
