import Verif.Proof.History
import Verif.Spec.Session

/-! # Lemmas about sessions -/

namespace Verif
open Pool

namespace Session

theorem run_append (s : Session) (a b : List SessionOp) :
    s.run (a ++ b) = (((s.run a).1.run b).1, (s.run a).2 ++ ((s.run a).1.run b).2) := by
  induction a generalizing s with
  | nil => simp [run]
  | cons x a ih => simp [run, ih]

theorem run_snoc (s : Session) (ops : List SessionOp) (op : SessionOp) :
    s.run (ops ++ [op]) = (((s.run ops).1.step op).1,
      (s.run ops).2 ++ [(op, ((s.run ops).1.step op).2)]) := by
  rw [run_append]; rfl

/-! ## The opening handshake (C21) -/

variable (k : Config)

def Config.initBody : Body :=
  .initRunspacePool k.min k.max k.threadOptions k.apartment (k.host.getD defaultHost) k.args

/-- The client after `open`. -/
def Config.client0 : Pool :=
  { k.client with
    state := .Opening, fragmentCount := 3
    sendBuffer := [
      { type := .SessionCapability, content := some (.msg (.sessionCapability ourCapability)),
        rpid := k.rpid, pid := none, oid := 1 },
      { type := .InitRunspacePool, content := some (.msg k.initBody),
        rpid := k.rpid, pid := none, oid := 2 }] }

def Config.client1 : Pool := { k.client0 with theirs := some ourCapability }
def Config.client2 : Pool := { k.client1 with appPrivate := k.privateData }
def Config.client3 : Pool := { k.client2 with state := .Opened }

def Config.clients : Nat → Pool
  | 0 => k.client0
  | 1 => k.client1
  | 2 => k.client2
  | _ => k.client3

def Config.server1 : Pool :=
  { k.server with
    state := .Opening, theirs := some ourCapability, rpid := k.rpid, fragmentCount := 2
    sendBuffer := [
      { type := .SessionCapability, content := some (.msg (.sessionCapability ourCapability)),
        rpid := EMPTY_UUID, pid := none, oid := 1 }] }

def Config.server2 : Pool :=
  { k.server1 with
    apartment := k.apartment, appArgs := k.args, host := some (k.host.getD defaultHost)
    threadOptions := k.threadOptions, maxR := k.max, minR := k.min
    state := .Opened, fragmentCount := 4
    sendBuffer := [
      { type := .SessionCapability, content := some (.msg (.sessionCapability ourCapability)),
        rpid := EMPTY_UUID, pid := none, oid := 1 },
      { type := .ApplicationPrivateData, content := some (.msg (.applicationPrivateData k.privateData)),
        rpid := k.rpid, pid := none, oid := 2 },
      { type := .RunspacePoolState, content := some (.msg (.runspacePoolState .Opened none)),
        rpid := k.rpid, pid := none, oid := 3 }] }

def Config.servers : Nat → Pool
  | 0 => k.server
  | 1 => k.server1
  | _ => k.server2

variable {k}

theorem Config.Ok.opened (h : k.Ok) : ClientOp.open_.step k.client = (k.client0, .ok .none) := by
  have h1 := h.hostOut
  have h2 := h.argsOut
  have h3 := h.min
  have h4 := h.max
  simp [ClientOp.step, open_, client, newClient, changeState, Res.next, prepareMessage,
    Obj.serializeFails, Obj.vals, Body.vals, messageType, Body.type, queue, h1, h2, h3, h4, Res.ret,
    client0, initBody, Except.map]

theorem Config.Ok.serverStep1 {m : Msg} (h : k.client0.sendBuffer[0]? = some m) :
    serverReceives k.server m = (k.server1, .ok (.event (wire m))) := by
  simp only [client0, List.getElem?_cons_zero, Option.some.injEq] at h
  subst h
  simp [serverReceives, ServerOp.step, server, newServer, receiveServer, Res.ret, Except.map, recvServer, decode, wire,
    Obj.deserializeFails, Obj.vals, Body.vals, processServer, serverCapability, Res.next, prepareMessage,
    Obj.serializeFails, messageType, Body.type, queue, server1, processSessionCapability, EMPTY_UUID]

theorem Config.Ok.serverStep2 (hk : k.Ok) {m : Msg} (h : k.client0.sendBuffer[1]? = some m) :
    serverReceives k.server1 m = (k.server2, .ok (.event (wire m))) := by
  have h1 := hk.hostIn
  have h2 := hk.argsIn
  have h3 := hk.dataOut
  simp only [client0, List.getElem?_cons_succ, List.getElem?_cons_zero, Option.some.injEq] at h
  subst h
  simp [serverReceives, ServerOp.step, server1, server, newServer, receiveServer, Res.ret, Except.map, recvServer, decode, wire,
    Obj.deserializeFails, Obj.vals, Body.vals, processServer, serverInit, Res.next, prepareMessage,
    Obj.serializeFails, messageType, Body.type, queue, server2, initBody, h1, h2, h3,
    changeState, emitted]

theorem Config.Ok.clientStep (hk : k.Ok) (j : Nat) (hj : j < 3) {m : Msg}
    (h : k.server2.sendBuffer[j]? = some m) :
    clientReceives (k.clients j) m = (k.clients (j + 1), .ok (.event (wire m))) := by
  have h1 := hk.dataIn
  rcases j with _ | _ | _ | j
  · simp only [server2, List.getElem?_cons_zero, Option.some.injEq] at h
    subst h
    simp [clientReceives, ClientOp.step, Res.ret, Except.map, recvClient, decode, wire, clients,
      Obj.deserializeFails, Obj.vals, Body.vals, processClient, processSessionCapability, Res.next, client1]
  · simp only [server2, List.getElem?_cons_succ, List.getElem?_cons_zero, Option.some.injEq] at h
    subst h
    simp [clientReceives, ClientOp.step, Res.ret, Except.map, recvClient, decode, wire, clients,
      Obj.deserializeFails, Obj.vals, Body.vals, processClient, Res.next, client2,
      client1, client0, client, newClient, h1]
  · simp only [server2, List.getElem?_cons_succ, List.getElem?_cons_zero, Option.some.injEq] at h
    subst h
    simp [clientReceives, ClientOp.step, Res.ret, Except.map, recvClient, decode, wire, clients,
      Obj.deserializeFails, Obj.vals, Body.vals, processClient, Res.next, client3, client2,
      client1, client0, client, newClient, changeState]
  · omega

/-- The sessions that occur while the handshake is delivered. -/
def Config.During (k : Config) (s : Session) : Prop :=
  ∃ i j, i ≤ 2 ∧ j ≤ (k.servers i).sendBuffer.length ∧
    s = { client := k.clients j, server := k.servers i, atServer := i, atClient := j }

theorem Config.clients_buffer (j : Nat) : (k.clients j).sendBuffer = k.client0.sendBuffer := by
  unfold clients; split <;> rfl

theorem Config.servers_buffer (i : Nat) : (k.servers i).sendBuffer <+: k.server2.sendBuffer := by
  unfold servers; split
  · simp [server, newServer]
  · exact ⟨_, rfl⟩
  · exact List.prefix_refl _

theorem Config.Ok.during (hk : k.Ok) {s : Session} (h : k.During s) {op : SessionOp}
    (hop : op.IsDelivery) : k.During (s.step op).1 ∧ ∃ r, (s.step op).2 = .ok r := by
  obtain ⟨i, j, hi, hj, rfl⟩ := h
  have hlen : (k.servers i).sendBuffer.length ≤ 3 := (k.servers_buffer i).length_le
  cases op <;> simp only [SessionOp.IsDelivery] at hop
  · simp only [Session.step, clients_buffer]
    split
    · exact ⟨⟨i, j, hi, hj, rfl⟩, _, rfl⟩
    · rename_i m hm
      rcases i with _ | _ | i
      · simp only [servers, serverStep1 hm]
        refine ⟨⟨1, j, by omega, ?_, rfl⟩, _, rfl⟩
        simp [servers, server, newServer] at hj; omega
      · simp only [servers, hk.serverStep2 hm]
        refine ⟨⟨2, j, by omega, ?_, rfl⟩, _, rfl⟩
        simp only [servers, server1, server2, List.length_cons, List.length_nil] at hj ⊢; omega
      · have : k.client0.sendBuffer[i + 1 + 1]? = none := by
          simp [client0]
        rw [this] at hm; cases hm
  · simp only [Session.step]
    split
    · exact ⟨⟨i, j, hi, hj, rfl⟩, _, rfl⟩
    · rename_i m hm
      have hjl := (List.getElem?_eq_some_iff.mp hm).1
      have hm' : k.server2.sendBuffer[j]? = some m := by
        obtain ⟨t, ht⟩ := k.servers_buffer i
        rw [← ht, List.getElem?_append_left hjl, hm]
      simp only [hk.clientStep j (by omega) hm']
      exact ⟨⟨i, j + 1, hi, hjl, rfl⟩, _, rfl⟩

theorem Config.Ok.during_run (hk : k.Ok) {s : Session} (h : k.During s) (ds : List SessionOp)
    (hd : ∀ d ∈ ds, d.IsDelivery) :
    k.During (s.run ds).1 ∧ ∀ e ∈ (s.run ds).2, ∃ r, e.2 = .ok r := by
  induction ds generalizing s with
  | nil => exact ⟨h, by simp [run]⟩
  | cons d ds ih =>
    obtain ⟨h1, h2⟩ := hk.during h (hd d (by simp))
    obtain ⟨h3, h4⟩ := ih h1 fun d' hd' => hd d' (by simp [hd'])
    refine ⟨h3, fun e he => ?_⟩
    simp only [run, List.mem_cons] at he
    rcases he with rfl | he
    · exact h2
    · exact h4 e he

end Session
end Verif
