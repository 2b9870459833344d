import Verif.Proof.Keys
import Verif.Props.Session

/-! # C20: the key exchange -/

namespace Verif
open Pool Session

/-- C20: a client that does not build key messages itself queues at most one public key in its
life. -/
theorem C20_client (p : Pool) (hp : FreshClient p) (ops : List ClientOp)
    (hr : ∀ op ∈ ops, op.NotRaw [.PublicKey]) :
    (ofType .PublicKey (runClient p ops).1.sendBuffer).length ≤ 1 :=
  Nat.le_trans (Nat.le_of_eq (oneKey_run hp ops hr)) (Bool.toNat_le _)

/-- C20: a server that does not build key messages itself queues at most one key request in its
life. -/
theorem C20_server (p : Pool) (hp : FreshServer p) (ops : List ServerOp)
    (hr : ∀ op ∈ ops, op.NotRaw [.PublicKeyRequest]) :
    (ofType .PublicKeyRequest (runServer p ops).1.sendBuffer).length ≤ 1 :=
  Nat.le_trans (oneAsk_run hp ops hr) (Bool.toNat_le _)

/-- C20: the cipher of a client changes only by receiving a session key, and becomes that key. -/
theorem C20_cipher_step (p : Pool) (op : ClientOp)
    (hc : (op.step p).1.cipher ≠ p.cipher) :
    ∃ m k s, op = .recv m ∧ m.type = .EncryptedSessionKey ∧
      m.content = some (.msg (.encryptedSessionKey k s)) ∧ (op.step p).1.cipher = some s := by
  have : CipherFrom p op (op.step p).1 := keeps_client (cipher_client p op) (fun _ _ _ => trivial)
    (fun b _ => by cases b <;> simp [RawAllowed]) (fun _ _ _ _ _ _ _ => trivial) (Or.inl rfl)
  exact this.resolve_left hc

/-- C20: a client that can encrypt received the key it uses, made for its own key pair. -/
theorem C20_cipher (p : Pool) (hp : FreshClient p) (ops : List ClientOp) (s : Nat)
    (hc : (runClient p ops).1.cipher = some s) :
    ∃ m, ClientOp.recv m ∈ ops ∧ m.type = .EncryptedSessionKey ∧
      m.content = some (.msg (.encryptedSessionKey p.keyPair s)) := by
  have : Held ops p.keyPair (runClient p ops).1 := by
    refine run_keeps_client ops (fun op ho => held_client ops p.keyPair op ho) (fun _ _ _ _ _ => trivial)
      (fun _ _ b _ => by cases b <;> simp [RawAllowed]) ?_ ?_
    · obtain ⟨_, _, _, _, _, _, _, _, rfl⟩ := hp
      intro q hq; simp [newClient] at hq
    · obtain ⟨_, _, _, _, _, _, _, _, rfl⟩ := hp
      exact ⟨rfl, Or.inl rfl, Or.inl rfl⟩
  rcases this.2.2 with h | ⟨m, s', h1, h2, h3, h4⟩
  · rw [h] at hc; cases hc
  · rw [h4] at hc; cases hc; exact ⟨m, h1, h2, h3⟩

/-- C20: in a session of a client and a server, a client that can encrypt uses the key the server
uses, whatever happened. -/
theorem C20_same_key (c : Config) (ops : List SessionOp) (ha : ∀ op ∈ ops, op.IsApi)
    (s : Session) (hs : s = (c.session.run ops).1) :
    s.server.cipher = some c.sessionKey ∧
    (s.client.cipher = none ∨ s.client.cipher = s.server.cipher) := by
  subst hs
  have g := (keys_config c).run ops ha
  exact ⟨g.scipher, by rw [g.scipher]; exact g.held⟩

/-- C20: once the client sent its public key and nothing is in flight, both can encrypt, with the
same key. -/
theorem C20_complete (c : Config) (ops : List SessionOp) (ha : ∀ op ∈ ops, op.IsApi)
    (s : Session) (hs : s = (c.session.run ops).1) (hd : s.Drained)
    (hk : ofType .PublicKey s.client.sendBuffer ≠ []) :
    s.client.cipher = some c.sessionKey ∧ s.server.cipher = some c.sessionKey := by
  subst hs
  have g := (keys_config c).run ops ha
  generalize (c.session.run ops).1 = s at *
  obtain ⟨m, hm⟩ := List.exists_mem_of_ne_nil _ hk
  simp only [ofType, List.mem_filter, decide_eq_true_eq] at hm
  refine ⟨?_, g.scipher⟩
  rcases g.coming (g.sent m hm.1 hm.2) with h | ⟨x, hx, _⟩ | ⟨x, hx, _⟩
  · exact h
  · simp [Session.toServer, hd.1] at hx
  · simp [Session.toClient, hd.2] at hx

/-- The exchange asked for by both sides at once. -/
def exampleKeyOps : List SessionOp :=
  [.client .open_, .toServer, .toClient, .toServer, .toClient, .toClient] ++
  [.client .exchangeKey, .server .requestKey, .client .exchangeKey, .toClient, .toServer, .toClient,
   .server .requestKey]

example : ∀ op ∈ exampleKeyOps, op.IsApi := by simp [exampleKeyOps, SessionOp.IsApi]
example : (exampleConfig.session.run exampleKeyOps).1.Drained ∧
    ofType .PublicKey (exampleConfig.session.run exampleKeyOps).1.client.sendBuffer ≠ [] := by
  constructor
  · unfold Drained; decide +kernel
  · decide +kernel
example : (runClient exampleConfig.client [.open_, .recv (exampleMsg .RunspacePoolState (.runspacePoolState .Opened none)),
    .exchangeKey, .exchangeKey, .recv (exampleMsg .EncryptedSessionKey
      (.encryptedSessionKey exampleConfig.keyPair 7))]).1.cipher = some 7 := by decide +kernel

end Verif
