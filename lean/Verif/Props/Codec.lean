import Verif.Proof.Codec
import Verif.Props.ByteSession

/-!
# C78: sessions with the real serializer

Specifications: `Verif/Spec/Codec.lean`.
-/

namespace Verif
open Pool Session

/-- **C78** A message of a session is written by the serializer and read back as the same message. -/
theorem C78_message_partial (E : TextEnv) (hE : ExtendsAscii E.uni) (L : Lib) (std : L.Standard) (hL : L.NoObject) (n m : Nat) (hnm : n < m)
    (N : Naming) (S : Store) (x : Msg) (hx : x.Fine E L n N S) :
    readData E L m N x.type (S.write E n x) = x.content :=
  (fine_sendable hE std hL hnm hx).back

/-- **C78** Two pools that exchange the bytes of the serializer, cut, held back and passed on in any way, behave as if whole
messages arrived one by one in the order they were prepared, provided that all messages that were prepared are fine. Missing:
other messages (`C71` and `C72` have those that do not come back), and the reconnecting server of `C73_reconnect_violated`. -/
theorem C78_session_partial (E : TextEnv) (hE : ExtendsAscii E.uni) (L : Lib) (std : L.Standard) (hL : L.NoObject) (n m : Nat) (hnm : n < m)
    (N : Naming) (S : Store) (s0 : Session) (h0 : s0.Drained) (ops : List ByteOp) (hops : ∀ op ∈ ops, op.IsCall)
    (b : ByteSession) (hist : List (ByteOp × Option (Except Err Ret)))
    (hb : (b, hist) = (ByteSession.of s0).run (S.codec E L n m N) ops)
    (hf : ∀ x, x ∈ b.client.pool.sendBuffer ∨ x ∈ b.server.pool.sendBuffer → x.Fine E L n N S)
    (hc : (ByteSession.of s0).Calm (S.codec E L n m N) ops) :
    ∃ s, s0.run ((observed hist).map Prod.fst) = (s, observed hist) ∧ s.client = b.client.pool ∧ SeenAs s.server b.server.pool := by
  have e1 : b = ((ByteSession.of s0).run (S.codec E L n m N) ops).1 := by rw [← hb]
  have e2 : hist = ((ByteSession.of s0).run (S.codec E L n m N) ops).2 := by rw [← hb]
  rw [e1] at hf ⊢
  rw [e2]
  exact C73_session_partial _ s0 h0 ops hops
    ⟨fun x hx => fine_sendable hE std hL hnm (hf x (.inl hx)), fun x hx => fine_sendable hE std hL hnm (hf x (.inr hx))⟩ hc

/-- **C78** The same from what the calls prepare: if in every session of whole messages with these calls all messages are fine, the
session over bytes is one of them. -/
theorem C78_calls_partial (E : TextEnv) (hE : ExtendsAscii E.uni) (L : Lib) (std : L.Standard) (hL : L.NoObject) (n m : Nat) (hnm : n < m)
    (N : Naming) (S : Store) (s0 : Session) (h0 : s0.Drained) (ops : List ByteOp) (hops : ∀ op ∈ ops, op.IsCall)
    (b : ByteSession) (hist : List (ByteOp × Option (Except Err Ret)))
    (hb : (b, hist) = (ByteSession.of s0).run (S.codec E L n m N) ops)
    (hp : s0.Prepares (Msg.Fine E L n N S) (ByteOp.calls ops))
    (hc : (ByteSession.of s0).Calm (S.codec E L n m N) ops) :
    ∃ s, s0.run ((observed hist).map Prod.fst) = (s, observed hist) ∧ s.client = b.client.pool ∧ SeenAs s.server b.server.pool := by
  have e1 : b = ((ByteSession.of s0).run (S.codec E L n m N) ops).1 := by rw [← hb]
  have e2 : hist = ((ByteSession.of s0).run (S.codec E L n m N) ops).2 := by rw [← hb]
  rw [e1, e2]
  exact C73_session_partial _ s0 h0 ops hops
    (prepares_sendable (tracks_of _ h0) ops hops hc fun sops hs x hx => fine_sendable hE std hL hnm (hp sops hs x hx)) hc

/-- The messages of a handshake are those of the configuration. -/
theorem handshake_prepares {P : Msg → Prop} {k : Config} (hk : k.Ok) (hm : ∀ x ∈ k.messages, P x) :
    k.session.Prepares P [.client .open_] := by
  have h0 : (k.session.step (.client .open_)).1 =
      { client := k.clients 0, server := k.servers 0, atServer := 0, atClient := 0 } := by
    simp only [Session.step, Config.session, hk.opened]; rfl
  have key : ∀ ops, SessionOp.calls ops <+: [.client .open_] →
      (SessionOp.calls ops = [] ∧ (k.session.run ops).1 = k.session) ∨
      (SessionOp.calls ops = [.client .open_] ∧ k.During (k.session.run ops).1) := by
    intro ops
    induction ops using snoc_induction with
    | h0 => exact fun _ => .inl ⟨rfl, rfl⟩
    | h1 ops op ih =>
      intro hp
      rw [sessionCalls_append] at hp
      have hpre : SessionOp.calls ops <+: [.client .open_] := (List.prefix_append _ _).trans hp
      rw [Session.run_snoc, sessionCalls_append]
      rcases ih hpre with ⟨h1, h2⟩ | ⟨h1, h2⟩
      · rw [h1, List.nil_append] at hp
        rw [h1, h2, List.nil_append]
        cases op with
        | toServer => exact .inl ⟨rfl, rfl⟩
        | toClient => exact .inl ⟨rfl, rfl⟩
        | client op =>
          have : op = .open_ := by
            simp only [SessionOp.calls] at hp
            obtain ⟨t, ht⟩ := hp
            cases ht
            rfl
          subst this
          exact .inr ⟨rfl, by rw [h0]; exact ⟨0, 0, by omega, by omega, rfl⟩⟩
        | server op =>
          simp only [SessionOp.calls] at hp
          obtain ⟨t, ht⟩ := hp
          cases ht
      · rw [h1] at hp ⊢
        have hnil : SessionOp.calls [op] = [] := by
          have := hp.length_le
          simp only [List.length_append, List.length_cons, List.length_nil] at this
          exact List.length_eq_zero_iff.mp (by omega)
        have hd : op.IsDelivery := by
          cases op <;> first | trivial | (simp [SessionOp.calls] at hnil)
        rw [hnil]
        exact .inr ⟨rfl, (hk.during h2 hd).1⟩
  intro ops hp x hx
  rcases key ops hp with ⟨-, h⟩ | ⟨-, i, j, -, -, h⟩
  · rw [h] at hx
    simp [Config.session, Config.client, Config.server, newClient, newServer] at hx
  · rw [h] at hx
    simp only [Config.clients_buffer] at hx
    rcases hx with hx | hx
    · refine hm x ?_
      simp only [Config.client0, Config.initBody, List.mem_cons, List.not_mem_nil, or_false] at hx
      simp only [Config.messages, List.mem_cons]
      rcases hx with rfl | rfl <;> simp
    · have hx := (k.servers_buffer i).subset hx
      refine hm x ?_
      simp only [Config.server2, List.mem_cons, List.not_mem_nil, or_false] at hx
      simp only [Config.messages, List.mem_cons]
      rcases hx with rfl | rfl | rfl <;> simp

/-- **C78** The handshake with the real serializer: after `open`, whatever the sizes of the payloads and the order of the steps, once
everything was sent and read both sides are opened and know each other. The only conditions are on the configuration. -/
theorem C78_handshake (E : TextEnv) (hE : ExtendsAscii E.uni) (L : Lib) (std : L.Standard) (hL : L.NoObject) (n m : Nat) (hnm : n < m)
    (N : Naming) (S : Store) (k : Config) (hk : k.Ok) (hm : ∀ x ∈ k.messages, x.Fine E L n N S)
    (ops : List ByteOp) (hops : ∀ op ∈ ops, op.IsTransport)
    (b : ByteSession) (hb : b = ((ByteSession.of k.session).run (S.codec E L n m N) (.client .open_ :: ops)).1)
    (hq : b.Quiet (S.codec E L n m N)) :
    b.client.pool.state = .Opened ∧ b.server.pool.state = .Opened ∧
    b.server.pool.rpid = k.rpid ∧ b.server.pool.minR = k.min ∧ b.server.pool.maxR = k.max ∧
    b.server.pool.host = some (k.host.getD defaultHost) ∧ b.server.pool.appArgs = k.args ∧
    b.client.pool.appPrivate = k.privateData ∧
    b.client.pool.theirs = some b.server.pool.ours ∧ b.server.pool.theirs = some b.client.pool.ours := by
  have hcall : ∀ op ∈ (ByteOp.client .open_ :: ops), op.IsCall := by
    intro op ho
    rcases List.mem_cons.mp ho with rfl | ho
    · trivial
    · exact isTransport_call (hops op ho)
  have hcalm : (ByteSession.of k.session).Calm (S.codec E L n m N) (.client .open_ :: ops) := by
    intro before after he
    have hm : ByteOp.server .connect ∈ (ByteOp.client .open_ :: ops) := by rw [he]; simp
    rcases List.mem_cons.mp hm with h | h
    · cases h
    · exact absurd (hops _ h) id
  have hcalls : ∀ l : List ByteOp, (∀ op ∈ l, op.IsTransport) → ByteOp.calls l = [] := by
    intro l
    induction l with
    | nil => exact fun _ => rfl
    | cons x l ih =>
      intro h
      have hx := h x (by simp)
      have := ih fun o ho => h o (by simp [ho])
      cases x <;> first | exact this | exact hx.elim
  refine C73_handshake _ k hk ops hops b hb ?_ hq
  rw [hb]
  refine prepares_sendable (tracks_of _ (s := k.session) ⟨rfl, rfl⟩) _ hcall hcalm ?_
  have : ByteOp.calls (.client .open_ :: ops) = [.client .open_] := by
    show SessionOp.client .open_ :: ByteOp.calls ops = _
    rw [hcalls ops hops]
  rw [this]
  exact handshake_prepares hk fun x hx => fine_sendable hE std hL hnm (hm x hx)

/-- **C78** The limits with the real serializer: in an open session, whatever is called on either side and however the bytes
travel, when everything was sent and read both sides report the same limits. Missing: see `C78_session_partial`. -/
theorem C78_limits_partial (E : TextEnv) (hE : ExtendsAscii E.uni) (L : Lib) (std : L.Standard) (hL : L.NoObject) (n m : Nat) (hnm : n < m)
    (N : Naming) (S : Store) (s0 : Session) (h0 : OpenSession s0) (ops : List ByteOp) (hops : ∀ op ∈ ops, op.IsApi)
    (b : ByteSession) (hb : b = ((ByteSession.of s0).run (S.codec E L n m N) ops).1)
    (hf : ∀ x, x ∈ b.client.pool.sendBuffer ∨ x ∈ b.server.pool.sendBuffer → x.Fine E L n N S)
    (hc : (ByteSession.of s0).Calm (S.codec E L n m N) ops) (hq : b.Quiet (S.codec E L n m N)) :
    b.client.pool.limits = b.server.pool.limits :=
  C73_limits_partial _ s0 h0 ops hops b hb
    ⟨fun x hx => fine_sendable hE std hL hnm (hf x (.inl hx)), fun x hx => fine_sendable hE std hL hnm (hf x (.inr hx))⟩ hc hq

/-! ## An example -/

/-- Host information, application arguments, the two enum members, private data, and a method of the host. -/
def sessionHeap : Heap
  | 0 => { key := some 0, types := [txt! "My.Host", txt! "System.Object"],
           extended := [(txt! "_isHostNull", .bool true), (txt! "_colors", .ref 1)] }
  | 1 => { data := .dict [], types := [txt! "System.Collections.Hashtable", txt! "System.Object"] }
  | 2 => { key := some 1, data := .enum (.int .psInt 2), toStr := some (txt! "Unknown"),
           types := [txt! "System.Threading.ApartmentState", txt! "System.Enum", txt! "System.ValueType", txt! "System.Object"] }
  | 3 => { key := some 2, data := .enum (.int .psInt 3), toStr := some (txt! "UseCurrentThread"),
           types := [txt! "System.Management.Automation.Runspaces.PSThreadOptions", txt! "System.Enum", txt! "System.ValueType",
             txt! "System.Object"] }
  | _ => { data := .dict [(.prim (.str .string (txt! "k")), .ref 1)],
           types := [txt! "System.Collections.Hashtable", txt! "System.Object"] }

/-- The objects of `exampleConfig`; events have the number as their id. -/
def exampleStore : Store where
  heap := sessionHeap
  addr := 100
  key := 100
  value := fun v => if v.tag = 4 then .ref 0 else if v.tag = 1 then .ref 1 else .ref 4
  letter := fun v => .userEvent (some v.tag) (some (txt! "src")) none .nil (.ref 1) (.ref 4) none none
  threadOptions := fun _ => .ref 3
  apartment := fun _ => .ref 2
  method := fun _ => .nil
  publicKey := fun _ => []
  sessionKey := fun _ _ => []

/-- The value with this data. -/
def dataName : Option DData → Val
  | some .none => { tag := 4 }
  | some (.dict []) => { tag := 1 }
  | _ => { tag := 7 }

/-- What is received is told apart by its data, events by their id. -/
def exampleNaming : Naming where
  value := fun s d =>
    match d with
    | .ref b => dataName ((s.heap[b]?).map (·.data))
    | _ => { tag := 0 }
  params := fun _ _ => { tag := 0 }
  event := fun _ e =>
    match e with
    | .userEvent (.prim (.int _ i)) .. => { tag := i.toNat }
    | _ => { tag := 0 }
  publicKey := fun _ => 0
  sessionKey := fun _ => (0, 0)

theorem example_values : ∀ t ∈ [1, 4, 7], exampleNaming.KnowsValue library exampleStore { tag := t } := by
  intro t ht
  have key : ∀ (a : Nat) (v : Val), exampleStore.value v = .ref a → a ≠ 100 →
      (∀ φ d, DataMatch φ (sessionHeap a).data d → dataName (some d) = v) →
      exampleNaming.KnowsValue library exampleStore v := by
    intro a v hv ha h
    refine ⟨by rw [hv]; exact nofun, fun φ s d st m => ?_⟩
    rw [hv] at m
    obtain ⟨b, rfl, hb⟩ := m
    obtain ⟨o, ho, om⟩ := st b a hb ha
    have hd := om.data
    rw [shown_data] at hd
    have := h φ o.data hd
    simp only [exampleNaming, ho, Option.map_some]
    exact this
  simp only [List.mem_cons, List.not_mem_nil, or_false] at ht
  rcases ht with rfl | rfl | rfl
  · refine key 1 _ rfl (by decide) fun φ d h => ?_
    obtain ⟨l, rfl, h⟩ := h
    cases h
    rfl
  · refine key 0 _ rfl (by decide) fun φ d h => ?_
    cases h
    rfl
  · refine key 4 _ rfl (by decide) fun φ d h => ?_
    obtain ⟨l, rfl, h⟩ := h
    cases h
    rfl

theorem example_letter (t : Nat) : exampleNaming.KnowsLetter library exampleStore { tag := t } := by
  intro φ s e _ h
  cases e <;> first | exact h.elim | skip
  obtain ⟨h, _⟩ := h
  simp only [ShowsInt?] at h
  subst h
  rfl

/-- Everything the two sides prepare in the example. -/
def exampleMessages : List Msg :=
  exampleConfig.messages ++
  [{ type := .SetMaxRunspaces, content := some (.msg (.setMaxRunspaces 9 1)), rpid := exampleConfig.rpid, pid := none, oid := 3 },
   { type := .UserEvent, content := some (.msg (.userEvent { tag := 20 })), rpid := exampleConfig.rpid, pid := none, oid := 4 },
   { type := .RunspaceAvailability, content := some (.msg (.runspaceAvailability (.bool true) 1)), rpid := exampleConfig.rpid, pid := none,
     oid := 5 }]

/-- The size of the data of a message. -/
def messageSize (S : Store) (x : Msg) : Option Nat :=
  match x.content with
  | none => none
  | some o =>
    match (o.letter S x.type).shape with
    | .error _ => none
    | .ok sh =>
      match messageData plainEnv 12 x.type (sh.outgoing S.heap S.addr S.key) with
      | .error _ => none
      | .ok q => some q.2.length

theorem example_checks : ∀ x ∈ exampleMessages, x.oid < 10 ∧ (match x.content with
    | none => false
    | some o => graphCheck library sessionHeap (o.letter exampleStore x.type).objects [0, 1, 2, 3, 4] &&
        graphXmlB sessionHeap (o.letter exampleStore x.type).objects [0, 1, 2, 3, 4] &&
        within [0, 1, 2, 3, 4] (o.letter exampleStore x.type).objects &&
        ((o.letter exampleStore x.type).numbers.all fun q => decide (q.1.minValue ≤ q.2 ∧ q.2 ≤ q.1.maxValue)) &&
        decide ((o.letter exampleStore x.type).type = x.type) &&
        (match messageSize exampleStore x with | none => false | some k => decide (k < 10000)) &&
        (match o with | .msg b => decide (x.type = b.type) | .val _ => false)) = true := by
  decide +kernel

theorem example_known {x : Msg} (hx : x ∈ exampleMessages) : ∀ o, x.content = some o → o.Known library exampleStore exampleNaming x.type := by
  intro o ho
  simp only [exampleMessages, Config.messages, List.cons_append, List.nil_append, List.mem_cons, List.not_mem_nil, or_false] at hx
  have v := example_values
  rcases hx with rfl | rfl | rfl | rfl | rfl | rfl | rfl | rfl <;> cases ho <;> refine ⟨nofun, ?_⟩
  · trivial
  · exact ⟨⟨3, .psInt, rfl, rfl⟩, ⟨2, .psInt, rfl, rfl⟩, v 4 (by simp), v 1 (by simp)⟩
  · trivial
  · exact v 7 (by simp)
  · exact nofun
  · trivial
  · exact example_letter 20
  · trivial

theorem example_fields {x : Msg} (hx : x ∈ exampleMessages) : ∀ o, x.content = some o →
    (o.letter exampleStore x.type).FieldsOk plainEnv sessionHeap := by
  intro o ho
  simp only [exampleMessages, Config.messages, List.cons_append, List.nil_append, List.mem_cons, List.not_mem_nil, or_false] at hx
  have hv : ∀ v ∈ [ourCapability.psVersion, ourCapability.protocolVersion, ourCapability.serializationVersion],
      (Prim.version v).Ok plainEnv := by
    intro v hv
    simp only [List.mem_cons, List.not_mem_nil, or_false] at hv
    rcases hv with rfl | rfl | rfl <;> simp [Prim.Ok, PSVersion.WellFormed, ourCapability, Pwsh5]
  rcases hx with rfl | rfl | rfl | rfl | rfl | rfl | rfl | rfl <;> cases ho
  · exact hv
  · trivial
  · exact hv
  · trivial
  · trivial
  · trivial
  · refine ⟨?_, nofun, nofun⟩
    intro t ht
    simp only [List.mem_cons, Option.some.injEq, List.not_mem_nil, or_false, reduceCtorEq] at ht
    subst ht
    exact ⟨lowText_ok (by decide), escapable_ascii fun c hc => by
      have : ∀ c ∈ (txt! "src" : PyStr), 32 ≤ c ∧ c ≤ 126 := by decide
      exact this c hc⟩
  · trivial

theorem example_fine : ∀ x ∈ exampleMessages, x.Fine plainEnv library 12 exampleNaming exampleStore := by
  intro x hx
  obtain ⟨h1, h2⟩ := example_checks x hx
  have hk := example_known hx
  have hf := example_fields hx
  cases hc : x.content with
  | none => rw [hc] at h2; cases h2
  | some o =>
    rw [hc] at h2
    simp only [Bool.and_eq_true, decide_eq_true_eq] at h2
    obtain ⟨⟨⟨⟨⟨⟨c1, c2⟩, c3⟩, c4⟩, c5⟩, c6⟩, c7⟩ := h2
    have reach : ∀ b, Reach sessionHeap (o.letter exampleStore x.type).objects b → b ∈ [0, 1, 2, 3, 4] := fun b hb =>
      reach_within c3 (by decide +kernel) hb
    have all : ∀ b ∈ [0, 1, 2, 3, 4], b ≠ 100 ∧ (sessionHeap b).key ≠ some 100 ∧
        (sessionHeap b).types.head? ≠ some (txt! "System.Object") := by
      decide +kernel
    have some_eq : ∀ {o'}, some o = some o' → o' = o := fun e => (Option.some.inj e).symm
    refine ⟨by omega, (by rw [hc]; exact nofun), ?_, ?_, ?_, hk, ?_⟩
    · intro b hb
      rw [hc] at hb
      cases hb
      exact of_decide_eq_true c7
    · intro o' ho
      rw [hc] at ho
      rw [some_eq ho]
      exact c5
    · intro o' ho
      rw [hc] at ho
      rw [some_eq ho]
      exact {
        graph := graphCheck_ok plainEnv c1
        xml := graphXmlB_ok plainEnv c2
        numbers := fun q hq => (IntKind.inRange_iff _ _).mpr (of_decide_eq_true (List.all_eq_true.mp c4 q hq))
        fields := hf o hc
        addr := fun b hb => (all b (reach b hb)).1
        key := fun b hb => (all b (reach b hb)).2.1
        types := fun b hb h => absurd h (all b (reach b hb)).2.2
        pid := nofun }
    · intro o' sh ho hs
      rw [hc] at ho
      rw [some_eq ho] at hs
      unfold messageSize at c6
      rw [hc] at c6
      dsimp only at c6
      rw [hs] at c6
      dsimp only at c6
      cases hm : messageData plainEnv 12 x.type (sh.outgoing exampleStore.heap exampleStore.addr exampleStore.key) with
      | error e => rw [hm] at c6; cases c6
      | ok q =>
        rw [hm] at c6
        have := of_decide_eq_true c6
        exact ⟨q.1, q.2, rfl, by omega⟩

/-- The codec of the example. -/
abbrev realCodec : Codec := exampleStore.codec plainEnv library 12 13 exampleNaming

/-- All bytes to the server in portions of 500, read. -/
def upReal : List ByteOp := List.replicate 8 (.clientSends (some 500)) ++ List.replicate 8 .serverGets ++ List.replicate 3 .serverNext

/-- All bytes to the client in portions of 500, read. -/
def downReal : List ByteOp := List.replicate 8 (.serverSends (some 500)) ++ List.replicate 8 .clientGets ++ List.replicate 4 .clientNext

theorem real_quiet :
    ((ByteSession.of exampleConfig.session).run realCodec (.client .open_ :: (upReal ++ downReal))).1.Quiet realCodec := by
  decide +kernel

/-- Beside `C78_handshake`: the pools of `exampleConfig` with objects, dictionaries and enums. -/
example (b : ByteSession)
    (hb : b = ((ByteSession.of exampleConfig.session).run realCodec (.client .open_ :: (upReal ++ downReal))).1) :
    b.server.pool.host = some (exampleConfig.host.getD defaultHost) ∧ b.server.pool.appArgs = exampleConfig.args ∧
    b.client.pool.appPrivate = exampleConfig.privateData := by
  have h := C78_handshake plainEnv (fun _ _ => rfl) library library_standard library_noObject 12 13 (by decide) exampleNaming exampleStore
    exampleConfig (by constructor <;> decide) (fun x hx => example_fine x (List.mem_append_left _ hx)) (upReal ++ downReal)
    (by simp [upReal, downReal, ByteOp.IsTransport]) b hb (by rw [hb]; exact real_quiet)
  exact ⟨h.2.2.2.2.2.1, h.2.2.2.2.2.2.1, h.2.2.2.2.2.2.2.1⟩

/-- A change of the limits that is granted, and an event. -/
def realBytes : List ByteOp :=
  [.client (.setMaxRunspaces 9), .server (.sendEvent { tag := 20 })] ++ upReal ++
  [.server (.availabilityResponse 1 (.bool true))] ++ downReal

theorem real_limits :
    ((ByteSession.of exampleOpen).run realCodec realBytes).1.Quiet realCodec ∧
    (∀ x ∈ ((ByteSession.of exampleOpen).run realCodec realBytes).1.client.pool.sendBuffer, x ∈ exampleMessages) ∧
    (∀ x ∈ ((ByteSession.of exampleOpen).run realCodec realBytes).1.server.pool.sendBuffer, x ∈ exampleMessages) ∧
    ((ByteSession.of exampleOpen).run realCodec realBytes).1.client.pool.limits = (1, 9) ∧
    (observed ((ByteSession.of exampleOpen).run realCodec realBytes).2).length = 6 := by
  decide +kernel

/-- Beside `C78_session_partial` and `C78_limits_partial`: all their conditions hold. -/
example : (∀ op ∈ realBytes, op.IsApi ∧ op.IsCall) ∧ (ByteSession.of exampleOpen).Calm realCodec realBytes ∧
    (∀ x, x ∈ ((ByteSession.of exampleOpen).run realCodec realBytes).1.client.pool.sendBuffer ∨
      x ∈ ((ByteSession.of exampleOpen).run realCodec realBytes).1.server.pool.sendBuffer →
        x.Fine plainEnv library 12 exampleNaming exampleStore) ∧
    ((ByteSession.of exampleOpen).run realCodec realBytes).1.Quiet realCodec := by
  refine ⟨?_, ?_, ?_, real_limits.1⟩
  · simp [realBytes, upReal, downReal, ByteOp.IsApi, ByteOp.IsCall, SessionOp.IsApi]
  · intro before after h
    have : ByteOp.server .connect ∈ realBytes := by rw [h]; simp
    simp [realBytes, upReal, downReal] at this
  · intro x hx
    rcases hx with hx | hx
    · exact example_fine x (real_limits.2.1 x hx)
    · exact example_fine x (real_limits.2.2.1 x hx)

/-- Beside `C78_calls_partial`: the calls of the handshake. -/
example : exampleConfig.session.Prepares (Msg.Fine plainEnv library 12 exampleNaming exampleStore)
    (ByteOp.calls (.client .open_ :: (upReal ++ downReal))) :=
  handshake_prepares (by constructor <;> decide) fun x hx => example_fine x (List.mem_append_left _ hx)

end Verif
