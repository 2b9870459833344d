import Verif.Spec.Codec
import Verif.Proof.ByteSession
import Verif.Props.Events

/-! # Fine messages are sendable -/

namespace Verif

theorem number_enum {L : Lib} {S : Store} {φ : Nat → Option Nat} {s : DState} (st : Stands L S φ s) {v : PVal} {n : Int}
    (hv : IsEnum S.heap v n) (ha : v ≠ .ref S.addr) {d : DVal} (m : VMatch φ v d) : s.number d = some n := by
  obtain ⟨a, k, rfl, hd⟩ := hv
  obtain ⟨b, rfl, hb⟩ := m
  obtain ⟨o, ho, om⟩ := st b a hb (fun e => ha (by rw [e]))
  have h := om.data
  rw [hd, shown_data] at h
  have h' : o.data = .prim (.int k n) := h
  unfold DState.number
  dsimp only
  rw [ho]
  obtain ⟨_, _, _, _, _, _⟩ := o
  simp only at h'
  subst h'
  rfl

theorem member_enum {L : Lib} {S : Store} {φ : Nat → Option Nat} {s : DState} (st : Stands L S φ s) {v : PVal} {n : Nat}
    (hv : IsEnum S.heap v n) (ha : v ≠ .ref S.addr) {d : DVal} (m : VMatch φ v d) : s.member d = some n := by
  unfold DState.member
  rw [number_enum st hv ha m]
  simp

theorem method_of (mi : HostMethod) : HostMethod.ofNumber mi.value = some mi := by cases mi <;> decide +kernel

theorem nil_match {φ : Nat → Option Nat} {v : PVal} (h : VMatch φ v .nil) : v = .nil := by
  cases v with
  | nil => rfl
  | bool b => cases h
  | prim p => cases h
  | ref a => obtain ⟨_, h, _⟩ := h; cases h

theorem option_known {L : Lib} {S : Store} {N : Naming} {φ : Nat → Option Nat} {s : DState} (st : Stands L S φ s) {e : Option Val}
    (h : ∀ v, e = some v → N.KnowsValue L S v) {d : DVal} (m : VMatch φ (S.option e) d) : N.option s d = e := by
  unfold Naming.option
  cases e with
  | none => rw [if_pos (show d = .nil from m)]
  | some v =>
    obtain ⟨h1, h2⟩ := h v rfl
    rw [if_neg, h2 φ s d st m]
    rintro rfl
    exact h1 (nil_match m)

theorem showsInt?_limit {v : Option Int} {d : DVal} (h : ShowsInt? .psInt v d) : d.limit = some v := by
  cases v <;> cases h <;> rfl

set_option maxHeartbeats 2000000 in
/-- The state machines get what was sent. -/
theorem body_back {L : Lib} {S : Store} {N : Naming} {φ : Nat → Option Nat} {s : DState} (st : Stands L S φ s) {b : Body}
    (hb : b ≠ .endOfPipelineInput) (ht : (b.letter S).type = b.type) (hk : b.Known L S N)
    (fresh : ∀ a, PVal.ref a ∈ (b.letter S).objects → a ≠ S.addr) {e : EventView} (h : Shows φ S.heap (b.letter S) e) :
    e.obj N s = some (.msg b) := by
  have away : ∀ v ∈ (b.letter S).objects, v ≠ .ref S.addr := fun v hv e => fresh S.addr (e ▸ hv) rfl
  cases b
  case endOfPipelineInput => exact absurd rfl hb
  case createPipeline v =>
    have hv := hk φ s e st h
    simp only [Body.letter] at h ht
    generalize S.letter v = l at h ht
    cases l <;> first | cases ht | skip
    · cases e <;> first | exact h.elim | (simp only [EventView.obj]; rw [hv])
    · rename_i k _; cases k <;> cases ht
  case userEvent v =>
    have hv := hk φ s e st h
    simp only [Body.letter] at h ht
    generalize S.letter v = l at h ht
    cases l <;> first | cases ht | skip
    · cases e <;> first | exact h.elim | (simp only [EventView.obj]; rw [hv])
    · rename_i k _; cases k <;> cases ht
  case getCommandMetadata v =>
    have hv := hk φ s e st h
    simp only [Body.letter] at h ht
    generalize S.letter v = l at h ht
    cases l <;> first | cases ht | skip
    · cases e <;> first | exact h.elim | (simp only [EventView.obj]; rw [hv])
    · rename_i k _; cases k <;> cases ht
  case runspaceAvailability r ci =>
    cases r <;> cases e <;> first | exact h.elim | skip
    · obtain ⟨rfl, rfl⟩ := h; rfl
    · obtain ⟨rfl, rfl⟩ := h; rfl
  all_goals cases e <;> first | exact h.elim | skip
  case sessionCapability => obtain ⟨rfl, rfl, rfl⟩ := h; rfl
  case initRunspacePool =>
    obtain ⟨rfl, rfl, h3, h4, h5, h6⟩ := h
    obtain ⟨k1, k2, k3, k4⟩ := hk
    simp only [Body.letter, Letter.objects] at away
    simp only [EventView.obj, DVal.theInt, member_enum st k1 (away _ (by simp)) h3, member_enum st k2 (away _ (by simp)) h4,
      k3.2 _ _ _ st h5, k4.2 _ _ _ st h6]
    rfl
  case publicKey k _ => cases h; simp only [EventView.obj]; rw [show N.publicKey (S.publicKey k) = k from hk]
  case encryptedSessionKey k q _ =>
    cases h
    simp only [EventView.obj]
    rw [show N.sessionKey (S.sessionKey k q) = (k, q) from hk]
  case publicKeyRequest => rfl
  case setMaxRunspaces => obtain ⟨rfl, rfl⟩ := h; rfl
  case setMinRunspaces => obtain ⟨rfl, rfl⟩ := h; rfl
  case runspacePoolState => obtain ⟨rfl, h⟩ := h; simp only [EventView.obj]; rw [option_known st hk h]
  case getAvailableRunspaces => cases h; rfl
  case applicationPrivateData => simp only [EventView.obj]; rw [hk.2 _ _ _ st h]
  case runspacePoolHostCall =>
    obtain ⟨rfl, h2, h3⟩ := h
    simp only [Body.letter, Letter.objects] at away
    simp only [EventView.obj, DVal.theInt, number_enum st hk.1 (away _ (by simp)) h2, hk.2 _ _ _ st h3]
    simp [method_of]
  case runspacePoolHostResponse =>
    obtain ⟨rfl, h2, h3, h4⟩ := h
    simp only [Body.letter, Letter.objects] at away
    simp only [EventView.obj, DVal.theInt, number_enum st hk.1 (away _ (by simp)) h2, option_known st hk.2.1 h3, option_known st hk.2.2 h4]
    simp [method_of]
  case pipelineState => obtain ⟨rfl, h⟩ := h; simp only [EventView.obj]; rw [option_known st hk h]
  case pipelineHostCall =>
    obtain ⟨rfl, h2, h3⟩ := h
    simp only [Body.letter, Letter.objects] at away
    simp only [EventView.obj, DVal.theInt, number_enum st hk.1 (away _ (by simp)) h2, hk.2 _ _ _ st h3]
    simp [method_of]
  case pipelineHostResponse =>
    obtain ⟨rfl, h2, h3, h4⟩ := h
    simp only [Body.letter, Letter.objects] at away
    simp only [EventView.obj, DVal.theInt, number_enum st hk.1 (away _ (by simp)) h2, option_known st hk.2.1 h3, option_known st hk.2.2 h4]
    simp [method_of]
  case connectRunspacePool =>
    obtain ⟨h1, h2⟩ := h
    simp only [EventView.obj, showsInt?_limit h1, showsInt?_limit h2]
    rfl
  case runspacePoolInitData => obtain ⟨rfl, rfl⟩ := h; rfl
  case resetRunspaceState => cases h; rfl

theorem value_back {L : Lib} {S : Store} {N : Naming} {φ : Nat → Option Nat} {s : DState} (st : Stands L S φ s) {v : Val} {t : MsgType}
    (ht : (Obj.letter S t (.val v)).type = t) (hk : (Obj.val v).Known L S N t) {e : EventView}
    (h : Shows φ S.heap (Obj.letter S t (.val v)) e) : e.obj N s = some (.val v) := by
  cases t <;> first | exact hk.elim | skip
  all_goals simp only [Obj.letter] at h ht
  all_goals simp only [Obj.Known] at hk
  case PipelineInput =>
    cases e <;> first | exact h.elim | (simp only [EventView.obj]; rw [hk.2 _ _ _ st h])
  case PipelineOutput =>
    cases e <;> first | exact h.elim | skip
    rename_i d
    have := option_known (e := some v) st (fun _ q => by cases q; exact hk) (d := d) h
    simp only [EventView.obj]
    rw [this]
    rfl
  case ProgressRecord =>
    have hv := hk φ s e st h
    generalize S.letter v = l at h ht
    cases l <;> first | cases ht | skip
    · cases e <;> first | exact h.elim | (simp only [EventView.obj]; rw [hv])
    · rename_i k _; cases k <;> cases ht
  case InformationRecord =>
    have hv := hk φ s e st h
    generalize S.letter v = l at h ht
    cases l <;> first | cases ht | skip
    · cases e <;> first | exact h.elim | (simp only [EventView.obj]; rw [hv])
    · rename_i k _; cases k <;> cases ht
  all_goals cases e <;> first | exact h.elim | (simp only [EventView.obj]; rw [hk.2 _ _ _ st h.2])

theorem clean_empty (L : Lib) : DState.Clean L { shared := [] } := fun c m e => by cases e

/-- A fine message is sendable. -/
theorem fine_sendable {E : TextEnv} (hE : ExtendsAscii E.uni) {L : Lib} (std : L.Standard) (hL : L.NoObject) {n m : Nat} (hnm : n < m)
    {N : Naming} {S : Store} {x : Msg} (h : x.Fine E L n N S) : (S.codec E L n m N).Sendable x := by
  cases hc : x.content with
  | none =>
    have hw : S.write E n x = [] := by unfold Store.write; rw [hc]
    have hr : ∀ t, t = MsgType.PipelineOutput ∨ t = .EndOfPipelineInput → readData E L m N t [] = none := by
      rintro _ (rfl | rfl) <;> rfl
    refine ⟨h.oid, ?_, ?_, ?_⟩
    · show (S.write E n x).length + 40 < _
      rw [hw]; decide
    · show ¬ _ <+: S.write E n x
      rw [hw]; simp
    · show readData E L m N x.type (S.write E n x) = x.content
      rw [hw, hc]
      exact hr _ (h.none hc)
  | some o =>
    have ok := h.ok o hc
    have ht := h.type o hc
    obtain ⟨sh, hs⟩ := (C72_made_exact (o.letter S x.type)).1.mpr ok.numbers
    obtain ⟨t, d, hd, hlen⟩ := h.size o sh hc hs
    have hw : S.write E n x = d := by unfold Store.write; rw [hc]; dsimp only; rw [hs]; dsimp only; rw [hd]
    have so := shape_sendable hL (p := S.post x.type o) ok hs
    have so : Sendable E L x.type (sh.outgoing S.heap S.addr S.key) := by rw [← ht]; exact so
    obtain ⟨rfl, i, hi, hsame, _⟩ := message_back hE std hnm so hd (clean_empty L)
      { destination := 0, messageType := t, rpid := EMPTY_UUID, pid := none, data := d } rfl rfl
    obtain ⟨e, φ, he, hsh, hst⟩ := event_back hL (p := S.post x.type o) ok hs hsame
    have he : readEvent L x.type i = .ok e := by rw [← ht]; exact he
    refine ⟨h.oid, ?_, ?_, ?_⟩
    · show (S.write E n x).length + 40 < _
      rw [hw]; exact hlen
    · show ¬ _ <+: S.write E n x
      rw [hw]; exact messageData_bom hd
    · show readData E L m N x.type (S.write E n x) = x.content
      rw [hw, hc]
      unfold readData
      rw [hi]
      have fresh : ∀ a, PVal.ref a ∈ (o.letter S x.type).objects → a ≠ S.addr := fun a ha => ok.addr a (.root ha)
      have hsh : Shows φ S.heap (o.letter S x.type) e := hsh
      have hend : x.type ≠ .EndOfPipelineInput := by
        intro q
        have hk := h.known o hc
        cases o with
        | msg b =>
          have := h.message b hc
          rw [q] at this
          cases b <;> first | exact hk.1 rfl | cases this
        | val v => rw [q] at hk; exact hk.elim
      cases i with
      | endOfInput =>
        cases he
        generalize o.letter S x.type = l at hsh ht
        cases l <;> first | exact hsh.elim | exact absurd ht.symm hend | skip
        all_goals (rename_i r _; cases r <;> exact hsh.elim)
      | object v s =>
        dsimp only
        rw [he]
        dsimp only
        have st : Stands L S φ s := hst v s rfl
        have hk := h.known o hc
        cases o with
        | msg b => exact body_back st hk.1 (by rw [← h.message b hc]; exact ht) hk.2 fresh hsh
        | val v => exact value_back st ht hk hsh

/-! ## Sessions -/

/-- The pools after a step are those of the session of messages. -/
theorem pools_step {K : Codec} {s : Session} {b : ByteSession} (t : Tracks K s b) (op : ByteOp) (hop : op.IsCall) (hsb : b.Sendable K) :
    (s.run ((lift op (b.step K op).2).map Prod.fst)).1.client = (b.step K op).1.client.pool ∧
    SeenAs (s.run ((lift op (b.step K op).2).map Prod.fst)).1.server (b.step K op).1.server.pool := by
  obtain ⟨hcl, hsv, hst, hup, hdown⟩ := t
  cases op with
  | client op =>
    simp only [lift, observed, ByteSession.step, List.map_cons, List.map_nil, Session.run, Session.step, hcl]
    exact ⟨rfl, hsv⟩
  | server op =>
    have hr : ∀ m, op ≠ .recv m := by
      intro m h; subst h; exact hop
    have ha := seenAs_step hsv op hr
    simp only [lift, observed, ByteSession.step, List.map_cons, List.map_nil, Session.run, Session.step]
    exact ⟨hcl, ha.2⟩
  | clientSends a =>
    simp only [lift, observed, ByteSession.step, List.map_nil, Session.run, (send_pool b.client a).1]
    exact ⟨hcl, hsv⟩
  | serverSends a =>
    simp only [lift, observed, ByteSession.step, List.map_nil, Session.run, (send_pool b.server a).1]
    exact ⟨hcl, hsv⟩
  | clientGets =>
    cases hw : b.toClient with
    | nil =>
      have he : b.step K .clientGets = (b, none) := by simp only [ByteSession.step, hw]
      rw [he]
      exact ⟨hcl, hsv⟩
    | cons x xs =>
      have he : b.step K .clientGets =
          ({ b with client := { b.client with recv := b.client.recv.receiveData x }, toClient := xs }, none) := by
        simp only [ByteSession.step, hw]
      rw [he]
      exact ⟨hcl, hsv⟩
  | serverGets =>
    cases hw : b.toServer with
    | nil =>
      have he : b.step K .serverGets = (b, none) := by simp only [ByteSession.step, hw]
      rw [he]
      exact ⟨hcl, hsv⟩
    | cons x xs =>
      have he : b.step K .serverGets =
          ({ b with
            server := { b.server with
              pool := (ServerOp.receiveData.step b.server.pool).1
              recv := b.server.recv.receiveData x }
            toServer := xs }, none) := by
        simp only [ByteSession.step, hw]
      rw [he]
      exact ⟨hcl, receiveServer_reads hsv⟩
  | clientNext =>
    rcases dir_take (e := b.client) hdown hsb.2 with ⟨r, he, hd, -, -, -⟩ | ⟨r, m, hm, he, hd, -⟩
    · have hx : b.step K .clientNext = ({ b with client := { b.client with recv := r } }, none) := by
        simp only [ByteSession.step, End.clientNext, he]
      rw [hx]
      exact ⟨hcl, hsv⟩
    · have hx : b.step K .clientNext =
          ({ b with client := End.after K true { b.client with recv := r } ((ClientOp.recv (wire m)).step b.client.pool).1 },
           some ((ClientOp.recv (wire m)).step b.client.pool).2) := by
        simp only [ByteSession.step, End.clientNext, he]
      rw [hx]
      have hm' : s.server.sendBuffer[s.atClient]? = some m := by rw [hsv.buffer]; exact hm
      simp only [lift, observed, List.map_cons, List.map_nil, Session.run, Session.step, hm', clientReceives, hcl]
      exact ⟨rfl, hsv⟩
  | serverNext =>
    rcases dir_take (e := b.server) hup hsb.1 with ⟨r, he, hd, -, -, hr⟩ | ⟨r, m, hm, he, hd, hne⟩
    · have hx : b.step K .serverNext = ({ b with server := { b.server with recv := r } }, none) := by
        simp only [ByteSession.step, End.serverNext, he]
      rw [hx]
      exact ⟨hcl, hsv⟩
    · have hx : b.step K .serverNext =
          ({ b with server := End.after K false { b.server with recv := r } ((ServerOp.recv (wire m)).step b.server.pool).1 },
           some ((ServerOp.recv (wire m)).step b.server.pool).2) := by
        simp only [ByteSession.step, End.serverNext, he]
      rw [hx]
      have hm' : s.client.sendBuffer[s.atServer]? = some m := by rw [hcl]; exact hm
      simp only [lift, observed, List.map_cons, List.map_nil, Session.run, Session.step, hm', serverReceives,
        receiveServer_eq hsv (hst hne)]
      exact ⟨hcl, .inl rfl⟩

theorem sessionCalls_append (a b : List SessionOp) : SessionOp.calls (a ++ b) = SessionOp.calls a ++ SessionOp.calls b := by
  induction a with
  | nil => rfl
  | cons x a ih => cases x <;> simp [SessionOp.calls, ih]

theorem byteCalls_append (a b : List ByteOp) : ByteOp.calls (a ++ b) = ByteOp.calls a ++ ByteOp.calls b := by
  induction a with
  | nil => rfl
  | cons x a ih => cases x <;> simp [ByteOp.calls, ih]

theorem observed_calls (K : Codec) (b : ByteSession) (ops : List ByteOp) :
    SessionOp.calls ((observed (b.run K ops).2).map Prod.fst) = ByteOp.calls ops := by
  induction ops generalizing b with
  | nil => rfl
  | cons op ops ih =>
    have e : (b.run K (op :: ops)).2 = (op, (b.step K op).2) :: ((b.step K op).1.run K ops).2 := rfl
    rw [e]
    have hn : ∀ (op : ByteOp) (r : Option (Except Err Ret)) t, SessionOp.calls ((observed ((op, r) :: t)).map Prod.fst) =
        SessionOp.calls ((observed [(op, r)]).map Prod.fst) ++ SessionOp.calls ((observed t).map Prod.fst) := by
      intro op r t
      rw [← sessionCalls_append, ← List.map_append, ← observed_append]
      rfl
    rw [hn, ih]
    have hb : ByteOp.calls (op :: ops) = ByteOp.calls [op] ++ ByteOp.calls ops := byteCalls_append [op] ops
    rw [hb]
    congr 1
    cases op <;> first | rfl | (cases hr : (b.step K _).2 <;> rfl)

/-- If all messages of the session of messages are sendable, those of the session over bytes are. -/
theorem prepares_sendable {K : Codec} {s0 : Session} {b0 : ByteSession} (h0 : Tracks K s0 b0) (ops : List ByteOp)
    (hops : ∀ op ∈ ops, op.IsCall) (hc : b0.Calm K ops) (hp : s0.Prepares K.Sendable (ByteOp.calls ops)) :
    (b0.run K ops).1.Sendable K := by
  induction ops using snoc_induction with
  | h0 =>
    refine ⟨fun m hm => hp [] (List.prefix_refl _) m (.inl ?_), fun m hm => hp [] (List.prefix_refl _) m (.inr ?_)⟩
    · show m ∈ s0.client.sendBuffer
      rw [h0.client]; exact hm
    · show m ∈ s0.server.sendBuffer
      rw [h0.server.buffer]; exact hm
  | h1 ops op ih =>
    have hcalm : b0.Calm K ops := fun before after h => hc before (after ++ [op]) (by rw [h]; simp)
    have hops' : ∀ o ∈ ops, o.IsCall := fun o ho => hops o (by simp [ho])
    have hs := ih hops' hcalm fun sops hpre => hp sops (hpre.trans (by rw [byteCalls_append]; exact List.prefix_append _ _))
    obtain ⟨t, -⟩ := tracks_run h0 ops hops' hs hcalm
    obtain ⟨h1, h2⟩ := pools_step t op (hops op (by simp)) hs
    have hrun : (s0.run ((observed (b0.run K (ops ++ [op])).2).map Prod.fst)).1 =
        ((shadow K s0 b0 ops).1.run ((lift op ((b0.run K ops).1.step K op).2).map Prod.fst)).1 := by
      rw [observed_snoc, List.map_append, Session.run_append]
      rfl
    have hp' := hp ((observed (b0.run K (ops ++ [op])).2).map Prod.fst) (by rw [observed_calls]; exact List.prefix_refl _)
    rw [hrun] at hp'
    rw [ByteSession.run_snoc]
    refine ⟨fun m hm => hp' m (.inl ?_), fun m hm => hp' m (.inr ?_)⟩
    · rw [h1]; exact hm
    · rw [h2.buffer]; exact hm

end Verif
