import Verif.Spec.ByteSession
import Verif.Spec.Transport
import Verif.Proof.Reassembly
import Verif.Proof.Session

/-! # Sessions over bytes are sessions -/

namespace Verif
open Pool

/-! ## What one call adds to the messages -/

/-- The messages are those of `old` and new ones with increasing ids from `c`. -/
def Window (old : List Msg) (c : Nat) (p : Pool) : Prop :=
  ∃ new, p.sendBuffer = old ++ new ∧ new.Pairwise (fun a b => a.oid < b.oid) ∧
    (∀ m ∈ new, c ≤ m.oid ∧ m.oid < p.fragmentCount) ∧ c ≤ p.fragmentCount

theorem window_queue (old : List Msg) (c : Nat) (p : Pool) (t : MsgType) (o : Option Obj) (pid : Option UUID)
    (s : StreamType) (h : Window old c p) : Window old c (p.queue t o pid s) := by
  obtain ⟨new, h1, h2, h3, h4⟩ := h
  refine ⟨new ++ [⟨t, o, p.rpid, pid, p.fragmentCount, s⟩], ?_, ?_, ?_, ?_⟩
  · simp [queue, h1]
  · rw [List.pairwise_append]
    refine ⟨h2, by simp, ?_⟩
    intro a ha b hb
    simp only [List.mem_singleton] at hb
    subst hb
    exact (h3 a ha).2
  · intro m hm
    simp only [queue]
    rcases List.mem_append.mp hm with hm | hm
    · exact ⟨(h3 m hm).1, Nat.lt_succ_of_lt (h3 m hm).2⟩
    · simp only [List.mem_singleton] at hm
      subst hm
      exact ⟨h4, Nat.lt_succ_self _⟩
  · exact Nat.le_succ_of_le h4

theorem window_client (old : List Msg) (k : Nat) (op : ClientOp) : ClientStable Any (Window old k) op where
  queue := fun p t c pid s _ h => window_queue old k p t c pid s h
  changeState := fun p s e _ => changeAny (window_queue old k) (fun _ _ h => h) p s e
  pipeChange := fun p n s e _ => pipeChangeAny (window_queue old k) (fun _ _ _ h => h) p n s e
  keySent := fun p h _ => window_queue old k { p with exchangeKey := some p.keyPair } _ _ _ _ h

theorem window_server (old : List Msg) (k : Nat) (op : ServerOp) (hop : op ≠ .connect) :
    ServerStable Any (Window old k) op where
  queue := fun p t c pid s _ h => window_queue old k p t c pid s h
  changeState := fun p s e _ => changeAny (window_queue old k) (fun _ _ h => h) p s e
  pipeChange := fun p n s e _ => pipeChangeAny (window_queue old k) (fun _ _ _ h => h) p n s e
  keyAsked := fun p h _ => window_queue old k p _ _ _ _ h
  keyReceived := fun p _ _ _ _ _ h => window_queue old k { p with keyRequested := true } _ _ _ _ h
  reset := fun p h => absurd h hop

theorem window_self (p : Pool) : Window p.sendBuffer p.fragmentCount p :=
  ⟨[], by simp, by simp, by simp, Nat.le_refl _⟩

theorem client_window (p : Pool) (op : ClientOp) : Window p.sendBuffer p.fragmentCount (op.step p).1 :=
  step_client (window_client _ _ op) (window_self p)

theorem server_window (p : Pool) (op : ServerOp) (hop : op ≠ .connect) :
    Window p.sendBuffer p.fragmentCount (op.step p).1 :=
  step_server (window_server _ _ op hop) (window_self p)

/-! ## One direction -/

/-- A message as the transport sees it. -/
def qOf (K : Codec) (client : Bool) (m : Msg) : QMsg :=
  ⟨m.oid, msgBytes client m.type (K.write m) m.rpid m.pid,
    ⟨if client then 2 else 1, m.type, m.rpid, (wire m).pid, K.write m⟩⟩

theorem qOf_good {K : Codec} {m : Msg} (h : K.Sendable m) (client : Bool) : (qOf K client m).Good := by
  refine ⟨h.oid, ?_, ?_, ?_⟩
  · have := h.len
    simp only [qOf, msgBytes_length]; omega
  · intro h0
    have := congrArg List.length h0
    simp only [qOf, msgBytes_length, List.length_nil] at this
    omega
  · simp only [qOf, unpackMessage_msgBytes]
    have hb : utf8Bom.isPrefixOf (K.write m) = false := by
      cases hb : utf8Bom.isPrefixOf (K.write m) with
      | false => rfl
      | true => exact absurd (List.isPrefixOf_iff_prefix.mp hb) h.bom
    rw [hb]
    cases hp : m.pid with
    | none => simp [wire, hp]
    | some p =>
      by_cases he : p = EMPTY_UUID
      · simp [wire, hp, he]
      · simp [wire, hp, he]

/-- The messages of `buf` from the `n`th on are on the way, in order and each once. -/
def Dir (K : Codec) (client : Bool) (buf : List Msg) (count : Nat) (out : List PSRPMessage) (way : List Bytes)
    (recv : Recv) (n : Nat) : Prop :=
  n ≤ buf.length ∧
  ∃ (F1 : List Fragment) (Fss : List (List Fragment)) (chunks : List Bytes) (M P : List QMsg),
    recv.buffer = wireOf F1 ∧ way = Fss.map wireOf ∧ recv.fragments = fragDict chunks P ∧
    recv.messages = M.map (fun q => (q.oid, q.msg)) ∧
    Flow chunks (F1 ++ Fss.flatten) out P ∧ (∀ q ∈ P, q.Good) ∧
    M ++ P = (buf.drop n).map (qOf K client) ∧
    ((buf.drop n).map Msg.oid).Nodup ∧ ∀ m ∈ buf.drop n, m.oid < count

theorem qOf_oids (K : Codec) (client : Bool) (l : List Msg) :
    (l.map (qOf K client)).map QMsg.oid = l.map Msg.oid := by
  rw [List.map_map]; rfl

theorem dir_nil (K : Codec) (client : Bool) (buf : List Msg) (count : Nat) :
    Dir K client buf count [] [] {} buf.length :=
  ⟨Nat.le_refl _, [], [], [], [], [], rfl, rfl, rfl, rfl, rfl, by simp, by simp, by simp, by simp⟩

theorem pack_data (K : Codec) (client : Bool) (m : Msg) :
    (K.pack client m).data = (qOf K client m).raw := by
  simp [Codec.pack, createMessage_ok, qOf, Except.toOption]

/-- One more message is prepared. -/
theorem dir_snoc {K : Codec} {client : Bool} {buf : List Msg} {count : Nat} {out : List PSRPMessage}
    {way : List Bytes} {recv : Recv} {n : Nat} (h : Dir K client buf count out way recv n) {m : Msg} {count' : Nat}
    (hs : K.Sendable m) (hm : count ≤ m.oid) (hc : m.oid < count') :
    Dir K client (buf ++ [m]) count' (out ++ [K.pack client m]) way recv n := by
  obtain ⟨hn, F1, Fss, chunks, M, P, hbuf, hway, hfrag, hmsg, hflow, hgood, hMP, hnd, hlt⟩ := h
  have hd : (buf ++ [m]).drop n = buf.drop n ++ [m] := by
    rw [List.drop_append_of_le_length hn]
  refine ⟨by simp; omega, F1, Fss, chunks, M, P ++ [qOf K client m], hbuf, hway, ?_, hmsg, ?_, ?_, ?_, ?_, ?_⟩
  · rw [hfrag]
    cases chunks with
    | nil => rfl
    | cons c cs =>
      cases P with
      | cons => rfl
      | nil =>
        exfalso
        cases hF : F1 ++ Fss.flatten with
        | cons => rw [hF] at hflow; simp [Flow] at hflow
        | nil =>
          rw [hF] at hflow
          simp only [Flow] at hflow
          cases hb : out with
          | nil => rw [hb] at hflow; simp [HeadOk] at hflow
          | cons => rw [hb] at hflow; simp [HeadOk] at hflow
  · exact Flow.snoc (q := qOf K client m) rfl (pack_data K client m) rfl (qOf_good hs client) _ _ _ _ hflow
  · intro q hq
    rcases List.mem_append.mp hq with hq | hq
    · exact hgood q hq
    · simp only [List.mem_singleton] at hq; rw [hq]; exact qOf_good hs client
  · rw [← List.append_assoc, hMP, hd]; simp
  · rw [hd, List.map_append, List.nodup_append]
    refine ⟨hnd, by simp, ?_⟩
    intro a ha b hb
    simp only [List.map_cons, List.map_nil, List.mem_singleton] at hb
    obtain ⟨x, hx, rfl⟩ := List.mem_map.mp ha
    have := hlt x hx
    omega
  · intro x hx
    rw [hd] at hx
    rcases List.mem_append.mp hx with hx | hx
    · have := hlt x hx; omega
    · simp only [List.mem_singleton] at hx; subst hx; exact hc

/-- Only the bound of the ids changes. -/
theorem dir_count {K : Codec} {client : Bool} {buf : List Msg} {count : Nat} {out : List PSRPMessage}
    {way : List Bytes} {recv : Recv} {n : Nat} (h : Dir K client buf count out way recv n) {count' : Nat}
    (hc : ∀ m ∈ buf.drop n, m.oid < count') : Dir K client buf count' out way recv n := by
  obtain ⟨hn, F1, Fss, chunks, M, P, hbuf, hway, hfrag, hmsg, hflow, hgood, hMP, hnd, hlt⟩ := h
  exact ⟨hn, F1, Fss, chunks, M, P, hbuf, hway, hfrag, hmsg, hflow, hgood, hMP, hnd, hc⟩

theorem dir_lt {K : Codec} {client : Bool} {buf : List Msg} {count : Nat} {out : List PSRPMessage}
    {way : List Bytes} {recv : Recv} {n : Nat} (h : Dir K client buf count out way recv n) :
    ∀ m ∈ buf.drop n, m.oid < count := by
  obtain ⟨_, _, _, _, _, _, _, _, _, _, _, _, _, _, hlt⟩ := h
  exact hlt

theorem dir_more {K : Codec} {client : Bool} {way : List Bytes} {recv : Recv} {n : Nat} (new : List Msg) :
    ∀ {buf : List Msg} {count : Nat} {out : List PSRPMessage}, Dir K client buf count out way recv n →
    (∀ m ∈ new, K.Sendable m) → new.Pairwise (fun a b => a.oid < b.oid) → ∀ {count' : Nat},
    (∀ m ∈ new, count ≤ m.oid ∧ m.oid < count') → count ≤ count' →
    Dir K client (buf ++ new) count' (out ++ new.map (K.pack client)) way recv n := by
  induction new with
  | nil =>
    intro buf count out h _ _ count' _ hc
    simp only [List.append_nil, List.map_nil]
    exact dir_count h fun m hm => Nat.lt_of_lt_of_le (dir_lt h m hm) hc
  | cons m new ih =>
    intro buf count out h hs hp count' hb hc
    rw [List.pairwise_cons] at hp
    have h1 := dir_snoc h (hs m (by simp)) (hb m (by simp)).1 (Nat.lt_succ_self m.oid)
    have h2 := ih h1 (fun x hx => hs x (by simp [hx])) hp.2 (count' := count')
      (fun x hx => ⟨hp.1 x hx, (hb x (by simp [hx])).2⟩) (hb m (by simp)).2
    simpa using h2

/-- A call prepares messages. -/
theorem dir_after {K : Codec} {client : Bool} {e : End} {p : Pool} {way : List Bytes} {recv : Recv} {n : Nat}
    (h : Dir K client e.pool.sendBuffer e.pool.fragmentCount e.out way recv n)
    (hw : Window e.pool.sendBuffer e.pool.fragmentCount p) (hs : ∀ m ∈ p.sendBuffer, K.Sendable m) :
    Dir K client (e.after K client p).pool.sendBuffer (e.after K client p).pool.fragmentCount
      (e.after K client p).out way recv n := by
  obtain ⟨new, h1, h2, h3, h4⟩ := hw
  simp only [End.after]
  rw [h1, List.drop_left]
  exact dir_more new h (fun m hm => hs m (by rw [h1]; simp [hm])) h2 h3 h4

/-- `data_to_send`. -/
theorem dir_send {K : Codec} {client : Bool} {buf : List Msg} {count : Nat} {e : End}
    {way : List Bytes} {recv : Recv} {n : Nat} (h : Dir K client buf count e.out way recv n) (amount : Option Int) :
    Dir K client buf count (e.send amount).1.out (way ++ (e.send amount).2) recv n := by
  obtain ⟨hn, F1, Fss, chunks, M, P, hbuf, hway, hfrag, hmsg, hflow, hgood, hMP, hnd, hlt⟩ := id h
  by_cases ha : amountBelow amount 22 = true
  · have hd : dataToSend e.out amount = (e.out, .error .valueError) := by
      unfold dataToSend; rw [if_pos ha]
    simp only [End.send, hd, List.append_nil]
    exact h
  · have hS : ∀ m ∈ e.out, m.Fits := Flow.fits _ _ _ _ hflow hgood
    have hamt : ∀ a, amount = some a → 22 ≤ a := by
      intro a h; subst h
      simp only [amountBelow, decide_eq_true_eq] at ha
      omega
    rcases dataToSend_spec e.out hS amount hamt with ⟨hnil, hd⟩ |
      ⟨m, ms, f, fs, S', p, hSeq, hd, hpd, -, -, hsent, -, -, hne⟩
    · simp only [End.send, hd, List.append_nil]
      rw [hnil] at h
      exact h
    · simp only [End.send, hd]
      refine ⟨hn, F1, Fss ++ [f :: fs], chunks, M, P, hbuf, ?_, hfrag, hmsg, ?_, hgood, hMP, hnd, hlt⟩
      · simp [hway, hpd]
      · have := Flow.send hsent (by
          intro m' hm' hdm f' fs' hff
          cases hff
          rw [hSeq] at hm'
          cases hm'
          exact hne hdm) (F1 ++ Fss.flatten) chunks P hflow hgood
        simpa using this

/-- `receive_data`. -/
theorem dir_get {K : Codec} {client : Bool} {buf : List Msg} {count : Nat} {out : List PSRPMessage}
    {x : Bytes} {way : List Bytes} {recv : Recv} {n : Nat} (h : Dir K client buf count out (x :: way) recv n) :
    Dir K client buf count out way (recv.receiveData x) n := by
  obtain ⟨hn, F1, Fss, chunks, M, P, hbuf, hway, hfrag, hmsg, hflow, hgood, hMP, hnd, hlt⟩ := h
  cases Fss with
  | nil => simp at hway
  | cons fs Fss =>
    simp only [List.map_cons, List.cons.injEq] at hway
    refine ⟨hn, F1 ++ fs, Fss, chunks, M, P, ?_, hway.2, hfrag, hmsg, ?_, hgood, hMP, hnd, hlt⟩
    · simp [Recv.receiveData, hbuf, hway.1]
    · simpa using hflow

/-- `next_event`: nothing, or the next message. -/
theorem dir_take {K : Codec} {client : Bool} {buf : List Msg} {count : Nat} {out : List PSRPMessage}
    {way : List Bytes} {e : End} {n : Nat} (h : Dir K client buf count out way e.recv n)
    (hs : ∀ m ∈ buf, K.Sendable m) :
    (∃ r, e.take K = ({ e with recv := r }, none) ∧ Dir K client buf count out way r n ∧
      r.buffer = [] ∧ r.messages = [] ∧ (e.recv = {} → r = {})) ∨
    ∃ r m, buf[n]? = some m ∧ e.take K = ({ e with recv := r }, some (.ok (wire m))) ∧
      Dir K client buf count out way r (n + 1) ∧ e.recv ≠ {} := by
  obtain ⟨hn, F1, Fss, chunks, M, P, hbuf, hway, hfrag, hmsg, hflow, hgood, hMP, hnd, hlt⟩ := h
  have hnd' : (e.recv.messages.keys ++ P.map QMsg.oid).Nodup := by
    have h3 : Dict.keys (M.map (fun q => (q.oid, q.msg))) = M.map QMsg.oid := by simp [Dict.keys]
    rw [hmsg, h3, ← List.map_append, hMP, qOf_oids]
    exact hnd
  obtain ⟨r', D, P', chunks', h1, h2, h3, h4, h5, h6⟩ :=
    drain_flow Fss.flatten out F1 chunks P e.recv hbuf hfrag hflow hgood hnd'
  have hg' : ∀ q ∈ P', q.Good := fun q hq => hgood q (by rw [h2]; simp [hq])
  rw [hmsg, ← List.map_append] at h5
  have hall : M ++ D ++ P' = (buf.drop n).map (qOf K client) := by
    rw [← hMP, h2, List.append_assoc]
  cases hMD : M ++ D with
  | nil =>
    rw [hMD] at h5 hall
    have hm0 : r'.messages = [] := by simpa using h5
    refine .inl ⟨r', ?_, ⟨hn, [], Fss, chunks', [], P', h3, hway, h4, hm0, h6, hg', hall, hnd, hlt⟩, h3, hm0, ?_⟩
    · simp only [End.take, Recv.nextMessage, h1, hm0]
    · intro h0
      rw [h0, drain_nil _ rfl] at h1
      injection h1 with h1
      exact h1.symm
  | cons q M' =>
    rw [hMD] at h5 hall
    have hm0 : r'.messages = (q.oid, q.msg) :: M'.map (fun q => (q.oid, q.msg)) := by simpa using h5
    cases hb : buf.drop n with
    | nil => rw [hb] at hall; simp at hall
    | cons m rest =>
      have hget : buf[n]? = some m := by
        have := congrArg List.head? hb
        rw [List.head?_drop] at this
        simpa using this
      have hrest : buf.drop (n + 1) = rest := by
        rw [← List.drop_drop, hb]; rfl
      rw [hb] at hall hnd hlt
      simp only [List.map_cons, List.cons_append, List.cons.injEq] at hall
      have hlen : n < buf.length := by
        rcases Nat.lt_or_ge n buf.length with h | h
        · exact h
        · rw [List.drop_eq_nil_of_le h] at hb; cases hb
      refine .inr ⟨{ r' with messages := M'.map (fun q => (q.oid, q.msg)) }, m, hget, ?_,
        ⟨hlen, [], Fss, chunks', M', P', h3, hway, h4, rfl, h6, hg', ?_, ?_, ?_⟩, ?_⟩
      · simp only [End.take, Recv.nextMessage, h1, hm0, hall.1]
        have := (hs m (List.mem_of_getElem? hget)).back
        simp only [qOf, this, wire]
      · rw [hrest]; exact hall.2
      · rw [hrest]; exact (List.nodup_cons.mp hnd).2
      · rw [hrest]; exact fun x hx => hlt x (by simp [hx])
      · intro h0
        rw [h0] at hbuf hmsg h1
        rw [drain_nil _ rfl] at h1
        injection h1 with h1
        rw [← h1] at hm0
        cases hm0

/-! ## A server that was given bytes -/

/-- Two runs of a method: equal results, and the pools are related. -/
def Alike {α : Type} (r r' : Res α) : Prop := r'.2 = r.2 ∧ SeenAs r.1 r'.1

/-- The pool with the state `Opening`. -/
abbrev opening (p : Pool) : Pool := { p with state := .Opening }

theorem Alike.refl {α : Type} (r : Res α) : Alike r r := ⟨rfl, .inl rfl⟩

theorem alike_err {α : Type} {p : Pool} (hp : p.state = .BeforeOpen) (x : Except Err α) :
    Alike (p, x) (opening p, x) := ⟨rfl, .inr ⟨hp, rfl⟩⟩

theorem Alike.ret {α : Type} {r r' : Res α} (h : Alike r r') (f : α → Ret) : Alike (r.ret f) (r'.ret f) := by
  obtain ⟨h1, h2⟩ := h
  exact ⟨by simp [Res.ret, h1], h2⟩

theorem Alike.next {α β : Type} {r r' : Res α} (h : Alike r r') {f : Pool → α → Res β}
    (hf : ∀ p q a, SeenAs p q → Alike (f p a) (f q a)) : Alike (r.next f) (r'.next f) := by
  obtain ⟨p, x⟩ := r
  obtain ⟨q, y⟩ := r'
  obtain ⟨h1, h2⟩ := h
  simp only at h1 h2
  subst h1
  cases y with
  | ok a => exact hf p q a h2
  | error e => exact ⟨rfl, h2⟩

theorem alike_prepare {p : Pool} (hp : p.state = .BeforeOpen) (m : Option Obj) (t : Option MsgType) (pid : Option UUID)
    (st : StreamType) : Alike (p.prepareMessage m t pid st) ((opening p).prepareMessage m t pid st) := by
  unfold prepareMessage
  split
  · exact ⟨rfl, .inr ⟨hp, rfl⟩⟩
  · exact ⟨rfl, .inr ⟨hp, rfl⟩⟩
  · dsimp only
    split
    · exact ⟨rfl, .inr ⟨hp, rfl⟩⟩
    · split
      · exact ⟨rfl, .inr ⟨hp, rfl⟩⟩
      · exact ⟨rfl, .inr ⟨hp, rfl⟩⟩

theorem alike_change (p : Pool) (s : PoolState) (e : Option Val) :
    Alike (p.changeState s e) ((opening p).changeState s e) := by
  unfold changeState
  exact Alike.refl _

theorem readsAs_upd {p q : Pool} (h : SeenAs p q) (n : Nat) (f : Pipe → Pipe) :
    SeenAs (p.updPipe n f) (q.updPipe n f) := by
  rcases h with rfl | ⟨h1, rfl⟩
  · exact .inl rfl
  · exact .inr ⟨h1, rfl⟩

theorem alike_onPipe {α : Type} {p : Pool} (hp : p.state = .BeforeOpen) (n : Nat) {f g : Pipe → Res α}
    (h : ∀ q, Alike (f q) (g q)) : Alike (p.onPipe n f) ((opening p).onPipe n g) := by
  unfold onPipe
  dsimp only
  split
  · exact alike_err hp _
  · exact h _

theorem alike_pipeChange {p : Pool} (hp : p.state = .BeforeOpen) (n : Nat) (s : PipeState) (e : Option Val) :
    Alike (p.pipeChangeState n s e) ((opening p).pipeChangeState n s e) := by
  unfold pipeChangeState
  refine alike_onPipe hp n fun q => ?_
  dsimp only
  split
  · exact ⟨rfl, readsAs_upd (.inr ⟨hp, rfl⟩) _ _⟩
  · refine (alike_prepare hp _ _ _ _).next fun p q _ h => ⟨rfl, readsAs_upd h _ _⟩

theorem alike_hostCall {p : Pool} (hp : p.state = .BeforeOpen) (m : HostMethod) (v : Val) (pid : Option UUID) :
    Alike (p.hostCall m v pid) ((opening p).hostCall m v pid) := by
  unfold hostCall
  rw [if_pos (by simp [hp]), if_pos (by simp)]
  exact alike_err hp _

theorem alike_base {p : Pool} (hp : p.state = .BeforeOpen) (op : BaseOp) : Alike (op.step p) (op.step (opening p)) := by
  cases op with
  | beginClose => exact (alike_change p _ _).ret _
  | close =>
    refine Alike.ret ?_ _
    unfold close
    dsimp only
    split
    · exact alike_err hp _
    · rw [if_pos (by simp [hp]), if_pos (by simp)]; exact alike_err hp _
  | beginDisconnect => exact (alike_change p _ _).ret _
  | disconnect =>
    refine Alike.ret ?_ _
    unfold disconnect
    rw [if_pos (by simp [hp]), if_pos (by simp)]; exact alike_err hp _
  | reconnect =>
    refine Alike.ret ?_ _
    unfold reconnect
    rw [if_pos (by simp [hp]), if_pos (by simp)]; exact alike_err hp _
  | pipeBeginStop h =>
    refine Alike.ret ?_ _
    unfold pipeBeginStop
    refine alike_onPipe hp h fun q => ?_
    split
    · exact alike_err hp _
    · exact alike_pipeChange hp _ _ _
  | pipeClose h =>
    refine Alike.ret ?_ _
    unfold pipeClose
    refine alike_onPipe hp h fun q => ?_
    split
    · exact alike_err hp _
    · exact ⟨rfl, .inr ⟨hp, rfl⟩⟩
  | prepare m t pid s => exact (alike_prepare hp m t pid s).ret _

theorem alike_server {p : Pool} (hp : p.state = .BeforeOpen) (op : ServerOp) (hr : ∀ m, op ≠ .recv m) :
    Alike (op.step p) (op.step (opening p)) := by
  cases op with
  | base op => exact alike_base hp op
  | connect =>
    refine Alike.ret ?_ _
    unfold connectServer
    rw [if_neg (by simp [hp]), if_pos (by simp [hp]), if_neg (by simp), if_pos (by simp)]
    exact alike_err hp _
  | requestKey =>
    refine Alike.ret ?_ _
    unfold requestKey
    dsimp only
    split
    · exact alike_err hp _
    · rw [if_pos (by simp [hp]), if_pos (by simp)]; exact alike_err hp _
  | sendEvent v =>
    refine Alike.ret ?_ _
    unfold sendEvent
    rw [if_pos (by simp [hp]), if_pos (by simp)]; exact alike_err hp _
  | setBroken e =>
    refine Alike.ret ?_ _
    unfold setBroken
    rw [if_pos (by simp [hp]), if_pos (by simp)]; exact alike_err hp _
  | hostCall m ps pid => exact (alike_hostCall hp m ps pid).ret _
  | availabilityResponse ci r =>
    refine Alike.ret ?_ _
    unfold availabilityResponse
    dsimp only
    split
    · exact alike_err hp _
    · split
      · exact alike_err hp _
      · have hc : ∀ (p : Pool) (h : Option Handler), p.state = .BeforeOpen → (p.runServerHandler h r).state = .BeforeOpen ∧
            runServerHandler (opening p) h r = opening (p.runServerHandler h r) := by
          intro p h hp
          unfold runServerHandler
          split <;> exact ⟨hp, rfl⟩
        have h1 := hc { p with ciEvents := p.ciEvents.erase ci, ciHandlers := p.ciHandlers.erase ci }
          ((p.ciHandlers.get? ci).join) hp
        have h2 := alike_prepare h1.1 (some (.msg (.runspaceAvailability r ci))) none none .default
        rw [← h1.2] at h2
        exact h2
  | receiveData =>
    refine Alike.ret ?_ _
    unfold receiveServer
    rw [if_pos hp, if_neg (by simp)]
    exact ⟨rfl, .inl rfl⟩
  | newPipe pid => exact ⟨rfl, .inr ⟨hp, rfl⟩⟩
  | pipeComplete h => exact (alike_pipeChange hp _ _ _).ret _
  | pipeStart h =>
    refine Alike.ret ?_ _
    unfold pipeStartServer
    refine alike_onPipe hp h fun q => ?_
    split
    · exact alike_err hp _
    · exact alike_pipeChange hp _ _ _
  | pipeStop h =>
    refine Alike.ret ?_ _
    unfold pipeStop
    refine alike_onPipe hp h fun q => ?_
    split
    · exact alike_err hp _
    · split
      · exact alike_err hp _
      · exact alike_pipeChange hp _ _ _
  | pipeHostCall h m ps =>
    refine Alike.ret ?_ _
    unfold pipeHostCall
    refine alike_onPipe hp h fun q => ?_
    split
    · exact alike_err hp _
    · exact alike_hostCall hp _ _ _
  | pipeWriteOutput h v =>
    refine Alike.ret ?_ _
    unfold pipeWriteOutput
    refine alike_onPipe hp h fun q => ?_
    split
    · exact alike_err hp _
    · exact alike_prepare hp _ _ _ _
  | pipeWriteRecord h k v =>
    refine Alike.ret ?_ _
    unfold pipeWriteRecord
    refine alike_onPipe hp h fun q => ?_
    show Alike (if k = .information ∧ p.theirVersion.lt Pwsh5 then _ else _)
      (if k = .information ∧ p.theirVersion.lt Pwsh5 then _ else _)
    split
    · exact alike_err hp _
    · split
      · exact alike_err hp _
      · exact alike_prepare hp _ _ _ _
  | recv m => exact absurd rfl (hr m)

theorem seenAs_step {p q : Pool} (h : SeenAs p q) (op : ServerOp) (hr : ∀ m, op ≠ .recv m) :
    Alike (op.step p) (op.step q) := by
  rcases h with rfl | ⟨hp, rfl⟩
  · exact Alike.refl _
  · exact alike_server hp op hr

/-- A server does not go back to the state before any bytes. -/
theorem started_server (op : ServerOp) : ServerStable Any (fun p => p.state ≠ .BeforeOpen) op where
  queue := fun p t c pid s _ h => h
  changeState := fun p s e hm _ => by
    have hs : s ≠ .BeforeOpen := by
      rintro rfl
      rcases hm with ⟨v, _, hb, _⟩ | ⟨_, ⟨b, _, hb⟩ | ⟨_, hb⟩ | ⟨_, hb⟩⟩
      · cases hb
      · cases b <;> simp [BaseOp.moves] at hb
      · cases hb
      · cases hb
    unfold changeState
    split
    · exact hs
    · split
      · rcases prepare_cases { p with state := s } (some (.msg (.runspacePoolState s e))) none none .default
          with ⟨_, he⟩ | ⟨t, c, hc, he⟩
        · rw [he]; exact hs
        · rw [he]; exact hs
      · exact hs
  pipeChange := fun p n s e _ => pipeChangeAny (I := fun p => p.state ≠ .BeforeOpen)
    (fun _ _ _ _ _ h => h) (fun _ _ _ h => h) p n s e
  keyAsked := fun p h _ => h
  keyReceived := fun p _ _ _ _ _ h => h
  opening := fun p _ _ _ => by simp

theorem client_prefix (p : Pool) (op : ClientOp) : p.sendBuffer <+: (op.step p).1.sendBuffer :=
  step_client (extends_client p.sendBuffer op) (List.prefix_refl _)

theorem server_prefix (p : Pool) (op : ServerOp) : p.sendBuffer <+: (op.step p).1.sendBuffer :=
  step_server (extends_server p.sendBuffer op) (List.prefix_refl _)

/-! ## Runs -/

namespace ByteSession

theorem run_append (K : Codec) (b : ByteSession) (l l' : List ByteOp) :
    b.run K (l ++ l') = (((b.run K l).1.run K l').1, (b.run K l).2 ++ ((b.run K l).1.run K l').2) := by
  induction l generalizing b with
  | nil => simp [run]
  | cons x l ih => simp [run, ih]

theorem run_snoc (K : Codec) (b : ByteSession) (ops : List ByteOp) (op : ByteOp) :
    b.run K (ops ++ [op]) = (((b.run K ops).1.step K op).1, (b.run K ops).2 ++ [(op, ((b.run K ops).1.step K op).2)]) := by
  rw [run_append]; rfl

end ByteSession

theorem observed_append (t t' : List (ByteOp × Option (Except Err Ret))) :
    observed (t ++ t') = observed t ++ observed t' := by
  induction t with
  | nil => rfl
  | cons x t ih =>
    obtain ⟨op, r⟩ := x
    cases op <;> cases r <;> simp [observed, ih]

theorem take_pool (K : Codec) (e : End) : (e.take K).1.pool = e.pool := by
  unfold End.take
  split <;> rfl

theorem send_pool (e : End) (a : Option Int) : (e.send a).1.pool = e.pool ∧ (e.send a).1.recv = e.recv := by
  unfold End.send
  split <;> exact ⟨rfl, rfl⟩

/-- The message lists only grow. -/
theorem step_grows (K : Codec) (b : ByteSession) (op : ByteOp) :
    b.client.pool.sendBuffer <+: (b.step K op).1.client.pool.sendBuffer ∧
    b.server.pool.sendBuffer <+: (b.step K op).1.server.pool.sendBuffer := by
  cases op with
  | client op => exact ⟨client_prefix _ op, List.prefix_refl _⟩
  | server op => exact ⟨List.prefix_refl _, server_prefix _ op⟩
  | clientSends a =>
    refine ⟨?_, List.prefix_refl _⟩
    simp only [ByteSession.step, (send_pool b.client a).1]
    exact List.prefix_refl _
  | serverSends a =>
    refine ⟨List.prefix_refl _, ?_⟩
    simp only [ByteSession.step, (send_pool b.server a).1]
    exact List.prefix_refl _
  | clientGets =>
    unfold ByteSession.step
    dsimp only
    split <;> exact ⟨List.prefix_refl _, List.prefix_refl _⟩
  | serverGets =>
    unfold ByteSession.step
    dsimp only
    split
    · exact ⟨List.prefix_refl _, List.prefix_refl _⟩
    · exact ⟨List.prefix_refl _, server_prefix _ .receiveData⟩
  | clientNext =>
    refine ⟨?_, List.prefix_refl _⟩
    have h := take_pool K b.client
    simp only [ByteSession.step, End.clientNext]
    split
    · rename_i e he; rw [he] at h; rw [← h]; exact List.prefix_refl _
    · rename_i e x he; rw [he] at h; rw [← h]; exact List.prefix_refl _
    · rename_i e m he; rw [he] at h; rw [← h]; exact client_prefix _ _
  | serverNext =>
    refine ⟨List.prefix_refl _, ?_⟩
    have h := take_pool K b.server
    simp only [ByteSession.step, End.serverNext]
    split
    · rename_i e he; rw [he] at h; rw [← h]; exact List.prefix_refl _
    · rename_i e x he; rw [he] at h; rw [← h]; exact List.prefix_refl _
    · rename_i e m he; rw [he] at h; rw [← h]; exact server_prefix _ _

theorem sendable_before {K : Codec} {b : ByteSession} {op : ByteOp} (h : (b.step K op).1.Sendable K) : b.Sendable K := by
  have g := step_grows K b op
  exact ⟨fun m hm => h.1 m (g.1.subset hm), fun m hm => h.2 m (g.2.subset hm)⟩

/-- The session of whole messages next to the session of bytes. -/
structure Tracks (K : Codec) (s : Session) (b : ByteSession) : Prop where
  client : s.client = b.client.pool
  server : SeenAs s.server b.server.pool
  started : b.server.recv ≠ {} → b.server.pool.state ≠ .BeforeOpen
  up : Dir K true b.client.pool.sendBuffer b.client.pool.fragmentCount b.client.out b.toServer b.server.recv s.atServer
  down : Dir K false b.server.pool.sendBuffer b.server.pool.fragmentCount b.server.out b.toClient b.client.recv s.atClient

theorem SeenAs.buffer {p q : Pool} (h : SeenAs p q) : p.sendBuffer = q.sendBuffer := by
  rcases h with rfl | ⟨_, rfl⟩ <;> rfl

/-- The step of the messages for a step of the bytes. -/
def lift (op : ByteOp) (r : Option (Except Err Ret)) : List (SessionOp × Except Err Ret) := observed [(op, r)]

theorem receiveServer_window (p : Pool) :
    (ServerOp.receiveData.step p).1.sendBuffer = p.sendBuffer ∧
    (ServerOp.receiveData.step p).1.fragmentCount = p.fragmentCount := by
  simp only [ServerOp.step, Res.ret, receiveServer]
  split <;> exact ⟨rfl, rfl⟩

theorem receiveServer_started (p : Pool) : (ServerOp.receiveData.step p).1.state ≠ .BeforeOpen := by
  simp only [ServerOp.step, Res.ret, receiveServer]
  split
  · simp
  · assumption

theorem receiveServer_reads {p q : Pool} (h : SeenAs p q) : SeenAs p (ServerOp.receiveData.step q).1 := by
  simp only [ServerOp.step, Res.ret, receiveServer]
  rcases h with rfl | ⟨hp, rfl⟩
  · by_cases hq : q.state = .BeforeOpen
    · rw [if_pos hq]; exact .inr ⟨hq, rfl⟩
    · rw [if_neg hq]; exact .inl rfl
  · rw [if_neg (by simp)]; exact .inr ⟨hp, rfl⟩

theorem receiveServer_eq {p q : Pool} (h : SeenAs p q) (hq : q.state ≠ .BeforeOpen) :
    (ServerOp.receiveData.step p).1 = q := by
  simp only [ServerOp.step, Res.ret, receiveServer]
  rcases h with rfl | ⟨hp, rfl⟩
  · rw [if_neg hq]
  · rw [if_pos hp]

theorem connect_quiet (p : Pool) :
    (ServerOp.connect.step p).1.sendBuffer = p.sendBuffer ∧
    (p.state ≠ .Disconnected → (ServerOp.connect.step p).1.fragmentCount = p.fragmentCount) := by
  simp only [ServerOp.step, Res.ret, connectServer]
  split
  · exact ⟨rfl, fun _ => rfl⟩
  · split
    · exact ⟨rfl, fun _ => rfl⟩
    · rename_i h
      refine ⟨?_, fun h' => absurd h' h⟩
      unfold changeState
      split
      · rfl
      · rw [if_neg (by decide)]

theorem dir_clear {K : Codec} {client : Bool} {buf : List Msg} {count : Nat} {r : Recv} {n : Nat}
    (h : Dir K client buf count [] [] r n) (hr1 : r.buffer = []) (hr2 : r.messages = []) : buf.drop n = [] := by
  obtain ⟨hn, F1, Fss, chunks, M, P, hbuf, hway, hfrag, hmsg, hflow, hgood, hMP, hnd, hlt⟩ := h
  rw [hr1] at hbuf
  rw [hr2] at hmsg
  have h1 : F1 = [] := by
    cases F1 with
    | nil => rfl
    | cons f F =>
      have := congrArg List.length hbuf
      simp [wireOf, Fragment.wire_length] at this
      omega
  have h2 : Fss = [] := by simpa using hway.symm
  have h3 : M = [] := by simpa using hmsg.symm
  subst h1 h2 h3
  simp only [List.flatten_nil, List.append_nil, Flow] at hflow
  have h4 : P = [] := by
    cases P with
    | nil => rfl
    | cons => simp [HeadOk] at hflow
  subst h4
  simpa using hMP.symm

theorem tracks_step {K : Codec} {s : Session} {b : ByteSession} (t : Tracks K s b) (op : ByteOp) (hop : op.IsCall)
    (hs : (b.step K op).1.Sendable K)
    (hc : op = .server .connect → b.server.pool.state = .Disconnected → b.ClientClear) :
    Tracks K (s.run ((lift op (b.step K op).2).map Prod.fst)).1 (b.step K op).1 ∧
    (s.run ((lift op (b.step K op).2).map Prod.fst)).2 = lift op (b.step K op).2 := by
  have hsb := sendable_before hs
  obtain ⟨hcl, hsv, hst, hup, hdown⟩ := t
  cases op with
  | client op =>
    simp only [lift, observed, ByteSession.step, List.map_cons, List.map_nil, Session.run, Session.step, hcl]
    refine ⟨⟨rfl, hsv, hst, ?_, hdown⟩, trivial⟩
    exact dir_after hup (client_window _ op) hs.1
  | server op =>
    have hr : ∀ m, op ≠ .recv m := by
      intro m h; subst h; exact hop
    have ha := seenAs_step hsv op hr
    simp only [lift, observed, ByteSession.step, List.map_cons, List.map_nil, Session.run, Session.step, ha.1]
    refine ⟨⟨hcl, ha.2, fun h => step_server (started_server op) (hst h), hup, ?_⟩, trivial⟩
    by_cases hconn : op = .connect
    · subst hconn
      have hq := connect_quiet b.server.pool
      simp only [End.after, hq.1]
      rw [List.drop_length, List.map_nil, List.append_nil]
      by_cases hd : b.server.pool.state = .Disconnected
      · obtain ⟨c1, c2, c3⟩ := hc rfl hd
        rw [c1, c2, c3] at hdown ⊢
        have hnil := dir_clear hdown rfl rfl
        exact dir_count hdown (by rw [hnil]; simp)
      · rw [hq.2 hd]; exact hdown
    · exact dir_after hdown (server_window _ op hconn) hs.2
  | clientSends a =>
    have hp := send_pool b.client a
    simp only [lift, observed, ByteSession.step, List.map_nil, Session.run]
    refine ⟨⟨by rw [hp.1]; exact hcl, hsv, hst, ?_, ?_⟩, trivial⟩
    · rw [hp.1]; exact dir_send hup a
    · rw [hp.2]; exact hdown
  | serverSends a =>
    have hp := send_pool b.server a
    simp only [lift, observed, ByteSession.step, List.map_nil, Session.run]
    refine ⟨⟨hcl, by rw [hp.1]; exact hsv, ?_, ?_, ?_⟩, trivial⟩
    · rw [hp.1, hp.2]; exact hst
    · rw [hp.2]; exact hup
    · rw [hp.1]; exact dir_send hdown a
  | clientGets =>
    cases hw : b.toClient with
    | nil =>
      have he : b.step K .clientGets = (b, none) := by simp only [ByteSession.step, hw]
      rw [he]
      exact ⟨⟨hcl, hsv, hst, hup, hdown⟩, rfl⟩
    | cons x xs =>
      have he : b.step K .clientGets =
          ({ b with client := { b.client with recv := b.client.recv.receiveData x }, toClient := xs }, none) := by
        simp only [ByteSession.step, hw]
      rw [he]
      rw [hw] at hdown
      exact ⟨⟨hcl, hsv, hst, hup, dir_get hdown⟩, rfl⟩
  | serverGets =>
    cases hw : b.toServer with
    | nil =>
      have he : b.step K .serverGets = (b, none) := by simp only [ByteSession.step, hw]
      rw [he]
      exact ⟨⟨hcl, hsv, hst, hup, hdown⟩, rfl⟩
    | cons x xs =>
      have he : b.step K .serverGets =
          ({ b with
            server := { b.server with
              pool := (ServerOp.receiveData.step b.server.pool).1
              recv := b.server.recv.receiveData x }
            toServer := xs }, none) := by
        simp only [ByteSession.step, hw]
      rw [he]
      rw [hw] at hup
      have hw' := receiveServer_window b.server.pool
      refine ⟨⟨hcl, receiveServer_reads hsv, fun _ => receiveServer_started _, dir_get hup, ?_⟩, rfl⟩
      dsimp only
      rw [hw'.1, hw'.2]
      exact hdown
  | clientNext =>
    rcases dir_take (e := b.client) hdown hsb.2 with ⟨r, he, hd, -, -, -⟩ | ⟨r, m, hm, he, hd, -⟩
    · have hx : b.step K .clientNext = ({ b with client := { b.client with recv := r } }, none) := by
        simp only [ByteSession.step, End.clientNext, he]
      rw [hx]
      exact ⟨⟨hcl, hsv, hst, hup, hd⟩, rfl⟩
    · have hx : b.step K .clientNext =
          ({ b with client := End.after K true { b.client with recv := r } ((ClientOp.recv (wire m)).step b.client.pool).1 },
           some ((ClientOp.recv (wire m)).step b.client.pool).2) := by
        simp only [ByteSession.step, End.clientNext, he]
      rw [hx] at hs ⊢
      have hm' : s.server.sendBuffer[s.atClient]? = some m := by rw [hsv.buffer]; exact hm
      simp only [lift, observed, List.map_cons, List.map_nil, Session.run, Session.step, hm', clientReceives, hcl]
      refine ⟨⟨rfl, hsv, hst, ?_, hd⟩, trivial⟩
      exact dir_after (e := { b.client with recv := r }) hup (client_window _ _) hs.1
  | serverNext =>
    rcases dir_take (e := b.server) hup hsb.1 with ⟨r, he, hd, -, -, hr⟩ | ⟨r, m, hm, he, hd, hne⟩
    · have hx : b.step K .serverNext = ({ b with server := { b.server with recv := r } }, none) := by
        simp only [ByteSession.step, End.serverNext, he]
      rw [hx]
      refine ⟨⟨hcl, hsv, ?_, hd, hdown⟩, rfl⟩
      intro h
      exact hst fun h0 => h (hr h0)
    · have hx : b.step K .serverNext =
          ({ b with server := End.after K false { b.server with recv := r } ((ServerOp.recv (wire m)).step b.server.pool).1 },
           some ((ServerOp.recv (wire m)).step b.server.pool).2) := by
        simp only [ByteSession.step, End.serverNext, he]
      rw [hx] at hs ⊢
      have hm' : s.client.sendBuffer[s.atServer]? = some m := by rw [hcl]; exact hm
      have hst' := hst hne
      simp only [lift, observed, List.map_cons, List.map_nil, Session.run, Session.step, hm', serverReceives,
        receiveServer_eq hsv hst']
      refine ⟨⟨hcl, .inl rfl, fun _ => step_server (started_server _) hst', hd, ?_⟩, trivial⟩
      exact dir_after (e := { b.server with recv := r }) hdown (server_window _ _ (by simp)) hs.2

/-- The session of whole messages that corresponds to a history. -/
def shadow (K : Codec) (s0 : Session) (b : ByteSession) (ops : List ByteOp) : Session × List (SessionOp × Except Err Ret) :=
  s0.run ((observed (b.run K ops).2).map Prod.fst)

theorem observed_snoc (K : Codec) (b : ByteSession) (ops : List ByteOp) (op : ByteOp) :
    observed (b.run K (ops ++ [op])).2 =
      observed (b.run K ops).2 ++ lift op ((b.run K ops).1.step K op).2 := by
  rw [ByteSession.run_snoc, observed_append]; rfl

theorem tracks_run {K : Codec} {s0 : Session} {b0 : ByteSession} (h0 : Tracks K s0 b0) (ops : List ByteOp)
    (hops : ∀ op ∈ ops, op.IsCall) (hs : (b0.run K ops).1.Sendable K) (hc : b0.Calm K ops) :
    Tracks K (shadow K s0 b0 ops).1 (b0.run K ops).1 ∧ (shadow K s0 b0 ops).2 = observed (b0.run K ops).2 := by
  induction ops using snoc_induction with
  | h0 => exact ⟨h0, rfl⟩
  | h1 ops op ih =>
    have hs' := hs
    rw [ByteSession.run_snoc] at hs'
    have hcalm : b0.Calm K ops := fun before after h => hc before (after ++ [op]) (by rw [h]; simp)
    obtain ⟨h1, h2⟩ := ih (fun o ho => hops o (by simp [ho])) (sendable_before hs') hcalm
    obtain ⟨h3, h4⟩ := tracks_step h1 op (hops op (by simp)) hs'
      (fun he hd => hc ops [] (by rw [he]) hd)
    unfold shadow
    rw [observed_snoc, List.map_append, Session.run_append, ByteSession.run_snoc]
    refine ⟨h3, ?_⟩
    show (shadow K s0 b0 ops).2 ++ _ = _
    rw [h2]
    congr 1

theorem tracks_of (K : Codec) {s : Session} (h : s.Drained) : Tracks K s (ByteSession.of s) where
  client := rfl
  server := .inl rfl
  started := fun h => absurd rfl h
  up := by rw [h.1]; exact dir_nil ..
  down := by rw [h.2]; exact dir_nil ..

theorem dir_done {K : Codec} {client : Bool} {buf : List Msg} {count : Nat} {out : List PSRPMessage} {e : End}
    {n : Nat} (h : Dir K client buf count out [] e.recv n) (hs : ∀ m ∈ buf, K.Sendable m)
    (ho : out = []) (ht : (e.take K).2 = none) : n = buf.length := by
  subst ho
  rcases dir_take h hs with ⟨r, he, hd, h1, h2, -⟩ | ⟨r, m, -, he, -⟩
  · have := dir_clear hd h1 h2
    have hle := hd.1
    have := List.drop_eq_nil_iff.mp this
    omega
  · rw [he] at ht; cases ht

theorem dir_unsent {K : Codec} {client : Bool} {buf : List Msg} {count : Nat} {out : List PSRPMessage} {way : List Bytes}
    {recv : Recv} {n : Nat} (h : Dir K client buf count out way recv n) (hd : (dataToSend out none).2 = .ok none) :
    out = [] := by
  obtain ⟨hn, F1, Fss, chunks, M, P, hbuf, hway, hfrag, hmsg, hflow, hgood, hMP, hnd, hlt⟩ := h
  rcases dataToSend_spec out (Flow.fits _ _ _ _ hflow hgood) none (by simp) with ⟨hnil, -⟩ | ⟨m, ms, f, fs, S', p, -, hd', -⟩
  · exact hnil
  · rw [hd'] at hd; cases hd

theorem clientNext_none {K : Codec} {e : End} (h : (e.clientNext K).2 = none) : (e.take K).2 = none := by
  unfold End.clientNext at h
  split at h
  · rename_i he; rw [he]
  · cases h
  · cases h

theorem serverNext_none {K : Codec} {e : End} (h : (e.serverNext K).2 = none) : (e.take K).2 = none := by
  unfold End.serverNext at h
  split at h
  · rename_i he; rw [he]
  · cases h
  · cases h

theorem tracks_quiet {K : Codec} {s : Session} {b : ByteSession} (t : Tracks K s b) (hs : b.Sendable K)
    (hq : b.Quiet K) : s.Drained := by
  obtain ⟨hcl, hsv, hst, hup, hdown⟩ := t
  obtain ⟨q1, q2, q3, q4, q5, q6⟩ := hq
  rw [q3] at hup
  rw [q4] at hdown
  constructor
  · rw [hcl]
    exact dir_done hup hs.1 (dir_unsent hup q1) (serverNext_none q6)
  · rw [hsv.buffer]
    exact dir_done hdown hs.2 (dir_unsent hdown q2) (clientNext_none q5)

theorem lift_api {op : ByteOp} (h : op.IsApi) (r : Option (Except Err Ret)) : ∀ x ∈ lift op r, x.1.IsApi := by
  cases op <;> cases r <;> simp [lift, observed, SessionOp.IsApi] <;> exact h

theorem observed_mem {t : List (ByteOp × Option (Except Err Ret))} {x : SessionOp × Except Err Ret}
    (h : x ∈ observed t) : ∃ y ∈ t, x ∈ lift y.1 y.2 := by
  induction t with
  | nil => cases h
  | cons y t ih =>
    have : observed (y :: t) = lift y.1 y.2 ++ observed t := observed_append [y] t
    rw [this] at h
    rcases List.mem_append.mp h with h | h
    · exact ⟨y, by simp, h⟩
    · obtain ⟨z, hz, hx⟩ := ih h
      exact ⟨z, by simp [hz], hx⟩

theorem run_ops (K : Codec) (b : ByteSession) (ops : List ByteOp) : (b.run K ops).2.map Prod.fst = ops := by
  induction ops generalizing b with
  | nil => rfl
  | cons op ops ih => simp [ByteSession.run, ih]

theorem observed_api (K : Codec) (b : ByteSession) (ops : List ByteOp) (h : ∀ op ∈ ops, op.IsApi) :
    ∀ op ∈ (observed (b.run K ops).2).map Prod.fst, op.IsApi := by
  intro op ho
  obtain ⟨x, hx, rfl⟩ := List.mem_map.mp ho
  obtain ⟨y, hy, hl⟩ := observed_mem hx
  refine lift_api (h y.1 ?_) y.2 x hl
  rw [← run_ops K b ops]
  exact List.mem_map_of_mem hy

theorem observed_delivery (K : Codec) (b : ByteSession) (ops : List ByteOp) (h : ∀ op ∈ ops, op.IsTransport) :
    ∀ op ∈ (observed (b.run K ops).2).map Prod.fst, op.IsDelivery := by
  intro op ho
  obtain ⟨x, hx, rfl⟩ := List.mem_map.mp ho
  obtain ⟨y, hy, hl⟩ := observed_mem hx
  have ht : y.1.IsTransport := h y.1 (by rw [← run_ops K b ops]; exact List.mem_map_of_mem hy)
  obtain ⟨op, r⟩ := y
  cases op with
  | client => exact absurd ht id
  | server => exact absurd ht id
  | _ => cases r <;> simp_all [lift, observed, SessionOp.IsDelivery]

theorem isApi_call {op : ByteOp} (h : op.IsApi) : op.IsCall := by
  cases op with
  | client op => cases op <;> first | trivial | exact absurd h id
  | server op => cases op <;> first | trivial | exact absurd h id
  | _ => trivial

theorem isTransport_call {op : ByteOp} (h : op.IsTransport) : op.IsCall := by
  cases op <;> first | trivial | exact absurd h id

theorem run_grows (K : Codec) (b : ByteSession) (ops : List ByteOp) :
    b.client.pool.sendBuffer <+: (b.run K ops).1.client.pool.sendBuffer ∧
    b.server.pool.sendBuffer <+: (b.run K ops).1.server.pool.sendBuffer := by
  induction ops generalizing b with
  | nil => exact ⟨List.prefix_refl _, List.prefix_refl _⟩
  | cons op ops ih =>
    have h1 := step_grows K b op
    have h2 := ih (b.step K op).1
    exact ⟨h1.1.trans h2.1, h1.2.trans h2.2⟩

theorem up_flushed {K : Codec} {s : Session} (amounts : List (Option Int)) : ∀ {b : ByteSession}, Tracks K s b → b.Sendable K →
    (∀ a, some a ∈ amounts → 22 ≤ a) → bytesQueued b.client.out ≤ amounts.length →
    ∃ b', (b.run K (amounts.map .clientSends)).1 = b' ∧ Tracks K s b' ∧ b'.Sendable K ∧ b'.client.out = [] ∧
      b'.toServer.length ≤ b.toServer.length + amounts.length := by
  induction amounts with
  | nil =>
    intro b t hs _ hq
    refine ⟨b, rfl, t, hs, ?_, by simp⟩
    obtain ⟨hn, F1, Fss, chunks, M, P, hbuf, hway, hfrag, hmsg, hflow, hgood, hMP, hnd, hlt⟩ := t.up
    have hD := Flow.dataNe _ _ _ _ hflow hgood
    cases hb : b.client.out with
    | nil => rfl
    | cons m ms =>
      exfalso
      rw [hb] at hq hD
      simp only [bytesQueued, List.map_cons, List.sum_cons, List.length_nil] at hq
      exact hD m (by simp) (List.length_eq_zero_iff.mp (by omega))
  | cons a as ih =>
    intro b t hs ha hq
    have hp := send_pool b.client a
    have hs1 : (b.step K (.clientSends a)).1.Sendable K := by
      refine ⟨?_, ?_⟩ <;> simp only [ByteSession.step, hp.1]
      · exact hs.1
      · exact hs.2
    have t1 := (tracks_step t (.clientSends a) trivial hs1 (fun h => by cases h)).1
    have hamt : ∀ x, a = some x → 22 ≤ x := fun x hx => ha x (by simp [hx])
    have hstep : bytesQueued (b.step K (.clientSends a)).1.client.out ≤ as.length ∧
        (b.step K (.clientSends a)).1.toServer.length ≤ b.toServer.length + 1 := by
      obtain ⟨hn, F1, Fss, chunks, M, P, hbuf, hway, hfrag, hmsg, hflow, hgood, hMP, hnd, hlt⟩ := t.up
      have hD := Flow.dataNe _ _ _ _ hflow hgood
      simp only [List.length_cons] at hq
      rcases dataToSend_spec b.client.out (Flow.fits _ _ _ _ hflow hgood) a hamt with ⟨hnil, hd⟩ |
        ⟨m, ms, f, fs, S', p, hSeq, hd, -, -, -, hsent, -, -, hne⟩
      · simp only [ByteSession.step, End.send, hd, bytesQueued, List.map_nil, List.sum_nil, List.append_nil]
        omega
      · simp only [ByteSession.step, End.send, hd]
        have h1 := sent_bytes hsent
        have h2 := hne (hD m (by rw [hSeq]; simp))
        have h3 : f.data.length ≠ 0 := fun h => h2 (List.length_eq_zero_iff.mp h)
        simp only [List.map_cons, List.sum_cons] at h1
        simp only [List.length_append, List.length_cons, List.length_nil]
        omega
    obtain ⟨b', h1, h2, h3, h4, h5⟩ := ih t1 hs1 (fun x hx => ha x (by simp [hx])) hstep.1
    refine ⟨b', h1, h2, h3, h4, ?_⟩
    simp only [List.length_cons]
    have := hstep.2
    omega

theorem up_delivered {K : Codec} {s : Session} (j : Nat) : ∀ {b : ByteSession}, Tracks K s b → b.Sendable K →
    b.client.out = [] → b.toServer.length ≤ j →
    ∃ b', (b.run K (List.replicate j .serverGets)).1 = b' ∧ Tracks K s b' ∧ b'.Sendable K ∧ b'.client.out = [] ∧
      b'.toServer = [] := by
  induction j with
  | zero =>
    intro b t hs ho hw
    exact ⟨b, rfl, t, hs, ho, List.length_eq_zero_iff.mp (by omega)⟩
  | succ j ih =>
    intro b t hs ho hw
    have hs1 : (b.step K .serverGets).1.Sendable K := by
      cases hb : b.toServer with
      | nil => simp only [ByteSession.step, hb]; exact hs
      | cons x xs =>
        simp only [ByteSession.step, hb]
        exact ⟨hs.1, by simpa [(receiveServer_window b.server.pool).1] using hs.2⟩
    have t1 : Tracks K s (b.step K .serverGets).1 := by
      have := (tracks_step t .serverGets trivial hs1 (fun h => by cases h)).1
      have hl : lift .serverGets (b.step K .serverGets).2 = [] := by
        cases hr : (b.step K .serverGets).2 <;> rfl
      rw [hl] at this
      exact this
    have ho1 : (b.step K .serverGets).1.client.out = [] ∧ (b.step K .serverGets).1.toServer.length ≤ j := by
      cases hb : b.toServer with
      | nil =>
        simp only [ByteSession.step, hb]
        exact ⟨ho, by simp⟩
      | cons x xs =>
        rw [hb] at hw
        simp only [List.length_cons] at hw
        simp only [ByteSession.step, hb]
        exact ⟨ho, by omega⟩
    obtain ⟨b', h1, h2⟩ := ih t1 hs1 ho1.1 ho1.2
    exact ⟨b', h1, h2⟩

theorem up_arrives {K : Codec} {s : Session} {b : ByteSession} (t : Tracks K s b) (hs : b.Sendable K)
    (hp : s.atServer < b.client.pool.sendBuffer.length) (amounts : List (Option Int)) (ha : ∀ a, some a ∈ amounts → 22 ≤ a)
    (hk : bytesQueued b.client.out ≤ amounts.length) (j : Nat) (hj : b.toServer.length + amounts.length ≤ j) :
    ((b.run K (amounts.map .clientSends ++ List.replicate j .serverGets)).1.step K .serverNext).2 ≠ none := by
  obtain ⟨b1, e1, t1, s1, o1, w1⟩ := up_flushed amounts t hs ha hk
  obtain ⟨b2, e2, t2, s2, o2, w2⟩ := up_delivered j t1 s1 o1 (by omega)
  have hrun : (b.run K (amounts.map .clientSends ++ List.replicate j .serverGets)).1 = b2 := by
    rw [ByteSession.run_append, e1]; exact e2
  have hlen : b.client.pool.sendBuffer.length ≤ b2.client.pool.sendBuffer.length := by
    rw [← hrun]
    exact (And.left (run_grows K b _)).length_le
  rw [hrun]
  intro h
  have hd := t2.up
  rw [w2] at hd
  have := dir_done hd s2.1 o2 (serverNext_none h)
  omega

theorem down_flushed {K : Codec} {s : Session} (amounts : List (Option Int)) : ∀ {b : ByteSession}, Tracks K s b → b.Sendable K →
    (∀ a, some a ∈ amounts → 22 ≤ a) → bytesQueued b.server.out ≤ amounts.length →
    ∃ b', (b.run K (amounts.map .serverSends)).1 = b' ∧ Tracks K s b' ∧ b'.Sendable K ∧ b'.server.out = [] ∧
      b'.toClient.length ≤ b.toClient.length + amounts.length := by
  induction amounts with
  | nil =>
    intro b t hs _ hq
    refine ⟨b, rfl, t, hs, ?_, by simp⟩
    obtain ⟨hn, F1, Fss, chunks, M, P, hbuf, hway, hfrag, hmsg, hflow, hgood, hMP, hnd, hlt⟩ := t.down
    have hD := Flow.dataNe _ _ _ _ hflow hgood
    cases hb : b.server.out with
    | nil => rfl
    | cons m ms =>
      exfalso
      rw [hb] at hq hD
      simp only [bytesQueued, List.map_cons, List.sum_cons, List.length_nil] at hq
      exact hD m (by simp) (List.length_eq_zero_iff.mp (by omega))
  | cons a as ih =>
    intro b t hs ha hq
    have hp := send_pool b.server a
    have hs1 : (b.step K (.serverSends a)).1.Sendable K := by
      refine ⟨?_, ?_⟩ <;> simp only [ByteSession.step, hp.1]
      · exact hs.1
      · exact hs.2
    have t1 := (tracks_step t (.serverSends a) trivial hs1 (fun h => by cases h)).1
    have hamt : ∀ x, a = some x → 22 ≤ x := fun x hx => ha x (by simp [hx])
    have hstep : bytesQueued (b.step K (.serverSends a)).1.server.out ≤ as.length ∧
        (b.step K (.serverSends a)).1.toClient.length ≤ b.toClient.length + 1 := by
      obtain ⟨hn, F1, Fss, chunks, M, P, hbuf, hway, hfrag, hmsg, hflow, hgood, hMP, hnd, hlt⟩ := t.down
      have hD := Flow.dataNe _ _ _ _ hflow hgood
      simp only [List.length_cons] at hq
      rcases dataToSend_spec b.server.out (Flow.fits _ _ _ _ hflow hgood) a hamt with ⟨hnil, hd⟩ |
        ⟨m, ms, f, fs, S', p, hSeq, hd, -, -, -, hsent, -, -, hne⟩
      · simp only [ByteSession.step, End.send, hd, bytesQueued, List.map_nil, List.sum_nil, List.append_nil]
        omega
      · simp only [ByteSession.step, End.send, hd]
        have h1 := sent_bytes hsent
        have h2 := hne (hD m (by rw [hSeq]; simp))
        have h3 : f.data.length ≠ 0 := fun h => h2 (List.length_eq_zero_iff.mp h)
        simp only [List.map_cons, List.sum_cons] at h1
        simp only [List.length_append, List.length_cons, List.length_nil]
        omega
    obtain ⟨b', h1, h2, h3, h4, h5⟩ := ih t1 hs1 (fun x hx => ha x (by simp [hx])) hstep.1
    refine ⟨b', h1, h2, h3, h4, ?_⟩
    simp only [List.length_cons]
    have := hstep.2
    omega

theorem down_delivered {K : Codec} {s : Session} (j : Nat) : ∀ {b : ByteSession}, Tracks K s b → b.Sendable K →
    b.server.out = [] → b.toClient.length ≤ j →
    ∃ b', (b.run K (List.replicate j .clientGets)).1 = b' ∧ Tracks K s b' ∧ b'.Sendable K ∧ b'.server.out = [] ∧
      b'.toClient = [] := by
  induction j with
  | zero =>
    intro b t hs ho hw
    exact ⟨b, rfl, t, hs, ho, List.length_eq_zero_iff.mp (by omega)⟩
  | succ j ih =>
    intro b t hs ho hw
    have hs1 : (b.step K .clientGets).1.Sendable K := by
      cases hb : b.toClient with
      | nil => simp only [ByteSession.step, hb]; exact hs
      | cons x xs =>
        simp only [ByteSession.step, hb]
        exact ⟨hs.1, by simpa [(receiveServer_window b.server.pool).1] using hs.2⟩
    have t1 : Tracks K s (b.step K .clientGets).1 := by
      have := (tracks_step t .clientGets trivial hs1 (fun h => by cases h)).1
      have hl : lift .clientGets (b.step K .clientGets).2 = [] := by
        cases hr : (b.step K .clientGets).2 <;> rfl
      rw [hl] at this
      exact this
    have ho1 : (b.step K .clientGets).1.server.out = [] ∧ (b.step K .clientGets).1.toClient.length ≤ j := by
      cases hb : b.toClient with
      | nil =>
        simp only [ByteSession.step, hb]
        exact ⟨ho, by simp⟩
      | cons x xs =>
        rw [hb] at hw
        simp only [List.length_cons] at hw
        simp only [ByteSession.step, hb]
        exact ⟨ho, by omega⟩
    obtain ⟨b', h1, h2⟩ := ih t1 hs1 ho1.1 ho1.2
    exact ⟨b', h1, h2⟩

theorem down_arrives {K : Codec} {s : Session} {b : ByteSession} (t : Tracks K s b) (hs : b.Sendable K)
    (hp : s.atClient < b.server.pool.sendBuffer.length) (amounts : List (Option Int)) (ha : ∀ a, some a ∈ amounts → 22 ≤ a)
    (hk : bytesQueued b.server.out ≤ amounts.length) (j : Nat) (hj : b.toClient.length + amounts.length ≤ j) :
    ((b.run K (amounts.map .serverSends ++ List.replicate j .clientGets)).1.step K .clientNext).2 ≠ none := by
  obtain ⟨b1, e1, t1, s1, o1, w1⟩ := down_flushed amounts t hs ha hk
  obtain ⟨b2, e2, t2, s2, o2, w2⟩ := down_delivered j t1 s1 o1 (by omega)
  have hrun : (b.run K (amounts.map .serverSends ++ List.replicate j .clientGets)).1 = b2 := by
    rw [ByteSession.run_append, e1]; exact e2
  have hlen : b.server.pool.sendBuffer.length ≤ b2.server.pool.sendBuffer.length := by
    rw [← hrun]
    exact (And.right (run_grows K b _)).length_le
  rw [hrun]
  intro h
  have hd := t2.down
  rw [w2] at hd
  have := dir_done hd s2.2 o2 (clientNext_none h)
  omega

end Verif
