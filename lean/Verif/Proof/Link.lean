import Verif.Model.Link
import Verif.Spec.Transport
import Verif.Proof.Transport

/-! # The invariant of the link -/

namespace Verif

/-- `addFragment` does not touch the byte buffer (/repo/src/psrpcore/_base.py:330-343). -/
theorem Recv.addFragment_buffer (r : Recv) (f : Fragment) :
    (r.addFragment f).1.buffer = r.buffer := by
  unfold Recv.addFragment
  dsimp only
  split
  · rfl
  · split
    · split <;> rfl
    · rfl

/-- The iteration bound is irrelevant once it is at least the buffer length. -/
theorem drainLoop_stable (n : Nat) : ∀ (m : Nat) (r : Recv), r.buffer.length ≤ n →
    r.buffer.length ≤ m → Recv.drainLoop n r = Recv.drainLoop m r := by
  induction n with
  | zero =>
    intro m r hn _
    have hb : r.buffer = [] := List.length_eq_zero_iff.mp (by omega)
    cases m <;> simp [Recv.drainLoop, hb]
  | succ n ih =>
    intro m r hn hm
    cases m with
    | zero =>
      have hb : r.buffer = [] := List.length_eq_zero_iff.mp (by omega)
      simp [Recv.drainLoop, hb]
    | succ m =>
      simp only [Recv.drainLoop]
      split
      · rfl
      · rename_i hne
        have hpos : 0 < r.buffer.length := List.length_pos_iff.mpr hne
        split
        · rfl
        · rename_i f hf
          split
          · rfl
          · rename_i r' hr
            have hbuf : r'.buffer = r.buffer.drop (21 + f.data.length) := by
              have := Recv.addFragment_buffer
                ({ r with buffer := r.buffer.drop (21 + f.data.length) } : Recv) f
              rw [hr] at this; exact this
            have hl := congrArg List.length hbuf
            rw [List.length_drop] at hl
            exact ih m r' (by omega) (by omega)

/-- The loop as the Python code writes it. -/
theorem Recv.drain_eq (r : Recv) : r.drain =
    if r.buffer = [] then (r, .ok ())
    else
      match unpackFragment r.buffer with
      | .error e => (r, .error e)
      | .ok f =>
        match ({ r with buffer := r.buffer.drop (21 + f.data.length) } : Recv).addFragment f with
        | (r', .error e) => (r', .error e)
        | (r', .ok ()) => r'.drain := by
  unfold Recv.drain
  cases hb : r.buffer with
  | nil => simp [Recv.drainLoop]
  | cons x xs =>
    rw [← hb]
    have hlen : r.buffer.length = xs.length + 1 := by rw [hb]; rfl
    rw [hlen, Recv.drainLoop]
    split
    · rfl
    · cases hf : unpackFragment r.buffer with
      | error e => rfl
      | ok f =>
        dsimp only
        split
        · rename_i h; rw [h]
        · rename_i r' h
          rw [h]
          dsimp only
          have hbuf : r'.buffer = r.buffer.drop (21 + f.data.length) := by
            have := Recv.addFragment_buffer
              ({ r with buffer := r.buffer.drop (21 + f.data.length) } : Recv) f
            rw [h] at this; exact this
          have hl := congrArg List.length hbuf
          rw [List.length_drop] at hl
          exact drainLoop_stable _ _ _ (by omega) (Nat.le_refl _)

/-- A queued message as the proofs see it. -/
structure QMsg where
  oid : Nat
  raw : Bytes
  msg : Message

structure QMsg.Good (q : QMsg) : Prop where
  oid : q.oid < 2 ^ 64
  len : q.raw.length < 2 ^ 32
  ne : q.raw ≠ []
  dec : unpackMessage q.raw = .ok q.msg

/-- Untouched messages. -/
inductive Pristine : List PSRPMessage → List QMsg → Prop
  | nil : Pristine [] []
  | cons {m q ms qs} : m.objectId = q.oid → m.data = q.raw → m.fragCounter = 0 →
      Pristine ms qs → Pristine (m :: ms) (q :: qs)

/-- The send buffer, when `chunks` of its head message have already been sent. -/
def HeadOk (chunks : List Bytes) : List PSRPMessage → List QMsg → Prop
  | [], [] => chunks = []
  | m :: ms, q :: qs => m.objectId = q.oid ∧ chunks.flatten ++ m.data = q.raw ∧
      m.fragCounter = chunks.length ∧ m.data ≠ [] ∧
      chunks.length ≤ chunks.flatten.length + 1 ∧ Pristine ms qs
  | _, _ => False

/-- Fragments in flight: the receiver holds `chunks` of the first pending message. -/
def Flow : List Bytes → List Fragment → List PSRPMessage → List QMsg → Prop
  | chunks, [], S, P => HeadOk chunks S P
  | _, _ :: _, _, [] => False
  | chunks, f :: F, S, q :: qs =>
    f.objectId = q.oid ∧ f.fragmentId = chunks.length ∧ f.Fits ∧
    if f.end_ then (chunks ++ [f.data]).flatten = q.raw ∧ Flow [] F S qs
    else Flow (chunks ++ [f.data]) F S (q :: qs)

theorem Pristine.snoc {S P m q} (h : Pristine S P) (h1 : m.objectId = q.oid)
    (h2 : m.data = q.raw) (h3 : m.fragCounter = 0) : Pristine (S ++ [m]) (P ++ [q]) := by
  induction h with
  | nil => exact .cons h1 h2 h3 .nil
  | cons a b c _ ih => exact .cons a b c ih

theorem Pristine.headOk {S P} (h : Pristine S P) (hg : ∀ q ∈ P, q.Good) : HeadOk [] S P := by
  cases h with
  | nil => rfl
  | cons a b c d =>
    rename_i m q ms qs
    refine ⟨a, by simpa using b, by simpa using c, ?_, by simp, d⟩
    rw [b]; exact (hg q (by simp)).ne

theorem HeadOk.snoc {chunks S P m q} (h : HeadOk chunks S P) (h1 : m.objectId = q.oid)
    (h2 : m.data = q.raw) (h3 : m.fragCounter = 0) (hq : q.Good) :
    HeadOk chunks (S ++ [m]) (P ++ [q]) := by
  match S, P, h with
  | [], [], h =>
    cases h
    refine ⟨h1, by simpa using h2, by simpa using h3, ?_, by simp, .nil⟩
    rw [h2]; exact hq.ne
  | s :: S, p :: P, h =>
    obtain ⟨a, b, c, d, e, f⟩ := h
    exact ⟨a, b, c, d, e, f.snoc h1 h2 h3⟩

theorem Flow.snoc {m q} (h1 : m.objectId = q.oid) (h2 : m.data = q.raw) (h3 : m.fragCounter = 0)
    (hq : q.Good) : ∀ (F : List Fragment) (chunks S P), Flow chunks F S P →
    Flow chunks F (S ++ [m]) (P ++ [q])
  | [], chunks, S, P, h => by
    simp only [Flow] at h ⊢; exact h.snoc h1 h2 h3 hq
  | f :: F, chunks, S, [], h => by simp [Flow] at h
  | f :: F, chunks, S, p :: P, h => by
    simp only [Flow, List.cons_append] at h ⊢
    obtain ⟨a, b, c, d⟩ := h
    refine ⟨a, b, c, ?_⟩
    split
    · rename_i he
      rw [if_pos he] at d
      exact ⟨d.1, Flow.snoc h1 h2 h3 hq F [] S P d.2⟩
    · rename_i he
      rw [if_neg he] at d
      exact Flow.snoc h1 h2 h3 hq F _ S (p :: P) d

theorem HeadOk.fits {chunks S P} (h : HeadOk chunks S P) (hg : ∀ q ∈ P, q.Good) :
    ∀ m ∈ S, m.Fits := by
  match S, P, h with
  | [], [], _ => simp
  | s :: S, p :: P, h =>
    obtain ⟨a, b, c, d, e, f⟩ := h
    have hp := hg p (by simp)
    intro m hm
    rcases List.mem_cons.mp hm with rfl | hm
    · have hl := congrArg List.length b
      rw [List.length_append] at hl
      have := hp.len
      refine ⟨a ▸ hp.oid, ?_, by omega⟩
      rw [c]; omega
    · have aux : ∀ {S P}, Pristine S P → (∀ q ∈ P, q.Good) → ∀ m ∈ S, m.Fits := by
        intro S P hpr hg
        induction hpr with
        | nil => simp
        | cons a b c _ ih =>
          rename_i m q ms qs _
          have hq := hg q (by simp)
          intro m' hm'
          rcases List.mem_cons.mp hm' with rfl | hm'
          · exact ⟨a ▸ hq.oid, by rw [c]; decide, b ▸ hq.len⟩
          · exact ih (fun q h => hg q (by simp [h])) m' hm'
      exact aux f (fun q h => hg q (by simp [h])) m hm

/-- What `data_to_send` emits continues the flow. -/
theorem HeadOk.send {pid S fs S'} (hs : Sent pid S fs S') :
    ∀ {chunks P}, HeadOk chunks S P → (∀ q ∈ P, q.Good) →
    (chunks = [] ∨ ∀ f fs', fs = f :: fs' → f.data ≠ []) → Flow chunks fs S' P := by
  induction hs with
  | stop S => intro chunks P h _ _; simpa [Flow] using h
  | full m ms fs ms' hp hs ih =>
    intro chunks P h hg hprog
    match P, h with
    | q :: qs, h =>
      have hf := HeadOk.fits h hg m (by simp)
      obtain ⟨a, b, c, d, e, f⟩ := h
      have hg' : ∀ q ∈ qs, q.Good := fun q h => hg q (by simp [h])
      refine ⟨a, c, ⟨hf.oid, hf.fid, hf.len, rfl⟩, ?_⟩
      rw [if_pos rfl]
      refine ⟨by simpa using b, ih (f.headOk hg') hg' (.inl rfl)⟩
  | part m ms n hp hn =>
    intro chunks P h hg hprog
    match P, h with
    | q :: qs, h =>
      have hf := HeadOk.fits h hg m (by simp)
      obtain ⟨a, b, c, d, e, f⟩ := h
      refine ⟨a, c, ⟨hf.oid, hf.fid, ?_, rfl⟩, ?_⟩
      · have := hf.len; simp only [List.length_take]; omega
      · simp only [Bool.false_eq_true, if_false, Flow]
        refine ⟨a, ?_, by simp [c], ?_, ?_, f⟩
        · simp only [List.flatten_append, List.flatten_cons, List.flatten_nil, List.append_nil,
            List.append_assoc, List.take_append_drop]
          exact b
        · intro hc
          have := congrArg List.length hc
          simp only [List.length_drop, List.length_nil] at this
          omega
        · rcases hprog with rfl | hprog
          · simp
          · have h1 := hprog _ _ rfl
            have h2 : (m.data.take n).length ≠ 0 := fun h => h1 (List.length_eq_zero_iff.mp h)
            simp only [List.length_append, List.flatten_append, List.flatten_cons,
              List.flatten_nil, List.append_nil, List.length_cons, List.length_nil]
            omega

theorem Flow.send {pid S fs S'} (hs : Sent pid S fs S')
    (hne : ∀ m, S.head? = some m → m.data ≠ [] → ∀ f fs', fs = f :: fs' → f.data ≠ []) :
    ∀ (F : List Fragment) (chunks P), Flow chunks F S P → (∀ q ∈ P, q.Good) →
    Flow chunks (F ++ fs) S' P
  | [], chunks, P, h, hg => by
    simp only [Flow] at h
    refine h.send hs hg (.inr ?_)
    match S, P, h with
    | [], [], h => cases hs; simp
    | s :: S, p :: P, h => exact hne s rfl h.2.2.2.1
  | f :: F, chunks, [], h, hg => by simp [Flow] at h
  | f :: F, chunks, p :: P, h, hg => by
    simp only [Flow, List.cons_append] at h ⊢
    obtain ⟨a, b, c, d⟩ := h
    refine ⟨a, b, c, ?_⟩
    split
    · rename_i he
      rw [if_pos he] at d
      exact ⟨d.1, Flow.send hs hne F [] P d.2 (fun q h => hg q (by simp [h]))⟩
    · rename_i he
      rw [if_neg he] at d
      exact Flow.send hs hne F _ (p :: P) d hg

theorem Flow.fits : ∀ (F : List Fragment) (chunks S P), Flow chunks F S P →
    (∀ q ∈ P, q.Good) → ∀ m ∈ S, m.Fits
  | [], chunks, S, P, h, hg => by
    simp only [Flow] at h; exact h.fits hg
  | f :: F, chunks, S, [], h, hg => by simp [Flow] at h
  | f :: F, chunks, S, p :: P, h, hg => by
    simp only [Flow] at h
    obtain ⟨a, b, c, d⟩ := h
    split at d
    · exact Flow.fits F _ S P d.2 (fun q h => hg q (by simp [h]))
    · exact Flow.fits F _ S (p :: P) d hg

theorem Flow.dataNe : ∀ (F : List Fragment) (chunks S P), Flow chunks F S P →
    (∀ q ∈ P, q.Good) → ∀ m ∈ S, m.data ≠ []
  | [], chunks, S, P, h, hg => by
    simp only [Flow] at h
    match S, P, h with
    | [], [], _ => simp
    | s :: S, p :: P, h =>
      obtain ⟨a, b, c, d, e, f⟩ := h
      intro m hm
      rcases List.mem_cons.mp hm with rfl | hm
      · exact d
      · have aux : ∀ {S P}, Pristine S P → (∀ q ∈ P, q.Good) → ∀ m ∈ S, m.data ≠ [] := by
          intro S P hpr hg
          induction hpr with
          | nil => simp
          | cons a b c _ ih =>
            rename_i m q ms qs _
            intro m' hm'
            rcases List.mem_cons.mp hm' with rfl | hm'
            · rw [b]; exact (hg q (by simp)).ne
            · exact ih (fun q h => hg q (by simp [h])) m' hm'
        exact aux f (fun q h => hg q (by simp [h])) m hm
  | f :: F, chunks, S, [], h, hg => by simp [Flow] at h
  | f :: F, chunks, S, p :: P, h, hg => by
    simp only [Flow] at h
    obtain ⟨a, b, c, d⟩ := h
    split at d
    · exact Flow.dataNe F _ S P d.2 (fun q h => hg q (by simp [h]))
    · exact Flow.dataNe F _ S (p :: P) d hg

/-- The receiver's fragment dict when it holds `chunks` of the first pending message. -/
def fragDict (chunks : List Bytes) (P : List QMsg) : Dict Nat (List Bytes) :=
  match chunks, P with
  | [], _ => []
  | _, [] => []
  | c :: cs, q :: _ => [(q.oid, c :: cs)]

theorem fragDict_get (chunks q qs) :
    ((fragDict chunks (q :: qs)).get? q.oid).getD [] = chunks := by
  cases chunks <;> simp [fragDict, Dict.get?]

theorem fragDict_set (chunks q qs v) :
    (fragDict chunks (q :: qs)).set q.oid v = [(q.oid, v)] := by
  cases chunks <;> simp [fragDict, Dict.set]

/-- One `drain` of fitting fragments. -/
theorem drain_cons (r : Recv) (f : Fragment) (rest : Bytes) (hf : f.Fits)
    (hb : r.buffer = f.wire ++ rest) :
    r.drain = match ({ r with buffer := rest } : Recv).addFragment f with
      | (r', .error e) => (r', .error e)
      | (r', .ok ()) => r'.drain := by
  have hne : r.buffer ≠ [] := by
    intro h
    rw [hb] at h
    have := congrArg List.length h
    rw [List.length_append, Fragment.wire_length] at this
    simp at this
  rw [Recv.drain_eq, if_neg hne, hb, hf.unpack rest]
  have hd : (f.wire ++ rest).drop (21 + f.data.length) = rest := by
    rw [← Fragment.wire_length]; simp
  simp only [hd]

theorem drain_nil (r : Recv) (hb : r.buffer = []) : r.drain = (r, .ok ()) := by
  rw [Recv.drain_eq, if_pos hb]

theorem drain_flow (F2 : List Fragment) (S : List PSRPMessage) :
    ∀ (F1 : List Fragment) (chunks : List Bytes) (P : List QMsg) (r : Recv),
    r.buffer = wireOf F1 → r.fragments = fragDict chunks P → Flow chunks (F1 ++ F2) S P →
    (∀ q ∈ P, q.Good) → (r.messages.keys ++ P.map QMsg.oid).Nodup →
    ∃ r' D P' chunks', r.drain = (r', .ok ()) ∧ P = D ++ P' ∧ r'.buffer = [] ∧
      r'.fragments = fragDict chunks' P' ∧
      r'.messages = r.messages ++ D.map (fun q => (q.oid, q.msg)) ∧ Flow chunks' F2 S P'
  | [], chunks, P, r, hb, hfr, hfl, hg, hnd =>
    ⟨r, [], P, chunks, drain_nil r hb, rfl, hb, hfr, by simp, hfl⟩
  | f :: F1, chunks, [], r, hb, hfr, hfl, hg, hnd => by simp [Flow] at hfl
  | f :: F1, chunks, q :: P, r, hb, hfr, hfl, hg, hnd => by
    simp only [Flow, List.cons_append] at hfl
    obtain ⟨ho, hfid, hfits, hrest⟩ := hfl
    have hq := hg q (by simp)
    rw [drain_cons r f (wireOf F1) hfits (by rw [hb]; rfl)]
    have hget : ((r.fragments.get? f.objectId).getD []) = chunks := by
      rw [hfr, ho]; exact fragDict_get ..
    have hset : ∀ v w, (r.fragments.set f.objectId v).set f.objectId w = [(q.oid, w)] := by
      intro v w; rw [Dict.set_set, hfr, ho]; exact fragDict_set ..
    by_cases he : f.end_ = true
    · rw [if_pos he] at hrest
      have hnew : q.oid ∉ r.messages.keys := by
        intro hc
        rw [List.nodup_append] at hnd
        exact hnd.2.2 _ hc q.oid (by simp) rfl
      have hadd : ({ r with buffer := wireOf F1 } : Recv).addFragment f =
          ({ buffer := wireOf F1, fragments := [],
             messages := r.messages ++ [(q.oid, q.msg)] }, .ok ()) := by
        simp only [Recv.addFragment, hget, hset]
        rw [if_neg (by simpa using hfid), if_pos he, hrest.1, hq.dec]
        simp only [ho, Dict.set_new _ _ _ hnew]
        simp [Dict.erase]
      rw [hadd]
      have hnd' : ((r.messages ++ [(q.oid, q.msg)] : Dict Nat Message).keys ++
          P.map QMsg.oid).Nodup := by
        simpa [Dict.keys] using hnd
      obtain ⟨r', D, P', chunks', h1, h2, h3, h4, h5, h6⟩ :=
        drain_flow F2 S F1 [] P
          { buffer := wireOf F1, fragments := [], messages := r.messages ++ [(q.oid, q.msg)] }
          rfl (by cases P <;> rfl) hrest.2 (fun q h => hg q (by simp [h])) hnd'
      exact ⟨r', q :: D, P', chunks', h1, by rw [h2]; rfl, h3, h4, by rw [h5]; simp, h6⟩
    · have he' : f.end_ = false := by simpa using he
      rw [if_neg he] at hrest
      have hadd : ({ r with buffer := wireOf F1 } : Recv).addFragment f =
          ({ buffer := wireOf F1, fragments := fragDict (chunks ++ [f.data]) (q :: P),
             messages := r.messages }, .ok ()) := by
        simp only [Recv.addFragment, hget, hset]
        rw [if_neg (by simpa using hfid), if_neg he]
        cases chunks <;> rfl
      rw [hadd]
      obtain ⟨r', D, P', chunks', h1, h2, h3, h4, h5, h6⟩ :=
        drain_flow F2 S F1 (chunks ++ [f.data]) (q :: P)
          { buffer := wireOf F1, fragments := fragDict (chunks ++ [f.data]) (q :: P),
            messages := r.messages }
          rfl rfl hrest hg hnd
      exact ⟨r', D, P', chunks', h1, h2, h3, h4, h5, h6⟩

/-- The invariant of a link. -/
structure LinkInv (l : Link) : Prop where
  errors : l.errors = []
  ex : ∃ (F1 : List Fragment) (Fss : List (List Fragment)) (chunks : List Bytes)
      (T M P : List QMsg),
    l.recv.buffer = wireOf F1 ∧ l.wire = Fss.map wireOf ∧
    l.recv.fragments = fragDict chunks P ∧
    l.recv.messages = M.map (fun q => (q.oid, q.msg)) ∧
    Flow chunks (F1 ++ Fss.flatten) l.sender.buffer P ∧
    (∀ q ∈ P, q.Good) ∧
    (T ++ M ++ P).map QMsg.oid = List.range' 1 (T ++ M ++ P).length ∧
    l.sender.fragmentCount = (T ++ M ++ P).length + 1 ∧
    l.taken = T.map QMsg.msg ∧ l.queued = (T ++ M ++ P).map QMsg.msg

theorem linkInv_init (client : Bool) (rpid : UUID) :
    LinkInv { sender := { client, rpid } } where
  errors := rfl
  ex := ⟨[], [], [], [], [], [], rfl, rfl, rfl, rfl, rfl, by simp, rfl, rfl, rfl, rfl⟩

theorem linkInv_step (l : Link) (op : LinkOp) (h : LinkInv l) (hop : op.Legal)
    (hc : l.sender.fragmentCount < 2 ^ 64) :
    LinkInv (l.step op) ∧ (l.step op).sender.fragmentCount ≤ l.sender.fragmentCount + 1 ∧
    (l.step op).sender.client = l.sender.client ∧ (l.step op).sender.rpid = l.sender.rpid := by
  obtain ⟨herr, F1, Fss, chunks, T, M, P, hbuf, hwire, hfrag, hmsg, hflow, hgood, hoid, hcnt,
    htaken, hqueued⟩ := h
  cases op with
  | queue t data pid st =>
    obtain ⟨hlen, hbom, hpid⟩ := hop
    have hen : l.sender.enqueue t data pid st =
        ({ l.sender with
            fragmentCount := l.sender.fragmentCount + 1,
            buffer := l.sender.buffer ++ [⟨t, pid, l.sender.fragmentCount, st,
              msgBytes l.sender.client t data l.sender.rpid pid, 0⟩] }, .ok ()) := by
      simp only [Sender.enqueue, createMessage_ok]
    let q : QMsg := ⟨l.sender.fragmentCount, msgBytes l.sender.client t data l.sender.rpid pid,
        ⟨if l.sender.client then 2 else 1, t, l.sender.rpid, pid, data⟩⟩
    have hq : q.Good := by
      refine ⟨hc, ?_, ?_, ?_⟩
      · simp only [q, msgBytes_length]; omega
      · intro h0
        have := congrArg List.length h0
        simp only [q, msgBytes_length, List.length_nil] at this
        omega
      · simp only [q, unpackMessage_msgBytes]
        have hb : utf8Bom.isPrefixOf data = false := by
          cases hb : utf8Bom.isPrefixOf data with
          | false => rfl
          | true => exact absurd (List.isPrefixOf_iff_prefix.mp hb) hbom
        rw [hb]
        cases pid with
        | none => simp
        | some p =>
          have : p ≠ EMPTY_UUID := by
            intro he; exact hpid p rfl (by rw [he]; rfl)
          simp [this]
    have hstep : l.step (.queue t data pid st) = { l with
        sender := { l.sender with
            fragmentCount := l.sender.fragmentCount + 1,
            buffer := l.sender.buffer ++ [⟨t, pid, l.sender.fragmentCount, st,
              msgBytes l.sender.client t data l.sender.rpid pid, 0⟩] },
        queued := l.queued ++ [q.msg] } := by
      simp only [Link.step, hen, q]
    rw [hstep]
    refine ⟨⟨herr, F1, Fss, chunks, T, M, P ++ [q], hbuf, hwire, ?_, hmsg, ?_, ?_, ?_, ?_, htaken,
      ?_⟩, Nat.le_refl _, rfl, rfl⟩
    · dsimp only
      rw [hfrag]
      cases chunks with
      | nil => rfl
      | cons c cs =>
        cases P with
        | cons => rfl
        | nil =>
          exfalso
          cases hF : F1 ++ Fss.flatten with
          | cons => rw [hF] at hflow; simp [Flow] at hflow
          | nil =>
            rw [hF] at hflow
            simp only [Flow] at hflow
            cases hb : l.sender.buffer with
            | nil => rw [hb] at hflow; simp [HeadOk] at hflow
            | cons => rw [hb] at hflow; simp [HeadOk] at hflow
    · exact Flow.snoc (q := q) rfl rfl rfl hq _ _ _ _ hflow
    · intro q' hq'
      rcases List.mem_append.mp hq' with h | h
      · exact hgood q' h
      · simp only [List.mem_singleton] at h; rw [h]; exact hq
    · rw [← List.append_assoc, List.map_append, hoid, List.length_append (bs := [q])]
      simp only [List.map_cons, List.map_nil, List.length_cons, List.length_nil, q, hcnt]
      rw [List.range'_concat]
      simp [Nat.add_comm]
    · simp only [hcnt, ← List.append_assoc, List.length_append (bs := [q])]
      simp
    · simp only [hqueued, ← List.append_assoc, List.map_append (l₂ := [q])]
      simp
  | flush amount =>
    have hS : ∀ m ∈ l.sender.buffer, m.Fits := Flow.fits _ _ _ _ hflow hgood
    have hD : ∀ m ∈ l.sender.buffer, m.data ≠ [] := Flow.dataNe _ _ _ _ hflow hgood
    have hamt : ∀ a, amount = some a → 22 ≤ a := by
      intro a ha; subst ha; exact hop
    rcases dataToSend_spec l.sender.buffer hS amount hamt with ⟨hnil, hd⟩ |
      ⟨m, ms, f, fs, S', p, hSeq, hd, hpd, -, -, hsent, -, -, hne⟩
    · have hstep : l.step (.flush amount) = { l with sender := { l.sender with buffer := [] } } := by
        simp only [Link.step, hd]
      rw [hstep]
      rw [hnil] at hflow
      exact ⟨⟨herr, F1, Fss, chunks, T, M, P, hbuf, hwire, hfrag, hmsg, hflow, hgood, hoid, hcnt,
        htaken, hqueued⟩, Nat.le_succ _, rfl, rfl⟩
    · have hstep : l.step (.flush amount) =
          { l with sender := { l.sender with buffer := S' }, wire := l.wire ++ [p.data] } := by
        simp only [Link.step, hd]
      rw [hstep]
      refine ⟨⟨herr, F1, Fss ++ [f :: fs], chunks, T, M, P, hbuf, ?_, hfrag, hmsg, ?_, hgood, hoid,
        hcnt, htaken, hqueued⟩, Nat.le_succ _, rfl, rfl⟩
      · simp [hwire, hpd]
      · have := Flow.send hsent (by
          intro m' hm' hdm f' fs' hff
          cases hff
          rw [hSeq] at hm'
          cases hm'
          exact hne hdm) (F1 ++ Fss.flatten) chunks P hflow hgood
        simpa using this
  | deliver =>
    cases Fss with
    | nil =>
      have hw : l.wire = [] := by simpa using hwire
      have hstep : l.step .deliver = l := by simp only [Link.step, hw]
      rw [hstep]
      exact ⟨⟨herr, F1, [], chunks, T, M, P, hbuf, hwire, hfrag, hmsg, hflow, hgood, hoid, hcnt,
        htaken, hqueued⟩, Nat.le_succ _, rfl, rfl⟩
    | cons fs Fss =>
      have hw : l.wire = wireOf fs :: Fss.map wireOf := by simpa using hwire
      have hstep : l.step .deliver =
          { l with wire := Fss.map wireOf, recv := l.recv.receiveData (wireOf fs) } := by
        simp only [Link.step, hw]
      rw [hstep]
      refine ⟨⟨herr, F1 ++ fs, Fss, chunks, T, M, P, ?_, rfl, hfrag, hmsg, ?_, hgood, hoid, hcnt,
        htaken, hqueued⟩, Nat.le_succ _, rfl, rfl⟩
      · simp [Recv.receiveData, hbuf]
      · simpa using hflow
  | poll =>
    have hnd : (l.recv.messages.keys ++ P.map QMsg.oid).Nodup := by
      have h1 : ((T ++ M ++ P).map QMsg.oid).Nodup := by rw [hoid]; exact List.nodup_range'
      rw [List.append_assoc, List.map_append, List.nodup_append] at h1
      have h2 := h1.2.1
      rw [hmsg]
      have h3 : Dict.keys (M.map (fun q => (q.oid, q.msg))) = M.map QMsg.oid := by
        simp [Dict.keys]
      rw [h3, ← List.map_append]
      exact h2
    obtain ⟨r', D, P', chunks', h1, h2, h3, h4, h5, h6⟩ :=
      drain_flow Fss.flatten l.sender.buffer F1 chunks P l.recv hbuf hfrag hflow hgood hnd
    have hg' : ∀ q ∈ P', q.Good := fun q hq => hgood q (by rw [h2]; simp [hq])
    rw [hmsg, ← List.map_append] at h5
    cases hMD : M ++ D with
    | nil =>
      rw [hMD] at h5
      have hm0 : r'.messages = [] := by simpa using h5
      have hstep : l.step .poll = { l with recv := r' } := by
        simp only [Link.step, Recv.nextMessage, h1, hm0]
      rw [hstep]
      have heq : T ++ M ++ P = T ++ [] ++ P' := by
        rw [h2, List.append_assoc, ← List.append_assoc M, hMD]; simp
      rw [heq] at hoid hcnt hqueued
      exact ⟨⟨herr, [], Fss, chunks', T, [], P', h3, hwire, h4, hm0, h6, hg', hoid, hcnt, htaken,
        hqueued⟩, Nat.le_succ _, rfl, rfl⟩
    | cons q M' =>
      rw [hMD] at h5
      have hm0 : r'.messages = (q.oid, q.msg) :: M'.map (fun q => (q.oid, q.msg)) := by
        simpa using h5
      have hstep : l.step .poll = { l with
          recv := { r' with messages := M'.map (fun q => (q.oid, q.msg)) },
          taken := l.taken ++ [q.msg] } := by
        simp only [Link.step, Recv.nextMessage, h1, hm0]
      rw [hstep]
      have heq : T ++ M ++ P = (T ++ [q]) ++ M' ++ P' := by
        rw [h2, List.append_assoc, ← List.append_assoc M, hMD]; simp
      rw [heq] at hoid hcnt hqueued
      refine ⟨⟨herr, [], Fss, chunks', T ++ [q], M', P', h3, hwire, h4, rfl, h6, hg', hoid, hcnt,
        ?_, hqueued⟩, Nat.le_succ _, rfl, rfl⟩
      simp [htaken]

theorem linkInv_run (ops : List LinkOp) : ∀ (l : Link), LinkInv l →
    (∀ op ∈ ops, op.Legal) → l.sender.fragmentCount + ops.length ≤ 2 ^ 64 →
    LinkInv (l.run ops) ∧ (l.run ops).sender.client = l.sender.client ∧
    (l.run ops).sender.rpid = l.sender.rpid := by
  induction ops with
  | nil => intro l h _ _; exact ⟨h, rfl, rfl⟩
  | cons op ops ih =>
    intro l h hl hc
    simp only [List.length_cons] at hc
    obtain ⟨h1, h2, h3, h4⟩ := linkInv_step l op h (hl op (by simp)) (by omega)
    obtain ⟨a, b, c⟩ := ih (l.step op) h1 (fun o ho => hl o (by simp [ho])) (by omega)
    exact ⟨a, b.trans h3, c.trans h4⟩

end Verif
