import Verif.Proof.Reassembly
import Verif.Props.Payload

/-!
# C03 - C10: the transport properties

Specifications: `Verif/Spec/Transport.lean`.
-/

namespace Verif

/-! ## C03 -/

/-- **C03** A payload never has more than `amount` bytes, whatever is queued. -/
theorem C03_payload_bounded (buffer buffer' : List PSRPMessage) (amount : Int) (p : Payload)
    (h : dataToSend buffer (some amount) = (buffer', .ok (some p))) :
    (p.data.length : Int) ≤ amount := by
  simp only [dataToSend] at h
  split at h
  · cases h
  · rename_i hg
    have hg : 22 ≤ amount := by simpa [amountBelow] using hg
    split at h
    · cases h
    · rename_i b' b st pid heq
      have hl := sendLoop_length _ _ _ _ _ _ _ _ _ _ heq
      simp only [Prod.mk.injEq, Except.ok.injEq] at h
      obtain ⟨-, h⟩ := h
      split at h
      · cases h
      · cases h
        simp at hl ⊢
        omega

/-- **C03** A too small amount raises `ValueError` and leaves the queue untouched. -/
theorem C03_small_amount_refused (buffer : List PSRPMessage) (amount : Int) (h : amount < 22) :
    dataToSend buffer (some amount) = (buffer, .error .valueError) := by
  simp [dataToSend, amountBelow, h]

example : ∃ p b, dataToSend [⟨.PipelineInput, none, 1, .default, List.replicate 50 7, 0⟩]
    (some 30) = (b, .ok (some p)) ∧ p.data.length = 30 := ⟨_, _, rfl, by decide⟩

/-! ## C04 -/

/-- **C04** For every history of queueing, flushing with any legal amounts, delivering
and polling: no exception is ever raised, and the messages the receiver took out are an
initial part of the messages queued - in order, each once, with all fields and bytes. -/
theorem C04_fifo_prefix (client : Bool) (rpid : UUID) (ops : List LinkOp)
    (hl : ∀ op ∈ ops, op.Legal) (hn : ops.length < 2 ^ 64) :
    ((Link.fresh client rpid).run ops).errors = [] ∧
    ((Link.fresh client rpid).run ops).taken <+: ((Link.fresh client rpid).run ops).queued := by
  obtain ⟨herr, F1, Fss, chunks, T, M, P, -, -, -, -, -, -, -, -, ht, hq⟩ :=
    fresh_run client rpid ops hl hn
  refine ⟨herr, ?_⟩
  rw [ht, hq]
  exact ⟨(M ++ P).map QMsg.msg, by simp⟩

/-- **C04** When everything was flushed and delivered and the receiver is told there is
nothing more, it has taken out exactly what was queued, and nothing is left over. -/
theorem C04_fifo_complete (client : Bool) (rpid : UUID) (ops : List LinkOp)
    (hl : ∀ op ∈ ops, op.Legal) (hn : ops.length < 2 ^ 64)
    (hflushed : ((Link.fresh client rpid).run ops).sender.buffer = [])
    (hdelivered : ((Link.fresh client rpid).run ops).wire = [])
    (r : Recv) (hnone : ((Link.fresh client rpid).run ops).recv.nextMessage = (r, .ok none)) :
    ((Link.fresh client rpid).run ops).taken = ((Link.fresh client rpid).run ops).queued ∧
    r = { buffer := [], fragments := [], messages := [] } := by
  obtain ⟨herr, F1, Fss, chunks, T, M, P, hbuf, hwire, hfrag, hmsg, hflow, hgood, hoid, hcnt,
    htaken, hqueued⟩ := fresh_run client rpid ops hl hn
  clear hn hl
  generalize (Link.fresh client rpid).run ops = l at *
  rw [hdelivered] at hwire
  have hFss : Fss = [] := List.map_eq_nil_iff.mp hwire.symm
  subst hFss
  have hnd : (l.recv.messages.keys ++ P.map QMsg.oid).Nodup := by
    have h1 : ((T ++ M ++ P).map QMsg.oid).Nodup := by rw [hoid]; exact List.nodup_range'
    rw [List.append_assoc, List.map_append, List.nodup_append] at h1
    rw [hmsg]
    have h3 : Dict.keys (M.map (fun q => (q.oid, q.msg))) = M.map QMsg.oid := by simp [Dict.keys]
    rw [h3, ← List.map_append]
    exact h1.2.1
  obtain ⟨r', D, P', chunks', h1, h2, h3, h4, h5, h6⟩ :=
    drain_flow [] l.sender.buffer F1 chunks P l.recv hbuf hfrag (by simpa using hflow) hgood hnd
  simp only [Recv.nextMessage, h1] at hnone
  rw [hflushed] at h6
  simp only [Flow] at h6
  have hP' : P' = [] ∧ chunks' = [] := by
    cases P' with
    | nil => exact ⟨rfl, by simpa [HeadOk] using h6⟩
    | cons => simp [HeadOk] at h6
  obtain ⟨rfl, rfl⟩ := hP'
  split at hnone
  · rename_i hm
    rw [hm, hmsg] at h5
    have hMD := List.append_eq_nil_iff.mp h5.symm
    have hM : M = [] := List.map_eq_nil_iff.mp hMD.1
    have hD : D = [] := List.map_eq_nil_iff.mp hMD.2
    subst hM hD
    have : r' = r := by simpa using hnone
    subst this
    refine ⟨by rw [htaken, hqueued, h2]; simp, ?_⟩
    cases r' with
    | mk b f m =>
      simp only [fragDict] at h3 h4 hm
      subst h3 h4 hm
      rfl
  · simp at hnone

/-- **C04** Progress of the receiver: as long as not everything queued was taken out
while everything was flushed and delivered, the next poll takes out the next message. -/
theorem C04_poll_progress (client : Bool) (rpid : UUID) (ops : List LinkOp)
    (hl : ∀ op ∈ ops, op.Legal) (hn : ops.length + 1 < 2 ^ 64)
    (hflushed : ((Link.fresh client rpid).run ops).sender.buffer = [])
    (hdelivered : ((Link.fresh client rpid).run ops).wire = [])
    (hmore : ((Link.fresh client rpid).run ops).taken ≠ ((Link.fresh client rpid).run ops).queued) :
    ∃ m, ((Link.fresh client rpid).run (ops ++ [.poll])).taken =
      ((Link.fresh client rpid).run ops).taken ++ [m] := by
  have herr := (C04_fifo_prefix client rpid (ops ++ [.poll])
    (by intro o ho
        rcases List.mem_append.mp ho with h | h
        · exact hl o h
        · simp only [List.mem_singleton] at h; subst h; trivial)
    (by simpa using hn)).1
  have herr0 := (C04_fifo_prefix client rpid ops hl (by omega)).1
  have hcomp := C04_fifo_complete client rpid ops hl (by omega) hflushed hdelivered
  have hrun : (Link.fresh client rpid).run (ops ++ [.poll]) =
      ((Link.fresh client rpid).run ops).step .poll := by
    simp [Link.run]
  rw [hrun] at herr ⊢
  generalize (Link.fresh client rpid).run ops = l at *
  simp only [Link.step] at herr ⊢
  split at herr
  · rename_i r hr
    exact absurd (hcomp r hr).1 hmore
  · rename_i r o m hr
    exact ⟨m, rfl⟩
  · rename_i r e hr
    simp at herr

/-- A history with two messages for different targets, cut into small payloads. -/
def exHistory : List LinkOp :=
  [.queue .SessionCapability [60, 47, 62] none .default,
   .flush (some 30), .deliver, .poll,
   .queue .PipelineInput [60, 83, 47, 62] (some exPid) .default,
   .flush none, .flush (some 42), .deliver, .flush none, .deliver, .deliver, .poll, .poll]

example : (∀ op ∈ exHistory, op.Legal) ∧ exHistory.length < 2 ^ 64 := by
  refine ⟨?_, by decide⟩
  intro op h
  simp only [exHistory, List.mem_cons, List.not_mem_nil, or_false] at h
  rcases h with rfl | rfl | rfl | rfl | rfl | rfl | rfl | rfl | rfl | rfl | rfl | rfl | rfl <;>
    simp only [LinkOp.Legal]
  · exact ⟨by decide, by decide, by simp⟩
  · decide
  · refine ⟨by decide, by decide, ?_⟩
    intro p hp; cases hp; decide
  · decide

/-- In this history everything is flushed and delivered, and the receiver took out both
messages. -/
example : ((Link.fresh true exRpid).run exHistory).sender.buffer = [] ∧
    ((Link.fresh true exRpid).run exHistory).wire = [] ∧
    ((Link.fresh true exRpid).run exHistory).recv.nextMessage = ({}, .ok none) ∧
    ((Link.fresh true exRpid).run exHistory).taken.map Message.data =
      [[60, 47, 62], [60, 83, 47, 62]] := by
  refine ⟨?_, ?_, ?_, ?_⟩ <;> decide +kernel

/-! ## C05 -/

/-- **C05** `data_to_send` reports "nothing to send" only when nothing is queued. -/
theorem C05_none_iff_empty (client : Bool) (rpid : UUID) (ops : List LinkOp)
    (hl : ∀ op ∈ ops, op.Legal) (hn : ops.length < 2 ^ 64) (amount : Option Int)
    (ha : ∀ a, amount = some a → 22 ≤ a) (l : Link) (hlk : l = (Link.fresh client rpid).run ops) :
    (∃ b, dataToSend l.sender.buffer amount = (b, .ok none)) ↔ l.sender.buffer = [] := by
  obtain ⟨herr, F1, Fss, chunks, T, M, P, hbuf, hwire, hfrag, hmsg, hflow, hgood, -⟩ :=
    fresh_run client rpid ops hl hn
  rw [← hlk] at *
  have hS := Flow.fits _ _ _ _ hflow hgood
  rcases dataToSend_spec _ hS amount ha with ⟨hnil, hd⟩ | ⟨m, ms, f, fs, S', p, hSeq, hd, -⟩
  · exact ⟨fun _ => hnil, fun _ => ⟨_, hd⟩⟩
  · rw [hd, hSeq]
    constructor
    · rintro ⟨b, hb⟩; simp at hb
    · intro h; simp at h

/-- **C05** Otherwise the payload starts with a fragment that carries at least one byte of
the oldest queued message, and the number of bytes waiting strictly decreases. -/
theorem C05_progress (client : Bool) (rpid : UUID) (ops : List LinkOp)
    (hl : ∀ op ∈ ops, op.Legal) (hn : ops.length < 2 ^ 64) (amount : Option Int)
    (ha : ∀ a, amount = some a → 22 ≤ a) (l : Link) (hlk : l = (Link.fresh client rpid).run ops)
    (m : PSRPMessage) (ms : List PSRPMessage) (hq : l.sender.buffer = m :: ms) :
    ∃ p buffer' f fs, dataToSend l.sender.buffer amount = (buffer', .ok (some p)) ∧
      Encodes (f :: fs) p.data ∧ f.objectId = m.objectId ∧ f.data ≠ [] ∧ f.data <+: m.data ∧
      bytesQueued buffer' < bytesQueued l.sender.buffer := by
  obtain ⟨herr, F1, Fss, chunks, T, M, P, hbuf, hwire, hfrag, hmsg, hflow, hgood, -⟩ :=
    fresh_run client rpid ops hl hn
  rw [← hlk] at *
  have hS := Flow.fits _ _ _ _ hflow hgood
  have hD := Flow.dataNe _ _ _ _ hflow hgood
  rcases dataToSend_spec _ hS amount ha with ⟨hnil, hd⟩ |
    ⟨m', ms', f, fs, S', p, hSeq, hd, hpd, -, -, hsent, -, hoid, hne⟩
  · rw [hq] at hnil; cases hnil
  · rw [hq] at hSeq
    cases hSeq
    have hfne : f.data ≠ [] := hne (hD m (by rw [hq]; simp))
    refine ⟨p, S', f, fs, hd, ?_, hoid, hfne, ?_, ?_⟩
    · rw [hpd]; exact encodes_wireOf (hsent.fits hS)
    · rw [hq] at hsent
      cases hsent with
      | full => exact List.prefix_refl _
      | part => exact List.take_prefix _ _
    · have := sent_bytes hsent
      simp only [List.map_cons, List.sum_cons] at this
      have : f.data.length ≠ 0 := fun h => hfne (List.length_eq_zero_iff.mp h)
      omega

/-- **C05** From every reachable state, any sequence of `data_to_send` calls with legal
amounts at least as long as the number of bytes waiting empties the queue. -/
theorem C05_drains (client : Bool) (rpid : UUID) (ops : List LinkOp)
    (hl : ∀ op ∈ ops, op.Legal) (amounts : List (Option Int))
    (ha : ∀ a, some a ∈ amounts → 22 ≤ a) (hn : ops.length + amounts.length < 2 ^ 64)
    (hlen : bytesQueued ((Link.fresh client rpid).run ops).sender.buffer ≤ amounts.length) :
    ((Link.fresh client rpid).run (ops ++ amounts.map .flush)).sender.buffer = [] := by
  induction amounts generalizing ops with
  | nil =>
    simp only [List.length_nil, Nat.le_zero] at hlen
    simp only [List.map_nil, List.append_nil]
    obtain ⟨herr, F1, Fss, chunks, T, M, P, hbuf, hwire, hfrag, hmsg, hflow, hgood, -⟩ :=
      fresh_run client rpid ops hl (by simpa using hn)
    have hD := Flow.dataNe _ _ _ _ hflow hgood
    cases hb : ((Link.fresh client rpid).run ops).sender.buffer with
    | nil => rfl
    | cons m ms =>
      exfalso
      rw [hb] at hlen hD
      have h1 := hD m (by simp)
      simp only [bytesQueued, List.map_cons, List.sum_cons] at hlen
      exact h1 (List.length_eq_zero_iff.mp (by omega))
  | cons a as ih =>
    simp only [List.length_cons] at hn hlen
    have hlegal : ∀ op ∈ ops ++ [LinkOp.flush a], op.Legal := by
      intro o ho
      rcases List.mem_append.mp ho with h | h
      · exact hl o h
      · simp only [List.mem_singleton] at h; subst h
        cases a with
        | none => trivial
        | some a => exact ha a (by simp)
    have hamt : ∀ b, a = some b → 22 ≤ b := by
      intro b hb; subst hb; exact ha b (by simp)
    have hrun : (Link.fresh client rpid).run (ops ++ [LinkOp.flush a]) =
        ((Link.fresh client rpid).run ops).step (.flush a) := by simp [Link.run]
    have hle : bytesQueued ((Link.fresh client rpid).run (ops ++ [LinkOp.flush a])).sender.buffer
        ≤ as.length := by
      rw [hrun]
      cases hb : ((Link.fresh client rpid).run ops).sender.buffer with
      | nil =>
        have : dataToSend ((Link.fresh client rpid).run ops).sender.buffer a = ([], .ok none) := by
          rw [hb]
          have hg : amountBelow a 22 = false := by
            cases a with
            | none => rfl
            | some b => have := hamt b rfl; simp [amountBelow]; omega
          simp [dataToSend, hg, sendLoop]
        simp only [Link.step, this]
        simp [bytesQueued]
      | cons m ms =>
        obtain ⟨p, b', f, fs, hd, -, -, -, -, hlt⟩ :=
          C05_progress client rpid ops hl (by omega) a hamt _ rfl m ms hb
        simp only [Link.step, hd]
        omega
    have := ih (ops ++ [LinkOp.flush a]) hlegal (fun b hb => ha b (by simp [hb]))
      (by simp only [List.length_append, List.length_cons, List.length_nil]; omega) hle
    simpa using this

example : ∃ m ms, ((Link.fresh true exRpid).run
    [.queue .SessionCapability [60, 47, 62] none .default]).sender.buffer = m :: ms ∧
    bytesQueued (m :: ms) = 43 := ⟨_, _, rfl, rfl⟩

/-! ## C06, C07 -/

/-- **C06** Whatever is queued: a payload is a sequence of whole fragments, and each of
them is cut from a queued message addressed to the payload's pipeline id. -/
theorem C06_one_target (buffer buffer' : List PSRPMessage) (amount : Option Int) (p : Payload)
    (hb : ∀ m ∈ buffer, m.objectId < 2 ^ 64 ∧ m.fragCounter < 2 ^ 64 ∧ m.data.length < 2 ^ 32)
    (h : dataToSend buffer amount = (buffer', .ok (some p))) :
    ∃ fs, Encodes fs p.data ∧ ∀ f ∈ fs, ∃ m ∈ buffer,
      f.objectId = m.objectId ∧ f.data <+: m.data ∧ m.pipelineId = p.pipelineId := by
  have hS : ∀ m ∈ buffer, m.Fits := fun m hm => ⟨(hb m hm).1, (hb m hm).2.1, (hb m hm).2.2⟩
  have ha : ∀ a, amount = some a → 22 ≤ a := by
    intro a he
    by_cases hlt : a < 22
    · subst he
      rw [C03_small_amount_refused buffer a hlt] at h; cases h
    · omega
  rcases dataToSend_spec buffer hS amount ha with ⟨-, hd⟩ |
    ⟨m, ms, f, fs, S', p', hSeq, hd, hpd, hpp, -, hsent, -⟩
  · rw [hd] at h; cases h
  · rw [hd] at h
    cases h
    refine ⟨f :: fs, by rw [hpd]; exact encodes_wireOf (hsent.fits hS), ?_⟩
    intro g hg
    obtain ⟨m', h1, h2, h3, -, h5, -⟩ := hsent.mem g hg
    exact ⟨m', h1, h2.symm, h5, h3⟩

/-- Three messages, two targets, two stream types. -/
def exBuffer : List PSRPMessage :=
  [⟨.PipelineInput, some exPid, 1, .default, [1, 2, 3], 0⟩,
   ⟨.PipelineHostResponse, some exPid, 2, .prompt_response, [4, 5], 0⟩,
   ⟨.SetMaxRunspaces, none, 3, .default, [6], 0⟩]

example : (∀ m ∈ exBuffer, m.objectId < 2 ^ 64 ∧ m.fragCounter < 2 ^ 64 ∧
      m.data.length < 2 ^ 32) ∧
    ∃ b p, dataToSend exBuffer none = (b, .ok (some p)) ∧ p.pipelineId = some exPid :=
  ⟨by decide, _, _, rfl, rfl⟩

/-- **C07** does not hold: a payload with stream type `default` can contain a whole
message that was queued for the `prompt_response` stream. -/
theorem C07_stream_type_violated :
    ∃ (buffer buffer' : List PSRPMessage) (p : Payload) (fs : List Fragment),
      dataToSend buffer none = (buffer', .ok (some p)) ∧ Encodes fs p.data ∧
      ∃ f ∈ fs, ∃ m ∈ buffer, f.objectId = m.objectId ∧ f.data = m.data ∧ f.end_ = true ∧
        m.streamType ≠ p.streamType := by
  refine ⟨exBuffer, _, _,
    [⟨1, 0, true, true, [1, 2, 3]⟩, ⟨2, 0, true, true, [4, 5]⟩], rfl, ?_,
    ⟨2, 0, true, true, [4, 5]⟩, by simp,
    ⟨.PipelineHostResponse, some exPid, 2, .prompt_response, [4, 5], 0⟩, by simp [exBuffer],
    rfl, rfl, rfl, by decide⟩
  exact .cons (b := fragBytes 1 0 [1, 2, 3] true) rfl
    (.cons (b := fragBytes 2 0 [4, 5] true) (bs := []) rfl .nil)

/-- **C07** What does hold: the payload's stream type is that of the oldest queued
message, and when all queued messages of that pipeline use one stream type, it is the
stream type of every message in the payload. Missing for the full property: payloads are
not cut where the stream type changes. -/
theorem C07_stream_type_partial (m : PSRPMessage) (ms buffer' : List PSRPMessage)
    (amount : Option Int) (p : Payload)
    (hb : ∀ x ∈ m :: ms, x.objectId < 2 ^ 64 ∧ x.fragCounter < 2 ^ 64 ∧ x.data.length < 2 ^ 32)
    (h : dataToSend (m :: ms) amount = (buffer', .ok (some p))) :
    p.streamType = m.streamType ∧
    ((∀ x ∈ ms, x.pipelineId = m.pipelineId → x.streamType = m.streamType) →
      ∃ fs, Encodes fs p.data ∧ ∀ f ∈ fs, ∃ x ∈ m :: ms,
        f.objectId = x.objectId ∧ f.data <+: x.data ∧ x.streamType = p.streamType) := by
  have hS : ∀ m' ∈ m :: ms, m'.Fits := fun m' hm => ⟨(hb m' hm).1, (hb m' hm).2.1, (hb m' hm).2.2⟩
  have ha : ∀ a, amount = some a → 22 ≤ a := by
    intro a he
    by_cases hlt : a < 22
    · subst he
      rw [C03_small_amount_refused _ a hlt] at h; cases h
    · omega
  rcases dataToSend_spec (m :: ms) hS amount ha with ⟨hnil, -⟩ |
    ⟨m', ms', f, fs, S', p', hSeq, hd, hpd, hpp, hst, hsent, -⟩
  · cases hnil
  · cases hSeq
    rw [hd] at h
    cases h
    refine ⟨hst, fun hsame => ⟨f :: fs, by rw [hpd]; exact encodes_wireOf (hsent.fits hS), ?_⟩⟩
    intro g hg
    obtain ⟨x, h1, h2, h3, -, h5, -⟩ := hsent.mem g hg
    refine ⟨x, h1, h2.symm, h5, ?_⟩
    rw [hst]
    rcases List.mem_cons.mp h1 with rfl | h1
    · rfl
    · exact hsame x h1 (h3.trans hpp)

example : ∃ b p, dataToSend (exBuffer.take 1) none = (b, .ok (some p)) ∧
    p.streamType = .default := ⟨_, _, rfl, rfl⟩

/-! ## C08, C09, C10 -/

/-- **C08, C09** The receiver against any stream: in-sequence fragments of arbitrarily
interleaved messages, with any number of stray (out of sequence) fragments in between,
delivered in any number of pieces cut at fragment boundaries, with `next_event` called at
any times. Each stray fragment raises exactly `PSRPCoreError` and is otherwise as if it
had never been sent; the messages taken out are, in order, the completed messages of the
in-sequence fragments, with exactly their bytes. -/
theorem C09_strays_rejected (ops : List RecvOp) (s : Stream) (hc : Carries ops s)
    (hw : WellInterleaved (good s)) (hs : StraysOutOfSequence s) :
    (∃ k ≤ (stray s).length, (RecvRun.run {} ops).errors = List.replicate k .psrpCore) ∧
    (RecvRun.run {} ops).taken.map (fun x => (x.1, (.ok x.2 : Except Err Message)))
      <+: completions (good s) ∧
    (∀ r, (RecvRun.run {} ops).recv.nextMessage = (r, .ok none) →
      (RecvRun.run {} ops).errors.length = (stray s).length ∧
      (RecvRun.run {} ops).taken.map (fun x => (x.1, (.ok x.2 : Except Err Message)))
        = completions (good s) ∧
      ∀ oid, (r.fragments.get? oid).getD [] =
        if finished oid (good s) then [] else (fragmentsOf oid (good s)).map Fragment.data) := by
  obtain ⟨d, u, hall, hi⟩ := run_stream s hw hs ops s [] [] {} hc (by simp) (runInv_init s)
  have hlen : (stray s).length = (stray d).length + (stray u).length := by
    rw [hall, stray_append, List.length_append]
  refine ⟨⟨_, by omega, hi.errs⟩, ?_, ?_⟩
  · have hm := hi.rs.msgs
    have hpre : completedIn (good s) (good d) <+: completions (good s) := by
      refine ⟨completedIn (good s) (good u), ?_⟩
      have : completions (good s) = completedIn (good s) (good s) := rfl
      rw [this]
      conv => rhs; rw [completedIn, hall, good_append, List.filterMap_append]
      rw [← good_append, ← hall]; rfl
    rw [List.map_append] at hm
    exact List.IsPrefix.trans ⟨_, hm⟩ hpre
  · intro r hq
    obtain ⟨h1, h2, h3, -⟩ := run_quiet hw hs hall hi hq
    refine ⟨?_, ?_, h2.frags⟩
    · rw [hi.errs, hlen, h1]; simp
    · have := h2.msgs
      rw [h3, List.append_nil] at this
      exact this

/-- **C08** Any legal interleaving of the fragments of any number of messages: no
exception, and once the receiver reports nothing more it has delivered exactly the
finished messages, with the exact bytes, in the order their end fragments arrived, and
holds exactly the fragments of the unfinished ones. -/
theorem C08_reassembly (ops : List RecvOp) (fs : List Fragment)
    (hc : Carries ops (fs.map (fun f => (true, f)))) (hw : WellInterleaved fs) :
    (RecvRun.run {} ops).errors = [] ∧
    (RecvRun.run {} ops).taken.map (fun x => (x.1, (.ok x.2 : Except Err Message)))
      <+: completions fs ∧
    (∀ r, (RecvRun.run {} ops).recv.nextMessage = (r, .ok none) →
      (RecvRun.run {} ops).taken.map (fun x => (x.1, (.ok x.2 : Except Err Message)))
        = completions fs ∧
      ∀ oid, (r.fragments.get? oid).getD [] =
        if finished oid fs then [] else (fragmentsOf oid fs).map Fragment.data) := by
  have hs : StraysOutOfSequence (fs.map (fun f => (true, f))) := by
    intro pre f post he
    have : (false, f) ∈ fs.map (fun f => (true, f)) := by rw [he]; simp
    simp at this
  obtain ⟨⟨k, hk, h1⟩, h2, h3⟩ := C09_strays_rejected ops _ hc (by rw [good_all]; exact hw) hs
  rw [good_all] at h2 h3
  rw [stray_all] at hk h3
  have hk0 : k = 0 := by simpa using hk
  subst hk0
  exact ⟨by simpa using h1, h2, fun r hr => (h3 r hr).2⟩

/-- **C10** What holds of the property: when the stream is cut only at fragment
boundaries, two users who receive the same fragments in differently sized pieces and poll
at different times take out the same messages. Missing for the full property: cuts inside
a fragment, see `C10_chunking_violated`. -/
theorem C10_chunking_partial (ops ops' : List RecvOp) (fs : List Fragment)
    (hc : Carries ops (fs.map (fun f => (true, f))))
    (hc' : Carries ops' (fs.map (fun f => (true, f)))) (hw : WellInterleaved fs)
    (r r' : Recv) (hq : (RecvRun.run {} ops).recv.nextMessage = (r, .ok none))
    (hq' : (RecvRun.run {} ops').recv.nextMessage = (r', .ok none)) :
    (RecvRun.run {} ops).taken = (RecvRun.run {} ops').taken ∧
    (RecvRun.run {} ops).errors = [] ∧ (RecvRun.run {} ops').errors = [] := by
  obtain ⟨e, -, h⟩ := C08_reassembly ops fs hc hw
  obtain ⟨e', -, h'⟩ := C08_reassembly ops' fs hc' hw
  refine ⟨?_, e, e'⟩
  have heq := (h r hq).1.trans (h' r' hq').1.symm
  refine (List.map_inj_right ?_).mp heq
  rintro ⟨a, b⟩ ⟨c, d⟩ hx
  simp only [Prod.mk.injEq, Except.ok.injEq] at hx
  rw [hx.1, hx.2]

/-- A whole message for the runspace pool in the examples. -/
def exRaw (b : UInt8) : Bytes :=
  [2, 0, 0, 0, 2, 0, 1, 0] ++ List.replicate 32 0 ++ [60, b, 62]

/-- Two interleaved messages (the one with object id 9 finishes first), one unfinished one,
and two stray fragments. -/
def exStream : Stream :=
  [(true, ⟨5, 0, true, false, (exRaw 97).take 20⟩),
   (true, ⟨9, 0, true, false, (exRaw 98).take 30⟩),
   (false, ⟨5, 3, false, false, [1, 2, 3]⟩),
   (true, ⟨9, 1, false, true, (exRaw 98).drop 30⟩),
   (true, ⟨7, 0, true, false, [1]⟩),
   (false, ⟨9, 1, false, true, [8]⟩),
   (true, ⟨5, 1, false, true, (exRaw 97).drop 20⟩)]

theorem exStream_wellInterleaved : WellInterleaved (good exStream) := by
  have hne : ∀ oid, oid ≠ 5 → oid ≠ 9 → oid ≠ 7 → fragmentsOf oid (good exStream) = [] := by
    intro oid h5 h9 h7
    simp [fragmentsOf, good, exStream, Ne.symm h5, Ne.symm h9, Ne.symm h7]
  refine ⟨?_, ?_, ?_⟩
  · intro oid
    by_cases h5 : oid = 5
    · subst h5; decide
    by_cases h9 : oid = 9
    · subst h9; decide
    by_cases h7 : oid = 7
    · subst h7; decide
    rw [hne oid h5 h9 h7]; rfl
  · intro oid
    by_cases h5 : oid = 5
    · subst h5; decide
    by_cases h9 : oid = 9
    · subst h9; decide
    by_cases h7 : oid = 7
    · subst h7; decide
    rw [hne oid h5 h9 h7]; simp
  · intro f hf he
    have : f = ⟨9, 1, false, true, (exRaw 98).drop 30⟩ ∨
        f = ⟨5, 1, false, true, (exRaw 97).drop 20⟩ := by
      simp only [good, exStream, List.filter_cons_of_pos, List.filter_cons_of_neg,
        List.map_cons, List.mem_cons, List.filter_nil, List.map_nil, List.not_mem_nil, or_false,
        Bool.false_eq_true, not_false_eq_true] at hf
      rcases hf with rfl | rfl | rfl | rfl | rfl <;> simp at he ⊢
    rcases this with rfl | rfl
    · exact ⟨_, rfl⟩
    · exact ⟨_, rfl⟩

theorem exStream_strays : StraysOutOfSequence exStream := by
  intro pre f post h
  have hl : pre.length < 7 := by
    have := congrArg List.length h
    simp [exStream] at this; omega
  have hpre : pre = exStream.take pre.length := by rw [h]; simp
  have hf : exStream[pre.length]? = some (false, f) := by rw [h]; simp
  generalize hk : pre.length = k at hl hpre hf
  have : k = 2 ∨ k = 5 := by
    match k, hl, hf with
    | 0, _, hf => simp [exStream] at hf
    | 1, _, hf => simp [exStream] at hf
    | 2, _, hf => simp
    | 3, _, hf => simp [exStream] at hf
    | 4, _, hf => simp [exStream] at hf
    | 5, _, hf => simp
    | 6, _, hf => simp [exStream] at hf
  rcases this with rfl | rfl
  · simp [exStream] at hf; rw [hpre, ← hf]; decide
  · simp [exStream] at hf; rw [hpre, ← hf]; decide

example : Carries [.receive (wireOf ((exStream.take 2).map Prod.snd)), .poll,
    .receive (wireOf ((exStream.drop 2).map Prod.snd)), .poll, .poll, .poll, .poll] exStream := by
  have h1 : Encodes ((exStream.take 2).map Prod.snd) (wireOf ((exStream.take 2).map Prod.snd)) :=
    .cons rfl (.cons (bs := []) rfl .nil)
  have h2 : Encodes ((exStream.drop 2).map Prod.snd) (wireOf ((exStream.drop 2).map Prod.snd)) :=
    .cons rfl (.cons rfl (.cons rfl (.cons rfl (.cons (bs := []) rfl .nil))))
  exact .receive h1 (.poll (.receive (s := []) (g := exStream.drop 2) h2
    (.poll (.poll (.poll (.poll .nil))))))

/-- On this stream the receiver raises twice and delivers the two finished messages. -/
example :
    let out := RecvRun.run {} [.receive (wireOf ((exStream.take 2).map Prod.snd)), .poll,
      .receive (wireOf ((exStream.drop 2).map Prod.snd)), .poll, .poll, .poll, .poll]
    out.errors = [.psrpCore, .psrpCore] ∧
    out.taken.map (fun x => (x.1, x.2.data)) = [(9, [60, 98, 62]), (5, [60, 97, 62])] ∧
    out.recv.fragments.get? 7 = some [[1]] := by
  refine ⟨?_, ?_, ?_⟩ <;> decide +kernel

/-- **C10** does not hold: one fragment that arrives in one piece gives its message, but
cut inside the header `next_event` raises `struct.error` instead of waiting, and cut
inside the data the first half is taken for the whole fragment: the message comes out
with a truncated payload. -/
theorem C10_chunking_violated :
    ∃ (b : Bytes) (m : Message), Encodes [⟨5, 0, true, true, exRaw 97⟩] b ∧
      -- in one piece
      (RecvRun.run {} [.receive b, .poll]).taken = [(5, m)] ∧
      (RecvRun.run {} [.receive b, .poll]).errors = [] ∧ m.data = [60, 97, 62] ∧
      -- cut inside the header
      (RecvRun.run {} [.receive (b.take 10), .poll, .receive (b.drop 10), .poll]).errors
        = [.structError] ∧
      -- cut inside the data
      (RecvRun.run {} [.receive (b.take 62), .poll]).taken
        = [(5, { m with data := [60] })] := by
  refine ⟨wireOf [⟨5, 0, true, true, exRaw 97⟩],
    ⟨2, .SessionCapability, EMPTY_UUID, none, [60, 97, 62]⟩,
    .cons (bs := []) rfl .nil, ?_, ?_, rfl, ?_, ?_⟩ <;> decide +kernel

end Verif
