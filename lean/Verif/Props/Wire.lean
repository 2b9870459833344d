import Verif.Proof.Wire
import Verif.Props.XmlText

/-! # C71: an object that is sent arrives -/

namespace Verif

/-- C71: in all histories of sending objects, flushing with any amounts, delivering and polling, in any order: the
transport raises nothing, and what arrived are the first of the messages that were sent, in order, each once, with its type, its
pipeline and its object. Sizes, the cutting into fragments and what else was sent make no difference. -/
theorem C71_order_partial (E : TextEnv) (hE : ExtendsAscii E.uni) (L : Lib) (std : L.Standard) (n m : Nat) (hnm : n < m)
    (client : Bool) (rpid : UUID) (ops : List WireOp) (hl : ∀ op ∈ ops, op.Legal E L n) (hn : ops.length < 2 ^ 64)
    (w : WireLink) (hw : w = (WireLink.fresh client rpid).run E L n m ops) :
    w.link.errors = [] ∧ w.arrived.length ≤ w.sent.length ∧ All2 (Arrives L) (w.sent.take w.arrived.length) w.arrived := by
  have inv := wire_run E hE L std n m hnm client rpid ops hl hn
  have c := C04_fifo_prefix client rpid (ops.flatMap (WireOp.under E n)) (unders_legal hl)
    (Nat.lt_of_le_of_lt (unders_length E n ops) hn)
  have hu := run_under E L n m (WireLink.fresh client rpid) ops
  rw [show (WireLink.fresh client rpid).link = Link.fresh client rpid from rfl] at hu
  rw [← hu] at c
  rw [← hw] at inv c
  refine ⟨c.1, ?_, inv.arrived⟩
  have h1 := inv.arrived.length_eq
  rw [List.length_take] at h1
  omega

/-- C71: when everything was flushed and delivered and the receiver is told that there is no more, all that was
sent has arrived. -/
theorem C71_complete_partial (E : TextEnv) (hE : ExtendsAscii E.uni) (L : Lib) (std : L.Standard) (n m : Nat) (hnm : n < m)
    (client : Bool) (rpid : UUID) (ops : List WireOp) (hl : ∀ op ∈ ops, op.Legal E L n) (hn : ops.length < 2 ^ 64)
    (w : WireLink) (hw : w = (WireLink.fresh client rpid).run E L n m ops)
    (hflushed : w.link.sender.buffer = []) (hdelivered : w.link.wire = [])
    (hnone : ∃ r, w.link.recv.nextMessage = (r, .ok none)) :
    All2 (Arrives L) w.sent w.arrived := by
  have inv := wire_run E hE L std n m hnm client rpid ops hl hn
  have hu := run_under E L n m (WireLink.fresh client rpid) ops
  rw [show (WireLink.fresh client rpid).link = Link.fresh client rpid from rfl] at hu
  have c := C04_fifo_complete client rpid (ops.flatMap (WireOp.under E n)) (unders_legal hl)
    (Nat.lt_of_le_of_lt (unders_length E n ops) hn)
  rw [← hu, ← hw] at c
  rw [← hw] at inv
  obtain ⟨r, hr⟩ := hnone
  have hq := (c hflushed hdelivered r hr).1
  have h1 := inv.count
  rw [hq, ← inv.under.length_eq] at h1
  have := inv.arrived
  rwa [h1, List.take_length] at this

/-- C71: as long as not everything arrived though it was flushed and delivered, the next poll gives the next message. -/
theorem C71_progress (E : TextEnv) (hE : ExtendsAscii E.uni) (L : Lib) (std : L.Standard) (n m : Nat) (hnm : n < m)
    (client : Bool) (rpid : UUID) (ops : List WireOp) (hl : ∀ op ∈ ops, op.Legal E L n) (hn : ops.length + 1 < 2 ^ 64)
    (w : WireLink) (hw : w = (WireLink.fresh client rpid).run E L n m ops)
    (hflushed : w.link.sender.buffer = []) (hdelivered : w.link.wire = []) (hmore : w.arrived.length < w.sent.length) :
    (w.step E L n m .poll).arrived.length = w.arrived.length + 1 := by
  have inv := wire_run E hE L std n m hnm client rpid ops hl (by omega)
  have hl' : ∀ op ∈ ops ++ [WireOp.poll], op.Legal E L n := by
    intro op hop
    rcases List.mem_append.mp hop with h | h
    · exact hl op h
    · simp only [List.mem_singleton] at h; subst h; trivial
  have inv' := wire_run E hE L std n m hnm client rpid (ops ++ [.poll]) hl' (by simpa using hn)
  have hrun : (WireLink.fresh client rpid).run E L n m (ops ++ [.poll]) = w.step E L n m .poll := by
    rw [hw]; unfold WireLink.run; rw [List.foldl_append]; rfl
  have hu := run_under E L n m (WireLink.fresh client rpid) ops
  rw [show (WireLink.fresh client rpid).link = Link.fresh client rpid from rfl] at hu
  have hu' : (w.step E L n m .poll).link = (Link.fresh client rpid).run (ops.flatMap (WireOp.under E n) ++ [.poll]) := by
    rw [step_under, hw, hu]; unfold Link.run; rw [List.foldl_append]; rfl
  have c := C04_poll_progress client rpid (ops.flatMap (WireOp.under E n)) (unders_legal hl)
    (Nat.lt_of_le_of_lt (Nat.add_le_add_right (unders_length E n ops) 1) hn)
  rw [← hu', ← hu, ← hw] at c
  rw [← hw] at inv
  rw [hrun] at inv'
  obtain ⟨q, hq⟩ := c hflushed hdelivered (by
    intro e
    have h1 := inv.count
    rw [e, ← inv.under.length_eq] at h1
    omega)
  rw [inv'.count, hq, List.length_append, inv.count]
  rfl

theorem sent_run (E : TextEnv) (L : Lib) (n m : Nat) : ∀ (ops : List WireOp) (w : WireLink),
    (∀ t o pid st, WireOp.send t o pid st ∈ ops → ∃ d, messageData E n t o = .ok d) →
    (w.run E L n m ops).sent = w.sent ++ mails ops ∧ (w.run E L n m ops).refused = w.refused
  | [], w, _ => ⟨by simp [WireLink.run, mails], rfl⟩
  | op :: ops, w, h => by
    have ih := sent_run E L n m ops (w.step E L n m op) (fun t o pid st hm => h t o pid st (List.mem_cons_of_mem _ hm))
    have e : w.run E L n m (op :: ops) = (w.step E L n m op).run E L n m ops := rfl
    rw [e, ih.1, ih.2]
    cases op with
    | send t o pid st =>
      obtain ⟨⟨t', d⟩, hd⟩ := h t o pid st List.mem_cons_self
      simp only [WireLink.step, hd, mails, List.append_assoc, List.cons_append, List.nil_append, and_self]
    | flush a => exact ⟨rfl, rfl⟩
    | deliver => exact ⟨rfl, rfl⟩
    | poll =>
      have : (w.step E L n m .poll).sent = w.sent ∧ (w.step E L n m .poll).refused = w.refused := by
        simp only [WireLink.step]
        split <;> exact ⟨rfl, rfl⟩
      rw [this.1, this.2]
      exact ⟨rfl, rfl⟩

/-- C71: no message is lost by `prepare_message`: if the objects are serialized (`C41_serializes`) then all of them count as sent. -/
theorem C71_sent (E : TextEnv) (L : Lib) (n m : Nat) (client : Bool) (rpid : UUID) (ops : List WireOp)
    (hs : ∀ t H v pid st, WireOp.send t (.object H v) pid st ∈ ops → ∃ x s, ser E H n v {} = .ok (x, s)) :
    ((WireLink.fresh client rpid).run E L n m ops).sent = mails ops ∧
    ((WireLink.fresh client rpid).run E L n m ops).refused = [] := by
  have := sent_run E L n m ops (WireLink.fresh client rpid) (by
    intro t o pid st hm
    cases o with
    | endOfInput => exact ⟨_, rfl⟩
    | object H v =>
      obtain ⟨x, s, h⟩ := hs t H v pid st hm
      unfold messageData
      cases v with
      | nil => exact ⟨_, rfl⟩
      | _ => dsimp only; rw [h]; exact ⟨_, rfl⟩)
  exact ⟨by simpa [WireLink.fresh] using this.1, this.2⟩

/-- The bytes on the wire are UTF-8: texts are written as Lean writes them. -/
theorem C71_utf8_written (s : List Char) : (s.map Char.toNat).flatMap utf8Char = s.flatMap String.utf8EncodeChar := by
  induction s with
  | nil => rfl
  | cons c s ih => rw [List.map_cons, List.flatMap_cons, List.flatMap_cons, utf8Char_lean, ih]

/-- And only UTF-8 is read, as the text that was written: for other bytes `next_event` raises an exception. -/
theorem C71_utf8_read (b : Bytes) (t : PyStr) :
    utf8Decode b = some t ↔ ∃ s : List Char, t = s.map Char.toNat ∧ b = s.flatMap String.utf8EncodeChar := by
  constructor
  · intro h
    obtain ⟨h1, h2⟩ := utf8Decode_only h
    have : ∀ t : PyStr, (∀ c ∈ t, Scalar c) → ∃ s : List Char, t = s.map Char.toNat := by
      intro t ht
      induction t with
      | nil => exact ⟨[], rfl⟩
      | cons c t ih =>
        obtain ⟨d, hd⟩ := scalar_char (ht c List.mem_cons_self)
        obtain ⟨s, hs⟩ := ih fun x hx => ht x (List.mem_cons_of_mem _ hx)
        exact ⟨d :: s, by rw [List.map_cons, hd, hs]⟩
    obtain ⟨s, hs⟩ := this t h1
    exact ⟨s, hs, by rw [h2, hs, C71_utf8_written]⟩
  · rintro ⟨s, rfl, rfl⟩
    rw [← C71_utf8_written]
    refine utf8Decode_all _ fun c hc => ?_
    obtain ⟨d, _, rfl⟩ := List.mem_map.mp hc
    exact char_scalar d

/-- Bytes that are not UTF-8 raise an exception whatever the message is. -/
theorem C71_not_utf8 (E : TextEnv) (L : Lib) (m : Nat) (sh : Dict PyStr DObj) (msg : Message)
    (h : ¬ ∃ s : List Char, msg.data = s.flatMap String.utf8EncodeChar) : messageObject E L m sh msg = .error .unicodeError := by
  unfold messageObject
  cases e : utf8Decode msg.data with
  | none => rfl
  | some t =>
    obtain ⟨s, _, hs⟩ := (C71_utf8_read _ _).mp e
    exact absurd ⟨s, hs⟩ h

/-! ### An example -/

/-- A graph with cycles for a pipeline, a text with characters of two, three and four bytes, the end of the input, `None`; sent in
small pieces. -/
def wireHistory : List WireOp :=
  [.send .PipelineInput (.object exampleHeap (.ref 0)) (some exPid) .default,
   .flush (some 300), .deliver, .poll,
   .send .PipelineOutput (.object exampleHeap (.prim (.str .string [233, 8364, 128512]))) (some exPid) .default,
   .send .EndOfPipelineInput .endOfInput (some exPid) .prompt_response,
   .flush none, .deliver, .poll,
   .send .PipelineOutput (.object exampleHeap .nil) none .default,
   .flush none, .flush none, .flush none, .deliver, .deliver, .deliver, .deliver, .poll, .poll, .poll, .poll]

/-- A text with characters of two, three and four bytes. -/
theorem wide_ok : Escapable [233, 8364, 128512] := by
  refine ⟨fun c hc => ?_, ?_, by decide, by decide⟩
  · simp only [List.mem_cons, List.not_mem_nil, or_false] at hc
    omega
  · rintro ⟨c, hc, h⟩
    simp only [List.mem_cons, List.not_mem_nil, or_false] at hc
    omega

theorem wide_none : ∀ a, ¬ Reach exampleHeap [.prim (.str .string [233, 8364, 128512])] a := by
  intro a h
  induction h with
  | root h => simp at h
  | step _ _ ih => exact ih

theorem wide_graph : GraphOk plainEnv library exampleHeap [.prim (.str .string [233, 8364, 128512])] where
  vals := fun v hv => by
    simp only [List.mem_singleton] at hv
    subst hv
    refine ⟨wide_ok.1, wide_ok.2.1, ?_, ?_⟩
    · rintro ⟨pre, u, v, post, e, hu, hv⟩
      have hm : u ∈ [233, 8364, 128512] := by rw [e]; simp
      simp only [List.mem_cons, List.not_mem_nil, or_false] at hm
      unfold IsHigh at hu
      omega
    · rintro ⟨pre, a, h₁, h₂, h₃, h₄, z, post, e, _⟩
      have := congrArg List.length e
      simp only [List.length_append, List.length_cons, List.length_nil] at this
      omega
  objs := fun a h => absurd h (wide_none a)
  keys := fun a _ h => absurd h (wide_none a)
  types := fun a _ h => absurd h (wide_none a)

theorem wide_xml : GraphXmlOk plainEnv exampleHeap [.prim (.str .string [233, 8364, 128512])] where
  vals := fun v hv => by simp only [List.mem_singleton] at hv; subst hv; exact wide_ok
  objs := fun a h => absurd h (wide_none a)

theorem wire_legal : ∀ op ∈ wireHistory, op.Legal plainEnv library 8 := by
  have hp : ∀ p, some exPid = some p → p.bytes ≠ List.replicate 16 0 := by intro p hp; cases hp; decide
  have size : ∀ {t o} {q : MsgType × Bytes}, messageData plainEnv 8 t o = .ok q → q.2.length + 40 < 2 ^ 32 →
      ∀ t' data, messageData plainEnv 8 t o = .ok (t', data) → data.length + 40 < 2 ^ 32 := by
    intro t o q h hq t' data h'
    rw [h] at h'
    cases h'
    exact hq
  intro op h
  simp only [wireHistory, List.mem_cons, List.not_mem_nil, or_false] at h
  rcases h with rfl | rfl | rfl | rfl | rfl | rfl | rfl | rfl | rfl | rfl | rfl | rfl | rfl | rfl | rfl | rfl | rfl | rfl | rfl | rfl | rfl
  · refine ⟨⟨by simp, by simp, example_ok, graphXmlB_ok plainEnv (addrs := [0, 1, 2, 3, 4]) (by decide +kernel)⟩, ?_, hp⟩
    obtain ⟨x, s, hx⟩ : ∃ x s, ser plainEnv exampleHeap 8 (.ref 0) {} = .ok (x, s) := ⟨_, _, rfl⟩
    have hlen : (match ser plainEnv exampleHeap 8 (.ref 0) {} with | .error _ => 0 | .ok (x, _) => (xmlBytes x).length) < 10000 := by
      decide +kernel
    rw [hx] at hlen
    refine size (q := (.PipelineInput, xmlBytes x)) (by unfold messageData; dsimp only; rw [hx]) ?_
    dsimp only at hlen ⊢
    omega
  · simp [WireOp.Legal]
  · trivial
  · trivial
  · exact ⟨⟨by simp, by simp, wide_graph, wide_xml⟩, size (q := (.PipelineOutput, _)) rfl (by decide +kernel), hp⟩
  · exact ⟨rfl, size (q := (.EndOfPipelineInput, _)) rfl (by decide), hp⟩
  · trivial
  · trivial
  · trivial
  · exact ⟨⟨fun _ => rfl, by simp, graphCheck_ok plainEnv (addrs := []) (by decide +kernel),
      graphXmlB_ok plainEnv (addrs := []) (by decide +kernel)⟩, size (q := (.PipelineOutput, _)) rfl (by decide), by simp⟩
  all_goals trivial

/-- Beside `C71_order_partial`, `C71_complete_partial` and `C71_sent`: all four messages arrive. -/
theorem wire_example : ∃ w, w = (WireLink.fresh true exRpid).run plainEnv library 8 9 wireHistory ∧
    w.sent = mails wireHistory ∧ w.sent.length = 4 ∧ All2 (Arrives library) w.sent w.arrived := by
  have hs := C71_sent plainEnv library 8 9 true exRpid wireHistory (by
    intro t H v pid st h
    simp only [wireHistory, List.mem_cons, List.not_mem_nil, or_false, WireOp.send.injEq, Outgoing.object.injEq, reduceCtorEq,
      false_and, and_false, false_or] at h
    rcases h with ⟨_, ⟨rfl, rfl⟩, _⟩ | ⟨_, ⟨rfl, rfl⟩, _⟩ | ⟨_, ⟨rfl, rfl⟩, _⟩
    · exact ⟨_, _, rfl⟩
    · exact ⟨_, _, rfl⟩
    · exact ⟨_, _, rfl⟩)
  refine ⟨_, rfl, hs.1, by rw [hs.1]; rfl, ?_⟩
  refine C71_complete_partial plainEnv (fun _ _ => rfl) library library_standard 8 9 (by decide) true exRpid wireHistory wire_legal
    (by decide) _ rfl ?_ ?_ ⟨{}, ?_⟩
  · rw [run_under]; decide +kernel
  · rw [run_under]; decide +kernel
  · rw [run_under]; decide +kernel

/-- One message, at once. -/
def oneMessage (t : MsgType) (o : Outgoing) : List WireOp := [.send t o (some exPid) .default, .flush none, .deliver, .poll]

/-- The message under it. -/
def exMessage (t : MsgType) (data : Bytes) : Message :=
  { destination := 2, messageType := t, rpid := exRpid, pid := some exPid, data := data }

theorem oneMessage_run (E : TextEnv) (L : Lib) (n m : Nat) {t t' : MsgType} {o : Outgoing} {data : Bytes}
    (h : messageData E n t o = .ok (t', data))
    (h1 : ((Link.fresh true exRpid).run [.queue t' data (some exPid) .default, .flush none, .deliver]).taken = [])
    (h2 : ((Link.fresh true exRpid).run [.queue t' data (some exPid) .default, .flush none, .deliver, .poll]).taken =
      [exMessage t' data]) :
    ((WireLink.fresh true exRpid).run E L n m (oneMessage t o)).sent = [⟨t, some exPid, o⟩] ∧
    ((WireLink.fresh true exRpid).run E L n m (oneMessage t o)).refused = [] ∧
    ((WireLink.fresh true exRpid).run E L n m (oneMessage t o)).arrived =
      [⟨t', some exPid, messageObject E L m [] (exMessage t' data)⟩] := by
  obtain ⟨w, hw⟩ : ∃ w, w = (WireLink.fresh true exRpid).run E L n m [.send t o (some exPid) .default, .flush none, .deliver] := ⟨_, rfl⟩
  have e : (WireLink.fresh true exRpid).run E L n m (oneMessage t o) = w.step E L n m .poll := by rw [hw]; rfl
  have hk : w.link = (Link.fresh true exRpid).run [.queue t' data (some exPid) .default, .flush none, .deliver] ∧
      w.sent = [⟨t, some exPid, o⟩] ∧ w.refused = [] ∧ w.arrived = [] ∧ w.shared = [] := by
    have hs : (WireLink.fresh true exRpid).step E L n m (.send t o (some exPid) .default) =
        { link := (Link.fresh true exRpid).step (.queue t' data (some exPid) .default), sent := [⟨t, some exPid, o⟩] } := by
      simp only [WireLink.step, h]
      rfl
    have hw' : w = (((WireLink.fresh true exRpid).step E L n m (.send t o (some exPid) .default)).step E L n m (.flush none)).step E L n m .deliver := hw
    rw [hs] at hw'
    rw [hw']
    exact ⟨rfl, rfl, rfl, rfl, rfl⟩
  have hp : (w.link.step .poll).taken = [exMessage t' data] := by rw [hk.1]; exact h2
  rw [e]
  have hl : w.link.taken.length = 0 := by rw [hk.1, h1]; rfl
  simp only [WireLink.step, hp, hl, hk.2, List.drop_zero, List.nil_append]
  exact ⟨trivial, trivial, rfl⟩

/-- The data of `<S>c</S>`. -/
def charData (b : Bytes) : Bytes := [60, 83, 62] ++ b ++ [60, 47, 83, 62]

/-- C71 does not hold for all objects: a text with `U+FFFF`, which Python can hold and XML cannot, is sent without
complaint, and the receiver's `next_event` raises an exception. -/
theorem C71_violated (E : TextEnv) (L : Lib) (n m : Nat) : ∃ v, ∀ w, w = (WireLink.fresh true exRpid).run E L (n + 1) m
      (oneMessage .PipelineInput (.object exampleHeap v)) →
    w.sent.length = 1 ∧ w.refused = [] ∧ w.arrived.map (·.object) = [.error .parseError] := by
  refine ⟨.prim (.str .string [0xFFFF]), fun w hw => ?_⟩
  have h : messageData E (n + 1) .PipelineInput (.object exampleHeap (.prim (.str .string [0xFFFF]))) =
      .ok (.PipelineInput, charData [0xEF, 0xBF, 0xBF]) := rfl
  obtain ⟨h1, h2, h3⟩ := oneMessage_run E L (n + 1) m h (by decide +kernel) (by decide +kernel)
  rw [hw, h1, h2, h3]
  refine ⟨rfl, rfl, ?_⟩
  have : messageObject E L m [] (exMessage .PipelineInput (charData [0xEF, 0xBF, 0xBF])) = .error .parseError := rfl
  exact congrArg (fun x => [x]) this

/-- A text with a lone high surrogate, which the escaping leaves out (C49), becomes a character reference to no character. -/
theorem C71_violated_surrogate (E : TextEnv) (L : Lib) (n m : Nat) : ∃ v, ∀ w, w = (WireLink.fresh true exRpid).run E L (n + 1) m
      (oneMessage .PipelineInput (.object exampleHeap v)) →
    w.sent.length = 1 ∧ w.refused = [] ∧ w.arrived.map (·.object) = [.error .parseError] := by
  refine ⟨.prim (.str .string [0xDA00]), fun w hw => ?_⟩
  have h : messageData E (n + 1) .PipelineInput (.object exampleHeap (.prim (.str .string [0xDA00]))) =
      .ok (.PipelineInput, charData ((txt! "&#55808;").map byte)) := rfl
  obtain ⟨h1, h2, h3⟩ := oneMessage_run E L (n + 1) m h (by decide +kernel) (by decide +kernel)
  rw [hw, h1, h2, h3]
  refine ⟨rfl, rfl, ?_⟩
  have : messageObject E L m [] (exMessage .PipelineInput (charData ((txt! "&#55808;").map byte))) = .error .parseError := rfl
  exact congrArg (fun x => [x]) this

/-- `None` as pipeline input arrives as pipeline output (C45). -/
theorem C71_violated_none (E : TextEnv) (L : Lib) (n m : Nat) : ∀ w, w = (WireLink.fresh true exRpid).run E L n m
      (oneMessage .PipelineInput (.object exampleHeap .nil)) →
    w.sent.map (·.type) = [.PipelineInput] ∧ w.arrived.map (·.type) = [.PipelineOutput] := by
  intro w hw
  obtain ⟨h1, h2, h3⟩ := oneMessage_run E L n m (t := .PipelineInput) (o := .object exampleHeap .nil) rfl
    (by decide +kernel) (by decide +kernel)
  rw [hw, h1, h3]
  exact ⟨rfl, rfl⟩

end Verif
