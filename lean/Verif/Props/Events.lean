import Verif.Proof.Events
import Verif.Props.Wire

/-! # C72: events show what was sent -/

namespace Verif

theorem takes_shape (l : Letter) : Takes l.InRange l.shape := by
  cases l <;> simp only [Letter.InRange, Letter.numbers, Letter.shape, List.mem_cons, List.not_mem_nil, or_false, forall_eq_or_imp,
    forall_eq, List.forall_mem_map, List.forall_mem_append, false_imp_iff, imp_true_iff]
  case sessionCapability => exact takes_ok trivial _
  case initRunspacePool => exact takes_bind (takes_int _ _) fun _ => takes_last (takes_int _ _)
  case publicKey => exact takes_ok trivial _
  case encryptedSessionKey => exact takes_ok trivial _
  case publicKeyRequest => exact takes_ok trivial _
  case setMaxRunspaces => exact takes_bind (takes_int _ _) fun _ => takes_last (takes_int _ _)
  case setMinRunspaces => exact takes_bind (takes_int _ _) fun _ => takes_last (takes_int _ _)
  case runspaceAvailability => exact takes_last (takes_int _ _)
  case runspacePoolState st _ => exact takes_true (takes_last (takes_int _ _)) (iff_of_true trivial (poolState_range st))
  case createPipeline => exact takes_ok trivial _
  case getAvailableRunspaces => exact takes_last (takes_int _ _)
  case userEvent => exact takes_last (takes_int? _ _)
  case applicationPrivateData => exact takes_ok trivial _
  case getCommandMetadata => exact takes_ok trivial _
  case runspacePoolHostCall => exact takes_last (takes_int _ _)
  case runspacePoolHostResponse => exact takes_last (takes_int _ _)
  case pipelineInput => exact takes_ok trivial _
  case endOfPipelineInput => exact takes_ok trivial _
  case pipelineOutput => exact takes_ok trivial _
  case record => exact takes_ok trivial _
  case pipelineState st _ => exact takes_true (takes_last (takes_int _ _)) (iff_of_true trivial (pipeState_range st))
  case progressRecord =>
    exact takes_and (takes_and (takes_bind (takes_int? _ _) fun _ => takes_bind (takes_int? _ _) fun _ =>
      takes_bind (takes_int? _ _) fun _ => takes_last (takes_int? _ _)))
  case informationRecord =>
    exact takes_and (takes_bind (takes_int? _ _) fun _ => takes_bind (takes_int? _ _) fun _ => takes_last (takes_int? _ _))
  case pipelineHostCall => exact takes_last (takes_int _ _)
  case pipelineHostResponse => exact takes_last (takes_int _ _)
  case connectRunspacePool => exact takes_bind (takes_limit _ _) fun _ => takes_last (takes_limit _ _)
  case runspacePoolInitData => exact takes_bind (takes_int _ _) fun _ => takes_last (takes_int _ _)
  case resetRunspaceState => exact takes_last (takes_int _ _)

/-- C72: a message class takes its arguments exactly if all numbers are values of their types; otherwise it raises
`ValueError`. -/
theorem C72_made_exact (l : Letter) :
    ((∃ sh, l.shape = .ok sh) ↔ l.InRange) ∧ (l.shape = .error .valueError ↔ ¬ l.InRange) := by
  rcases takes_shape l with ⟨h, sh, e⟩ | ⟨h, e⟩
  · rw [e]
    exact ⟨⟨fun _ => h, fun _ => ⟨_, rfl⟩⟩, ⟨(fun q => by cases q), fun q => absurd h q⟩⟩
  · rw [e]
    exact ⟨⟨(fun ⟨_, q⟩ => by cases q), fun q => absurd q h⟩, ⟨fun _ => h, fun _ => rfl⟩⟩

theorem wires_sent {E : TextEnv} {L : Lib} {n m : Nat} {ops : List LetterOp}
    (hs : ∀ p ∈ posts ops, ∀ sh, p.letter.shape = .ok sh → ∃ t d,
      messageData E n p.letter.type (sh.outgoing p.heap p.addr p.key) = .ok (t, d) ∧ d.length + 40 < 2 ^ 32) (w : WireLink) :
    (w.run E L n m (ops.flatMap LetterOp.wire)).sent = w.sent ++ mails (ops.flatMap LetterOp.wire) ∧
    (w.run E L n m (ops.flatMap LetterOp.wire)).refused = w.refused := by
  refine sent_run E L n m _ w fun t o pid st h => ?_
  obtain ⟨op, ho, hw⟩ := List.mem_flatMap.mp h
  cases op with
  | post p =>
    simp only [LetterOp.wire] at hw
    cases e : p.letter.shape with
    | error x => rw [e] at hw; simp at hw
    | ok sh =>
      rw [e] at hw
      simp only [List.mem_singleton, WireOp.send.injEq] at hw
      obtain ⟨rfl, rfl, _⟩ := hw
      obtain ⟨t, d, h1, _⟩ := hs p (mem_posts.mpr ho) sh e
      exact ⟨_, h1⟩
  | flush a => simp [LetterOp.wire] at hw
  | deliver => simp [LetterOp.wire] at hw
  | poll => simp [LetterOp.wire] at hw

/-- C72: in all histories of making and sending messages, flushing with any amounts, delivering and polling, in any order: the
transport raises nothing, and the events that arrived are those of the first of the messages, in order, each once. Each event has
the type and the pipeline of its message, every one of its properties can be read, and shows the value the message was
made with. -/
theorem C72_events_partial (E : TextEnv) (hE : ExtendsAscii E.uni) (L : Lib) (std : L.Standard) (hL : L.NoObject) (n m : Nat) (hnm : n < m)
    (client : Bool) (rpid : UUID) (ops : List LetterOp) (hp : ∀ p ∈ posts ops, p.Ok E L)
    (hs : ∀ p ∈ posts ops, ∀ sh, p.letter.shape = .ok sh → ∃ t d,
      messageData E n p.letter.type (sh.outgoing p.heap p.addr p.key) = .ok (t, d) ∧ d.length + 40 < 2 ^ 32)
    (ha : ∀ a, LetterOp.flush (some a) ∈ ops → 22 ≤ a) (hn : ops.length < 2 ^ 64)
    (w : WireLink) (hw : w = (WireLink.fresh client rpid).run E L n m (ops.flatMap LetterOp.wire)) :
    w.link.errors = [] ∧ w.refused = [] ∧ w.arrived.length ≤ (posts ops).length ∧
    All2 (EventOf L) ((posts ops).take w.arrived.length) w.arrived := by
  have made : ∀ p ∈ posts ops, ∃ sh, p.letter.shape = .ok sh := fun p h => (C72_made_exact p.letter).1.mpr (hp p h).numbers
  have legal := wires_legal hL hp hs ha
  obtain ⟨h1, h2, h3⟩ := C71_order_partial E hE L std n m hnm client rpid _ legal (Nat.lt_of_le_of_lt (wires_length ops) hn) w hw
  have hsent := wires_sent (L := L) (m := m) hs (WireLink.fresh client rpid)
  rw [← hw] at hsent
  have hm := mails_of made
  rw [← show w.sent = mails (ops.flatMap LetterOp.wire) from hsent.1] at hm
  refine ⟨h1, hsent.2, by rw [hm.length_eq]; exact h2, ?_⟩
  exact (hm.take _).comp h3 fun p hq _ _ a b => event_of hL (hp p (List.mem_of_mem_take hq)) a b

/-- C72: when everything was flushed and delivered and the receiver is told that there is no more, every message has its event. -/
theorem C72_complete_partial (E : TextEnv) (hE : ExtendsAscii E.uni) (L : Lib) (std : L.Standard) (hL : L.NoObject) (n m : Nat)
    (hnm : n < m) (client : Bool) (rpid : UUID) (ops : List LetterOp) (hp : ∀ p ∈ posts ops, p.Ok E L)
    (hs : ∀ p ∈ posts ops, ∀ sh, p.letter.shape = .ok sh → ∃ t d,
      messageData E n p.letter.type (sh.outgoing p.heap p.addr p.key) = .ok (t, d) ∧ d.length + 40 < 2 ^ 32)
    (ha : ∀ a, LetterOp.flush (some a) ∈ ops → 22 ≤ a) (hn : ops.length < 2 ^ 64)
    (w : WireLink) (hw : w = (WireLink.fresh client rpid).run E L n m (ops.flatMap LetterOp.wire))
    (hflushed : w.link.sender.buffer = []) (hdelivered : w.link.wire = [])
    (hnone : ∃ r, w.link.recv.nextMessage = (r, .ok none)) :
    All2 (EventOf L) (posts ops) w.arrived := by
  have made : ∀ p ∈ posts ops, ∃ sh, p.letter.shape = .ok sh := fun p h => (C72_made_exact p.letter).1.mpr (hp p h).numbers
  have h3 := C71_complete_partial E hE L std n m hnm client rpid _ (wires_legal hL hp hs ha)
    (Nat.lt_of_le_of_lt (wires_length ops) hn) w hw hflushed hdelivered hnone
  have hsent := wires_sent (L := L) (m := m) hs (WireLink.fresh client rpid)
  rw [← hw] at hsent
  have hm := mails_of made
  rw [← show w.sent = mails (ops.flatMap LetterOp.wire) from hsent.1] at hm
  exact hm.comp h3 fun p hq _ _ a b => event_of hL (hp p hq) a b

/-- C72: a limit of zero is not sent: the message is the same as without the limit. -/
theorem C72_connect_zero_violated (v : Option Int) :
    (Letter.connectRunspacePool (some 0) v).shape = (Letter.connectRunspacePool none v).shape ∧
    (Letter.connectRunspacePool v (some 0)).shape = (Letter.connectRunspacePool v none).shape := by
  have h : ∀ n, limitNote n (some 0) = limitNote n none := fun _ => rfl
  simp only [Letter.shape, h]
  exact ⟨trivial, trivial⟩

/-! ### An example -/

theorem library_noObject : library.NoObject := by
  unfold Lib.NoObject
  rw [library_loaded]
  decide +kernel

/-- Messages with objects, `None`, lists and numbers. -/
def letterExamples : List Letter :=
  [.sessionCapability ⟨2, 0, none, none⟩ ⟨2, 3, none, none⟩ ⟨1, 1, some 0, some 1⟩ (some [1, 2]),
   .initRunspacePool 1 5 (.ref 2) .nil (.ref 0) (.ref 3),
   .publicKey [1, 2, 3, 4],
   .runspaceAvailability (.int 7) 3,
   .runspaceAvailability (.bool true) (-1),
   .runspacePoolState .Broken (.ref 0),
   .pipelineHostCall 12 (.ref 2) (.ref 1),
   .pipelineHostResponse 12 (.ref 2) (.ref 1) .nil,
   .endOfPipelineInput,
   .pipelineState .Completed .nil,
   .progressRecord (some (txt! "Copy")) (some 1) (some (txt! "busy")) none (some (-1)) (some 50) (.ref 2) none,
   .connectRunspacePool none (some 4)]

/-- A message about the objects of `exampleHeap`. -/
def examplePost (l : Letter) : Post where
  letter := l
  heap := exampleHeap
  addr := 100
  key := 100
  pid := some exPid

/-- They are sent one after the other, in pieces. -/
def letterHistory : List LetterOp :=
  letterExamples.flatMap (fun l => [.post (examplePost l), .flush (some 200)]) ++
    (List.replicate 2 (.flush none) ++ (List.replicate 14 .deliver ++ List.replicate 13 .poll))

theorem letters_posts : posts letterHistory = letterExamples.map examplePost := rfl

theorem letters_graph : ∀ l ∈ letterExamples, graphCheck library exampleHeap l.objects [0, 1, 2, 3, 4] = true ∧
    graphXmlB exampleHeap l.objects [0, 1, 2, 3, 4] = true ∧ within [0, 1, 2, 3, 4] l.objects = true ∧
    ∀ q ∈ l.numbers, q.1.minValue ≤ q.2 ∧ q.2 ≤ q.1.maxValue := by
  decide +kernel

theorem letters_fields : ∀ l ∈ letterExamples, l.FieldsOk plainEnv exampleHeap := by
  intro l hl
  have low : ∀ t : PyStr, lowText t = true → (t.all fun c => 32 ≤ c ∧ c ≤ 126) = true → TextOk t ∧ Escapable t := fun t h h' =>
    ⟨lowText_ok h, escapable_ascii fun c hc => by simpa using List.all_eq_true.mp h' c hc⟩
  simp only [letterExamples, List.mem_cons, List.not_mem_nil, or_false] at hl
  rcases hl with rfl | rfl | rfl | rfl | rfl | rfl | rfl | rfl | rfl | rfl | rfl | rfl
  · intro v hv
    simp only [List.mem_cons, List.not_mem_nil, or_false] at hv
    rcases hv with rfl | rfl | rfl <;> simp [Prim.Ok, PSVersion.WellFormed]
  · trivial
  · trivial
  · simp [Letter.FieldsOk]
  · trivial
  · trivial
  · exact ⟨1, .list, _, rfl, rfl⟩
  · trivial
  · trivial
  · trivial
  · intro t ht
    simp only [List.mem_cons, Option.some.injEq, List.not_mem_nil, or_false, reduceCtorEq] at ht
    rcases ht with rfl | rfl
    · exact low _ (by decide) (by decide)
    · exact low _ (by decide) (by decide)
  · exact ⟨by simp, by simp⟩

theorem letters_ok : ∀ p ∈ posts letterHistory, p.Ok plainEnv library := by
  rw [letters_posts]
  intro p hp
  obtain ⟨l, hl, rfl⟩ := List.mem_map.mp hp
  obtain ⟨h1, h2, h3, h4⟩ := letters_graph l hl
  have reach : ∀ b, Reach exampleHeap l.objects b → b ∈ [0, 1, 2, 3, 4] := fun b hb => reach_within h3 (by decide +kernel) hb
  have all : ∀ b ∈ [0, 1, 2, 3, 4], b ≠ 100 ∧ (exampleHeap b).key ≠ some 100 ∧ (exampleHeap b).types.head? ≠ some (txt! "System.Object") := by
    decide +kernel
  exact {
    graph := graphCheck_ok plainEnv h1
    xml := graphXmlB_ok plainEnv h2
    numbers := fun q hq => (IntKind.inRange_iff _ _).mpr (h4 q hq)
    fields := letters_fields l hl
    addr := fun b hb => (all b (reach b hb)).1
    key := fun b hb => (all b (reach b hb)).2.1
    types := fun b hb h => absurd h (all b (reach b hb)).2.2
    pid := fun q hq => by cases hq; decide }

/-- The size of a message. -/
def letterSize (l : Letter) : Option Nat :=
  match l.shape with
  | .error _ => none
  | .ok sh =>
    match messageData plainEnv 8 l.type (sh.outgoing exampleHeap 100 100) with
    | .error _ => none
    | .ok q => some q.2.length

theorem letters_size : ∀ l ∈ letterExamples, ∃ k < 10000, letterSize l = some k := by
  have h : ∀ l ∈ letterExamples, (match letterSize l with | none => false | some k => decide (k < 10000)) = true := by
    decide +kernel
  intro l hl
  have := h l hl
  cases e : letterSize l with
  | none => rw [e] at this; cases this
  | some k => rw [e] at this; exact ⟨k, of_decide_eq_true this, rfl⟩

theorem letters_sent : ∀ p ∈ posts letterHistory, ∀ sh, p.letter.shape = .ok sh → ∃ t d,
    messageData plainEnv 8 p.letter.type (sh.outgoing p.heap p.addr p.key) = .ok (t, d) ∧ d.length + 40 < 2 ^ 32 := by
  rw [letters_posts]
  intro p hp sh hsh
  obtain ⟨l, hl, rfl⟩ := List.mem_map.mp hp
  obtain ⟨k, hk, e⟩ := letters_size l hl
  unfold letterSize at e
  rw [show l.shape = .ok sh from hsh] at e
  dsimp only at e
  show ∃ t d, messageData plainEnv 8 l.type (sh.outgoing exampleHeap 100 100) = .ok (t, d) ∧ _
  cases em : messageData plainEnv 8 l.type (sh.outgoing exampleHeap 100 100) with
  | error x => rw [em] at e; cases e
  | ok q =>
    rw [em] at e
    simp only [Option.some.injEq] at e
    exact ⟨q.1, q.2, rfl, by omega⟩

/-- Beside `C72_events_partial` and `C72_complete_partial`: twelve messages and their events. -/
theorem letter_example : ∃ w, w = (WireLink.fresh true exRpid).run plainEnv library 8 9 (letterHistory.flatMap LetterOp.wire) ∧
    (posts letterHistory).length = 12 ∧ All2 (EventOf library) (posts letterHistory) w.arrived := by
  have ha : ∀ a, LetterOp.flush (some a) ∈ letterHistory → 22 ≤ a := by
    intro a h
    simp only [letterHistory, List.mem_append, List.mem_flatMap, List.mem_cons, List.not_mem_nil, or_false, reduceCtorEq,
      LetterOp.flush.injEq, Option.some.injEq, false_or, List.mem_replicate, and_false] at h
    obtain ⟨_, _, rfl⟩ := h
    decide
  obtain ⟨h1, h2, h3⟩ : ((WireLink.fresh true exRpid).run plainEnv library 8 9 (letterHistory.flatMap LetterOp.wire)).link.sender.buffer = [] ∧
      ((WireLink.fresh true exRpid).run plainEnv library 8 9 (letterHistory.flatMap LetterOp.wire)).link.wire = [] ∧
      ((WireLink.fresh true exRpid).run plainEnv library 8 9 (letterHistory.flatMap LetterOp.wire)).link.recv.nextMessage = ({}, .ok none) := by
    rw [run_under]
    decide +kernel
  exact ⟨_, rfl, rfl, C72_complete_partial plainEnv (fun _ _ => rfl) library library_standard library_noObject 8 9 (by decide) true exRpid
    letterHistory letters_ok letters_sent ha (by decide) _ rfl h1 h2 ⟨{}, h3⟩⟩

/-- The response to `GetAvailableRunspaces` has no type: a count of `2 ^ 63` or more is sent without complaint, and the receiver's
`next_event` raises an exception. -/
theorem C72_response_violated : ∃ sh data, (Letter.runspaceAvailability (.int (2 ^ 63)) 1).shape = .ok sh ∧
    messageData plainEnv 8 .RunspaceAvailability (sh.outgoing exampleHeap 100 100) = .ok (.RunspaceAvailability, data) ∧
    messageObject plainEnv library 9 [] (exMessage .RunspaceAvailability data) = .error .valueError := by
  refine ⟨_, _, rfl, rfl, ?_⟩
  have h : ∀ x : Except Err Incoming, (match x with | .error e => some e | .ok _ => none) = some Err.valueError → x = .error .valueError := by
    intro x hx
    cases x with
    | error e => cases hx; rfl
    | ok _ => cases hx
  exact h _ (by decide +kernel)

end Verif
