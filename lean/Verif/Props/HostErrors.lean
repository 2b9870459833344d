import Verif.Proof.HostErrors
import Verif.Props.Written

/-! # C79: a failed host call shows an error record -/

namespace Verif

/-- C79, for pipelines: in all histories of sending, flushing, delivering and polling: if the `k`-th message is the response to a failed host
call of a pipeline, whether the error has the type names of error records or names that are not registered or none, then the property
`error` of the `k`-th event is an error record that tells the same. Partial: the conditions of C65 (and see `C72_events_partial`). -/
theorem C79_pipeline_partial (E : TextEnv) (hE : ExtendsAscii E.uni) (L : Lib) (std : L.Standard) (hL : L.NoObject) (hR : L.HasRecords)
    (n m : Nat) (hnm : n < m) (client : Bool) (rpid : UUID) (ops : List LetterOp) (hp : ∀ p ∈ posts ops, p.Ok E L)
    (hs : ∀ p ∈ posts ops, ∀ sh, p.letter.shape = .ok sh → ∃ t d,
      messageData E n p.letter.type (sh.outgoing p.heap p.addr p.key) = .ok (t, d) ∧ d.length + 40 < 2 ^ 32)
    (ha : ∀ a, LetterOp.flush (some a) ∈ ops → 22 ≤ a) (hn : ops.length < 2 ^ 64)
    (w : WireLink) (hw : w = (WireLink.fresh client rpid).run E L n m (ops.flatMap LetterOp.wire))
    (root : PyStr → PyStr) (val : Nat → PVal) (valInfo : InvocationInfo Nat → PVal) (k : Nat) (p : Post) (r : ErrorRecord Nat)
    (o : Notes Nat) (v : PVal) (i : Mail (Except Err Incoming)) (hk : (posts ops)[k]? = some p) (hi : w.arrived[k]? = some i)
    (hv : (Written.error r).Ready) (ho : r.send = .ok o) (hc : p.letter.FailedCall true v)
    (hobj : IsRecordObject L p.heap val valInfo .error o v ∨ IsLooseRecord L p.heap val valInfo o v) :
    ErrorOf L val valInfo p i fun s w g => g.Tells L s w root r := by
  obtain ⟨_, _, _, h4⟩ := C72_events_partial E hE L std hL n m hnm client rpid ops hp hs ha hn w hw
  have hlt : k < w.arrived.length := by
    rw [List.getElem?_eq_some_iff] at hi
    exact hi.1
  have hev := h4.at k (by rw [List.getElem?_take_of_lt hlt]; exact hk) hi
  have ok := hp p (List.mem_of_getElem? hk)
  obtain ⟨q1, q2, x, ds, e, φ, d, q3, q4, q5, q6, q7, q8, q9⟩ := failed_event ok hc hev
  refine ⟨q1, q2, x, ds, e, φ, _, q3, q4, q5, ?_, q9⟩
  have hread : (Written.error r).ReadFrom root o := written_read hv ho
  rw [if_pos rfl]
  rcases hobj with hobj | hobj
  · have := record_object hR ok.graph.objs q8 q6 (fun a e => .root (e ▸ q7)) hobj
    rw [value_record this]
    exact ⟨o, this, hread⟩
  · obtain ⟨h1, h2, h3⟩ := loose_object ok.graph.objs q8 q6 (fun a e => .root (e ▸ q7)) hobj
    rw [made_loose h2 h3]
    exact ⟨o, h1, hread⟩

/-- C79, for the pool: the same, if the error has the type names of error records. -/
theorem C79_pool_partial (E : TextEnv) (hE : ExtendsAscii E.uni) (L : Lib) (std : L.Standard) (hL : L.NoObject) (hR : L.HasRecords)
    (n m : Nat) (hnm : n < m) (client : Bool) (rpid : UUID) (ops : List LetterOp) (hp : ∀ p ∈ posts ops, p.Ok E L)
    (hs : ∀ p ∈ posts ops, ∀ sh, p.letter.shape = .ok sh → ∃ t d,
      messageData E n p.letter.type (sh.outgoing p.heap p.addr p.key) = .ok (t, d) ∧ d.length + 40 < 2 ^ 32)
    (ha : ∀ a, LetterOp.flush (some a) ∈ ops → 22 ≤ a) (hn : ops.length < 2 ^ 64)
    (w : WireLink) (hw : w = (WireLink.fresh client rpid).run E L n m (ops.flatMap LetterOp.wire))
    (root : PyStr → PyStr) (val : Nat → PVal) (valInfo : InvocationInfo Nat → PVal) (k : Nat) (p : Post) (r : ErrorRecord Nat)
    (o : Notes Nat) (v : PVal) (i : Mail (Except Err Incoming)) (hk : (posts ops)[k]? = some p) (hi : w.arrived[k]? = some i)
    (hv : (Written.error r).Ready) (ho : r.send = .ok o) (hc : p.letter.FailedCall false v)
    (hobj : IsRecordObject L p.heap val valInfo .error o v) :
    ErrorOf L val valInfo p i fun s w g => g.Tells L s w root r := by
  obtain ⟨_, _, _, h4⟩ := C72_events_partial E hE L std hL n m hnm client rpid ops hp hs ha hn w hw
  have hlt : k < w.arrived.length := by
    rw [List.getElem?_eq_some_iff] at hi
    exact hi.1
  have hev := h4.at k (by rw [List.getElem?_take_of_lt hlt]; exact hk) hi
  have ok := hp p (List.mem_of_getElem? hk)
  obtain ⟨q1, q2, x, ds, e, φ, d, q3, q4, q5, q6, q7, q8, q9⟩ := failed_event ok hc hev
  exact ⟨q1, q2, x, ds, e, φ, _, q3, q4, q5,
    ⟨o, record_object hR ok.graph.objs q8 q6 (fun a e => .root (e ▸ q7)) hobj, written_read hv ho⟩, q9⟩

/-- C79 does not hold for the pool: whenever the error comes without the type names of a registered class, the event shows an object that is
no error record of anything, though the same object in the response of a pipeline is one. What a user reads of it fails: it has
no property `CategoryInfo`. -/
theorem C79_pool_violated (E : TextEnv) (hE : ExtendsAscii E.uni) (L : Lib) (std : L.Standard) (hL : L.NoObject)
    (n m : Nat) (hnm : n < m) (client : Bool) (rpid : UUID) (ops : List LetterOp) (hp : ∀ p ∈ posts ops, p.Ok E L)
    (hs : ∀ p ∈ posts ops, ∀ sh, p.letter.shape = .ok sh → ∃ t d,
      messageData E n p.letter.type (sh.outgoing p.heap p.addr p.key) = .ok (t, d) ∧ d.length + 40 < 2 ^ 32)
    (ha : ∀ a, LetterOp.flush (some a) ∈ ops → 22 ≤ a) (hn : ops.length < 2 ^ 64)
    (w : WireLink) (hw : w = (WireLink.fresh client rpid).run E L n m (ops.flatMap LetterOp.wire))
    (root : PyStr → PyStr) (val : Nat → PVal) (valInfo : InvocationInfo Nat → PVal) (k : Nat) (p : Post) (r : ErrorRecord Nat)
    (o : Notes Nat) (v : PVal) (i : Mail (Except Err Incoming)) (hk : (posts ops)[k]? = some p) (hi : w.arrived[k]? = some i)
    (ho : r.send = .ok o) (hc : p.letter.FailedCall false v)
    (hobj : IsLooseRecord L p.heap val valInfo o v) :
    ErrorOf L val valInfo p i fun s w g => (∀ r', ¬ g.Tells L s w root r') ∧
      ∃ d, g = .value d ∧ HasNotes w o d ∧ s.attr L d (txt! "CategoryInfo") = .error .attributeError := by
  obtain ⟨_, _, _, h4⟩ := C72_events_partial E hE L std hL n m hnm client rpid ops hp hs ha hn w hw
  have hlt : k < w.arrived.length := by
    rw [List.getElem?_eq_some_iff] at hi
    exact hi.1
  have hev := h4.at k (by rw [List.getElem?_take_of_lt hlt]; exact hk) hi
  have ok := hp p (List.mem_of_getElem? hk)
  obtain ⟨q1, q2, x, ds, e, φ, d, q3, q4, q5, q6, q7, q8, q9⟩ := failed_event ok hc hev
  obtain ⟨h1, h2, b, y, rfl, hy, hcls⟩ := loose_object ok.graph.objs q8 q6 (fun a e => .root (e ▸ q7)) hobj
  refine ⟨q1, q2, x, ds, e, φ, _, q3, q4, q5, ⟨?_, .ref b, rfl, h1, ?_⟩, q9⟩
  · rintro r' ⟨o', ⟨⟨b', y', hb, hy', hc'⟩, _⟩, _⟩
    cases hb
    rw [hy] at hy'
    cases hy'
    rw [hcls] at hc'
    cases hc'
  · refine h1.2 _ ?_
    exact send_category ho

/-! ## An example -/

/-- The objects of `writtenHeap`, the error once more without type names (10), and the method that failed (11). -/
def looseHeap : Heap
  | 10 => { (writtenHeap 1) with key := some 10, types := [] }
  | 11 => memberObj 11 (txt! "System.Management.Automation.Remoting.RemoteHostMethodId") (txt! "ReadLine") 11
  | a => writtenHeap a

/-- The error with and without its type names, from a pipeline and from the pool. -/
def looseLetters : List Letter :=
  [.pipelineHostResponse 1 (.ref 11) .nil (.ref 1), .pipelineHostResponse 2 (.ref 11) .nil (.ref 10),
   .runspacePoolHostResponse 1 (.ref 11) .nil (.ref 1), .runspacePoolHostResponse 2 (.ref 11) .nil (.ref 10)]

/-- A message about these objects. -/
def loosePost (l : Letter) : Post where
  letter := l
  heap := looseHeap
  addr := 100
  key := 100
  pid := some exPid

/-- They are sent one after the other, in pieces. -/
def looseHistory : List LetterOp :=
  looseLetters.flatMap (fun l => [.post (loosePost l), .flush (some 300)]) ++
    (List.replicate 2 (.flush none) ++ (List.replicate 8 .deliver ++ List.replicate 6 .poll))

theorem loose_posts : posts looseHistory = looseLetters.map loosePost := rfl

theorem loose_graph : ∀ l ∈ looseLetters, graphCheck library looseHeap l.objects (List.range 12) = true ∧
    graphXmlB looseHeap l.objects (List.range 12) = true ∧ within (List.range 12) l.objects = true ∧
    ∀ q ∈ l.numbers, q.1.minValue ≤ q.2 ∧ q.2 ≤ q.1.maxValue := by
  decide +kernel

theorem loose_ok : ∀ p ∈ posts looseHistory, p.Ok plainEnv library := by
  rw [loose_posts]
  intro p hp
  obtain ⟨l, hl, rfl⟩ := List.mem_map.mp hp
  obtain ⟨h1, h2, h3, h4⟩ := loose_graph l hl
  have reach : ∀ b, Reach looseHeap l.objects b → b ∈ List.range 12 := fun b hb => reach_within h3 (by decide +kernel) hb
  have all : ∀ b ∈ List.range 12, b ≠ 100 ∧ (looseHeap b).key ≠ some 100 ∧
      (looseHeap b).types.head? ≠ some (txt! "System.Object") := by
    decide +kernel
  exact {
    graph := graphCheck_ok plainEnv h1
    xml := graphXmlB_ok plainEnv h2
    numbers := fun q hq => (IntKind.inRange_iff _ _).mpr (h4 q hq)
    fields := by
      simp only [looseLetters, List.mem_cons, List.not_mem_nil, or_false] at hl
      rcases hl with rfl | rfl | rfl | rfl <;> trivial
    addr := fun b hb => (all b (reach b hb)).1
    key := fun b hb => (all b (reach b hb)).2.1
    types := fun b hb h => absurd h (all b (reach b hb)).2.2
    pid := fun q hq => by cases hq; decide }

/-- The size of a message. -/
def looseSize (l : Letter) : Option Nat :=
  match l.shape with
  | .error _ => none
  | .ok sh =>
    match messageData plainEnv 20 l.type (sh.outgoing looseHeap 100 100) with
    | .error _ => none
    | .ok q => some q.2.length

theorem loose_size : ∀ l ∈ looseLetters, ∃ k < 10000, looseSize l = some k := by
  have h : ∀ l ∈ looseLetters, (match looseSize l with | none => false | some k => decide (k < 10000)) = true := by
    decide +kernel
  intro l hl
  have := h l hl
  cases e : looseSize l with
  | none => rw [e] at this; cases this
  | some k => rw [e] at this; exact ⟨k, of_decide_eq_true this, rfl⟩

theorem loose_sent : ∀ p ∈ posts looseHistory, ∀ sh, p.letter.shape = .ok sh → ∃ t d,
    messageData plainEnv 20 p.letter.type (sh.outgoing p.heap p.addr p.key) = .ok (t, d) ∧ d.length + 40 < 2 ^ 32 := by
  rw [loose_posts]
  intro p hp sh hsh
  obtain ⟨l, hl, rfl⟩ := List.mem_map.mp hp
  obtain ⟨k, hk, e⟩ := loose_size l hl
  unfold looseSize at e
  rw [show l.shape = .ok sh from hsh] at e
  dsimp only at e
  show ∃ t d, messageData plainEnv 20 l.type (sh.outgoing looseHeap 100 100) = .ok (t, d) ∧ _
  cases em : messageData plainEnv 20 l.type (sh.outgoing looseHeap 100 100) with
  | error x => rw [em] at e; cases e
  | ok q =>
    rw [em] at e
    simp only [Option.some.injEq] at e
    exact ⟨q.1, q.2, rfl, by omega⟩

theorem loose_message : (sentView library looseHeap writtenVal (fun _ => .nil)).HasMessage (.ref 2) (some (some (txt! "no such item"))) := by
  have h : isText ((sentView library looseHeap writtenVal (fun _ => .nil)).attr (.ref 2) (txt! "Message")) (txt! "no such item") = true := by
    decide +kernel
  have h' := isText_eq h
  exact ⟨_, h', rfl⟩

theorem loose_objects : ∃ o, failure.send = .ok o ∧ IsRecordObject library looseHeap writtenVal (fun _ => .nil) .error o (.ref 1) ∧
    IsLooseRecord library looseHeap writtenVal (fun _ => .nil) o (.ref 10) := by
  refine ⟨_, rfl, ⟨1, rfl, rfl, rfl, rfl, ?_⟩, ⟨10, rfl, rfl, by nofun, rfl, ?_⟩⟩
  · show All2 _ _ (writtenNotes _)
    refine All2.cons ⟨rfl, rfl, loose_message⟩ ?_
    note_tac
  · show All2 _ _ (writtenNotes _)
    refine All2.cons ⟨rfl, rfl, loose_message⟩ ?_
    note_tac

theorem loose_flush : ∀ a, LetterOp.flush (some a) ∈ looseHistory → 22 ≤ a := by
  intro a h
  simp only [looseHistory, List.mem_append, List.mem_flatMap, List.mem_cons, List.not_mem_nil, or_false, reduceCtorEq,
    LetterOp.flush.injEq, Option.some.injEq, false_or, List.mem_replicate, and_false] at h
  obtain ⟨_, _, rfl⟩ := h
  decide

theorem four {α : Type} {l : List α} (h : l.length = 4) : ∃ a b c d, l = [a, b, c, d] := by
  match l, h with
  | [a, b, c, d], _ => exact ⟨a, b, c, d, rfl⟩

theorem loose_arrived : ∃ w i0 i1 i2 i3,
    w = (WireLink.fresh true exRpid).run plainEnv library 20 21 (looseHistory.flatMap LetterOp.wire) ∧ w.arrived = [i0, i1, i2, i3] := by
  obtain ⟨h1, h2, h3⟩ : ((WireLink.fresh true exRpid).run plainEnv library 20 21 (looseHistory.flatMap LetterOp.wire)).link.sender.buffer = [] ∧
      ((WireLink.fresh true exRpid).run plainEnv library 20 21 (looseHistory.flatMap LetterOp.wire)).link.wire = [] ∧
      ((WireLink.fresh true exRpid).run plainEnv library 20 21 (looseHistory.flatMap LetterOp.wire)).link.recv.nextMessage = ({}, .ok none) := by
    rw [run_under]
    decide +kernel
  have h := (C72_complete_partial plainEnv (fun _ _ => rfl) library library_standard library_noObject 20 21 (by decide) true
    exRpid looseHistory loose_ok loose_sent loose_flush (by decide) _ rfl h1 h2 ⟨{}, h3⟩).length_eq
  rw [loose_posts] at h
  obtain ⟨i0, i1, i2, i3, h⟩ := four h.symm
  exact ⟨_, i0, i1, i2, i3, rfl, h⟩

theorem loose_at : (posts looseHistory)[0]? = some (loosePost looseLetters[0]) ∧ (posts looseHistory)[1]? = some (loosePost looseLetters[1]) ∧
    (posts looseHistory)[2]? = some (loosePost looseLetters[2]) ∧ (posts looseHistory)[3]? = some (loosePost looseLetters[3]) := by
  rw [loose_posts]
  exact ⟨rfl, rfl, rfl, rfl⟩

/-- Beside `C79_pipeline_partial`, `C79_pool_partial` and `C79_pool_violated`: all four arrive, and three of them show the error. -/
theorem loose_example (root : PyStr → PyStr) : ∃ w i0 i1 i2 i3 o,
    w = (WireLink.fresh true exRpid).run plainEnv library 20 21 (looseHistory.flatMap LetterOp.wire) ∧ failure.send = .ok o ∧
    w.arrived = [i0, i1, i2, i3] ∧
    (ErrorOf library writtenVal (fun _ => .nil) (loosePost looseLetters[0]) i0 fun s w g => g.Tells library s w root failure) ∧
    (ErrorOf library writtenVal (fun _ => .nil) (loosePost looseLetters[1]) i1 fun s w g => g.Tells library s w root failure) ∧
    (ErrorOf library writtenVal (fun _ => .nil) (loosePost looseLetters[2]) i2 fun s w g => g.Tells library s w root failure) ∧
    ErrorOf library writtenVal (fun _ => .nil) (loosePost looseLetters[3]) i3 fun s w g => (∀ r', ¬ g.Tells library s w root r') ∧
      ∃ d, g = .value d ∧ HasNotes w o d ∧ s.attr library d (txt! "CategoryInfo") = .error .attributeError := by
  obtain ⟨w, i0, i1, i2, i3, hw, hm⟩ := loose_arrived
  obtain ⟨o, ho, hr, hl⟩ := loose_objects
  obtain ⟨a0, a1, a2, a3⟩ := loose_at
  have hlt : looseHistory.length < 2 ^ 64 := by decide
  refine ⟨w, i0, i1, i2, i3, o, hw, ho, hm, ?_, ?_, ?_, ?_⟩
  · exact C79_pipeline_partial plainEnv (fun _ _ => rfl) library library_standard library_noObject library_records 20 21 (by decide) true
      exRpid looseHistory loose_ok loose_sent loose_flush hlt w hw root writtenVal (fun _ => .nil) 0 _ failure o (.ref 1) i0 a0
      (by rw [hm]; rfl) written_ready.2 ho ⟨rfl, rfl⟩ (.inl hr)
  · exact C79_pipeline_partial plainEnv (fun _ _ => rfl) library library_standard library_noObject library_records 20 21 (by decide) true
      exRpid looseHistory loose_ok loose_sent loose_flush hlt w hw root writtenVal (fun _ => .nil) 1 _ failure o (.ref 10) i1 a1
      (by rw [hm]; rfl) written_ready.2 ho ⟨rfl, rfl⟩ (.inr hl)
  · exact C79_pool_partial plainEnv (fun _ _ => rfl) library library_standard library_noObject library_records 20 21 (by decide) true
      exRpid looseHistory loose_ok loose_sent loose_flush hlt w hw root writtenVal (fun _ => .nil) 2 _ failure o (.ref 1) i2 a2
      (by rw [hm]; rfl) written_ready.2 ho ⟨rfl, rfl⟩ hr
  · exact C79_pool_violated plainEnv (fun _ _ => rfl) library library_standard library_noObject 20 21 (by decide) true
      exRpid looseHistory loose_ok loose_sent loose_flush hlt w hw root writtenVal (fun _ => .nil) 3 _ failure o (.ref 10) i3 a3
      (by rw [hm]; rfl) ho ⟨rfl, rfl⟩ hl

end Verif
