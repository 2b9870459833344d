import Verif.Proof.Written

/-! # C77: records arrive as they were written -/

namespace Verif

/-- The classes of the library are registered. -/
theorem library_records : library.HasRecords := by
  intro k
  cases k <;> decide +kernel

/-- C77: in all histories of sending, flushing, delivering and polling, in any order: if the `k`-th message holds a record, as
`write_error`, `write_debug`, `write_verbose` and `write_warning` send it or as the reason of a state or the error of a host response,
and there is a `k`-th event, then the event shows an object of the class of the record from which `FromPSObjectForRemoting` makes a
record that tells the same. Partial: the conditions of C65 and C66 (and see `C72_events_partial`). -/
theorem C77_arrive_partial (E : TextEnv) (hE : ExtendsAscii E.uni) (L : Lib) (std : L.Standard) (hL : L.NoObject) (hR : L.HasRecords)
    (n m : Nat) (hnm : n < m) (client : Bool) (rpid : UUID) (ops : List LetterOp) (hp : ∀ p ∈ posts ops, p.Ok E L)
    (hs : ∀ p ∈ posts ops, ∀ sh, p.letter.shape = .ok sh → ∃ t d,
      messageData E n p.letter.type (sh.outgoing p.heap p.addr p.key) = .ok (t, d) ∧ d.length + 40 < 2 ^ 32)
    (ha : ∀ a, LetterOp.flush (some a) ∈ ops → 22 ≤ a) (hn : ops.length < 2 ^ 64)
    (w : WireLink) (hw : w = (WireLink.fresh client rpid).run E L n m (ops.flatMap LetterOp.wire))
    (root : PyStr → PyStr) (val : Nat → PVal) (valInfo : InvocationInfo Nat → PVal) (k : Nat) (p : Post) (r : Written)
    (i : Mail (Except Err Incoming)) (hk : (posts ops)[k]? = some p) (hv : r.Ready) (hc : r.Sent L p.heap val valInfo p.letter)
    (hi : w.arrived[k]? = some i) : RecordArrives L root val valInfo r p i := by
  obtain ⟨_, _, _, h4⟩ := C72_events_partial E hE L std hL n m hnm client rpid ops hp hs ha hn w hw
  have hlt : k < w.arrived.length := by
    rw [List.getElem?_eq_some_iff] at hi
    exact hi.1
  refine record_arrives hR (hp p (List.mem_of_getElem? hk)) hv hc (h4.at k ?_ hi)
  rw [List.getElem?_take_of_lt hlt]
  exact hk

/-- C77: when everything was flushed and delivered and the receiver is told that there is no more, the event of every record is there and
shows it. -/
theorem C77_complete_partial (E : TextEnv) (hE : ExtendsAscii E.uni) (L : Lib) (std : L.Standard) (hL : L.NoObject) (hR : L.HasRecords)
    (n m : Nat) (hnm : n < m) (client : Bool) (rpid : UUID) (ops : List LetterOp) (hp : ∀ p ∈ posts ops, p.Ok E L)
    (hs : ∀ p ∈ posts ops, ∀ sh, p.letter.shape = .ok sh → ∃ t d,
      messageData E n p.letter.type (sh.outgoing p.heap p.addr p.key) = .ok (t, d) ∧ d.length + 40 < 2 ^ 32)
    (ha : ∀ a, LetterOp.flush (some a) ∈ ops → 22 ≤ a) (hn : ops.length < 2 ^ 64)
    (w : WireLink) (hw : w = (WireLink.fresh client rpid).run E L n m (ops.flatMap LetterOp.wire))
    (hflushed : w.link.sender.buffer = []) (hdelivered : w.link.wire = [])
    (hnone : ∃ r, w.link.recv.nextMessage = (r, .ok none))
    (root : PyStr → PyStr) (val : Nat → PVal) (valInfo : InvocationInfo Nat → PVal) (k : Nat) (p : Post) (r : Written)
    (hk : (posts ops)[k]? = some p) (hv : r.Ready) (hc : r.Sent L p.heap val valInfo p.letter) :
    ∃ i, w.arrived[k]? = some i ∧ RecordArrives L root val valInfo r p i := by
  have h := C72_complete_partial E hE L std hL n m hnm client rpid ops hp hs ha hn w hw hflushed hdelivered hnone
  have hlt : k < w.arrived.length := by
    rw [← h.length_eq]
    rw [List.getElem?_eq_some_iff] at hk
    exact hk.1
  refine ⟨_, List.getElem?_eq_getElem hlt, ?_⟩
  exact record_arrives hR (hp p (List.mem_of_getElem? hk)) hv hc (h.at k hk (List.getElem?_eq_getElem hlt))

/-! ## An example -/

/-- An error without details of the invocation. -/
def failure : ErrorRecord Nat :=
  writeError (.exception { value := 5, message := some (some (txt! "no such item")) })
    (some { category := some 13, activity := some (txt! "Get-Item") }) (some 9) (some (txt! "PathNotFound"))
    (some { message := some (txt! "look elsewhere"), action := some [] }) none none (some (txt! "at <ScriptBlock>"))

/-- The values of the example. -/
def writtenVal : Nat → PVal
  | 0 => .prim (.int .psInt 0)
  | 1 => .prim (.str .string (txt! "Path"))
  | 5 => .ref 2
  | _ => .ref 3

/-- Where the values of the properties are. -/
def writtenPlace (name : PyStr) : NoteVal Nat → PVal
  | .nil => .nil
  | .bool b => .bool b
  | .int n => .prim (.plainInt n)
  | .str s => .prim (.str .string s)
  | .enum _ => if name = txt! "CommandInfo_CommandType" then .ref 5 else if name = txt! "CommandInfo_Visibility" then .ref 6 else .ref 4
  | .list l => if l = [] then .ref 7 else .ref 8
  | .dict _ => .ref 9
  | .value i => writtenVal i
  | .exception e => writtenVal e.value
  | .info _ => .nil

/-- The note properties of a record. -/
def writtenNotes (o : Notes Nat) : List (PyStr × PVal) := o.map fun n => (n.1, writtenPlace n.1 n.2)

/-- The objects: a warning with invocation info (0), an error (1) with an exception that has only a message (2) and a target that refers to
itself (3). -/
def writtenHeap : Heap
  | 0 => { key := some 0, types := [txt! "System.Management.Automation.WarningRecord", txt! "System.Management.Automation.InformationalRecord",
           txt! "System.Object"], extended := writtenNotes RecordExamples.warning.toRemoting }
  | 1 => { key := some 1, toStr := some (txt! "look elsewhere"), types := [txt! "System.Management.Automation.ErrorRecord", txt! "System.Object"],
           extended := writtenNotes (match failure.send with | .ok o => o | .error _ => []) }
  | 2 => { key := some 2, types := [txt! "System.Exception", txt! "System.Object"],
           adapted := [(txt! "Message", .prim (.str .string (txt! "no such item")))] }
  | 3 => { key := some 3, types := [txt! "My.Type"], adapted := [(txt! "Self", .ref 3)] }
  | 4 => memberObj 4 (txt! "System.Management.Automation.CommandOrigin") (txt! "Internal") 1
  | 5 => memberObj 5 (txt! "System.Management.Automation.CommandTypes") (txt! "Cmdlet") 8
  | 6 => memberObj 6 (txt! "System.Management.Automation.SessionStateEntryVisibility") (txt! "Private") 1
  | 7 => listOf []
  | 8 => listOf [writtenVal 0, writtenVal 1]
  | 9 => { data := .dict [(writtenVal 1, writtenVal 2)], types := [txt! "System.Collections.Hashtable", txt! "System.Object"] }
  | _ => {}

/-- The messages: the warning, and the failure as the reason of the last state. -/
def writtenLetters : List Letter := [.record .warning (.ref 0), .pipelineState .Failed (.ref 1)]

/-- A message about these objects. -/
def writtenPost (l : Letter) : Post where
  letter := l
  heap := writtenHeap
  addr := 100
  key := 100
  pid := some exPid

/-- They are sent one after the other, in pieces. -/
def writtenHistory : List LetterOp :=
  writtenLetters.flatMap (fun l => [.post (writtenPost l), .flush (some 300)]) ++
    (List.replicate 2 (.flush none) ++ (List.replicate 4 .deliver ++ List.replicate 3 .poll))

theorem written_failure : ∃ o, failure.send = .ok o ∧ (writtenHeap 1).extended = writtenNotes o := ⟨_, rfl, rfl⟩

/-- Builds the proof that a value is that of a property. -/
macro "note_tac" : tactic => `(tactic| repeat first
  | exact All2.nil
  | refine All2.cons ⟨rfl, ?_⟩ ?_
  | exact ⟨_, rfl, .nil⟩
  | exact ⟨_, rfl, .cons rfl (.cons rfl .nil)⟩
  | exact ⟨_, rfl, .cons ⟨rfl, rfl⟩ .nil⟩
  | exact ⟨rfl, _, rfl, rfl⟩
  | exact rfl)

theorem written_warning_sent : (Written.warning RecordExamples.warning).Sent library writtenHeap writtenVal (fun _ => .nil)
    (writtenPost writtenLetters[0]).letter := by
  refine ⟨_, _, rfl, ⟨rfl, rfl⟩, 0, rfl, rfl, rfl, rfl, ?_⟩
  show All2 _ RecordExamples.warning.toRemoting (writtenNotes RecordExamples.warning.toRemoting)
  note_tac

/-- A check for texts. -/
def isText (r : Except Err PVal) (t : PyStr) : Bool :=
  match r with
  | .ok (.prim (.str .string s)) => decide (s = t)
  | _ => false

theorem isText_eq {r : Except Err PVal} {t : PyStr} (h : isText r t = true) : r = .ok (.prim (.str .string t)) := by
  unfold isText at h
  split at h
  · rw [of_decide_eq_true h]
  · cases h

theorem written_message : (sentView library writtenHeap writtenVal (fun _ => .nil)).HasMessage (.ref 2) (some (some (txt! "no such item"))) := by
  have h : isText ((sentView library writtenHeap writtenVal (fun _ => .nil)).attr (.ref 2) (txt! "Message")) (txt! "no such item") = true := by
    decide +kernel
  have h' := isText_eq h
  exact ⟨_, h', rfl⟩

theorem written_failure_sent : (Written.error failure).Sent library writtenHeap writtenVal (fun _ => .nil)
    (writtenPost writtenLetters[1]).letter := by
  refine ⟨_, _, rfl, ⟨rfl, rfl⟩, 1, rfl, rfl, rfl, rfl, ?_⟩
  show All2 _ _ (writtenNotes _)
  refine All2.cons ⟨rfl, rfl, written_message⟩ ?_
  note_tac

theorem written_ready : (Written.warning RecordExamples.warning).Ready ∧ (Written.error failure).Ready := by
  refine ⟨fun i h => ?_, ⟨fun n h => ?_, fun i h => ?_⟩, ⟨_, rfl⟩, fun i h => ?_, ?_, by nofun⟩
  · obtain ⟨_, h⟩ := h
    cases h
    exact ⟨RecordExamples.info_valid, RecordExamples.info_complete⟩
  · cases h; decide
  · cases h
  · cases h.2
  · intro d hd
    cases hd
    exact .inl ⟨_, rfl, by decide⟩

theorem written_posts : posts writtenHistory = writtenLetters.map writtenPost := rfl

theorem written_graph : ∀ l ∈ writtenLetters, graphCheck library writtenHeap l.objects (List.range 10) = true ∧
    graphXmlB writtenHeap l.objects (List.range 10) = true ∧ within (List.range 10) l.objects = true ∧
    ∀ q ∈ l.numbers, q.1.minValue ≤ q.2 ∧ q.2 ≤ q.1.maxValue := by
  decide +kernel

theorem written_fields : ∀ l ∈ writtenLetters, l.FieldsOk plainEnv writtenHeap := by
  intro l hl
  simp only [writtenLetters, List.mem_cons, List.not_mem_nil, or_false] at hl
  rcases hl with rfl | rfl
  · intro h; cases h
  · trivial

theorem written_ok : ∀ p ∈ posts writtenHistory, p.Ok plainEnv library := by
  rw [written_posts]
  intro p hp
  obtain ⟨l, hl, rfl⟩ := List.mem_map.mp hp
  obtain ⟨h1, h2, h3, h4⟩ := written_graph l hl
  have reach : ∀ b, Reach writtenHeap l.objects b → b ∈ List.range 10 := fun b hb => reach_within h3 (by decide +kernel) hb
  have all : ∀ b ∈ List.range 10, b ≠ 100 ∧ (writtenHeap b).key ≠ some 100 ∧
      (writtenHeap b).types.head? ≠ some (txt! "System.Object") := by
    decide +kernel
  exact {
    graph := graphCheck_ok plainEnv h1
    xml := graphXmlB_ok plainEnv h2
    numbers := fun q hq => (IntKind.inRange_iff _ _).mpr (h4 q hq)
    fields := written_fields l hl
    addr := fun b hb => (all b (reach b hb)).1
    key := fun b hb => (all b (reach b hb)).2.1
    types := fun b hb h => absurd h (all b (reach b hb)).2.2
    pid := fun q hq => by cases hq; decide }

/-- The size of a message. -/
def writtenSize (l : Letter) : Option Nat :=
  match l.shape with
  | .error _ => none
  | .ok sh =>
    match messageData plainEnv 20 l.type (sh.outgoing writtenHeap 100 100) with
    | .error _ => none
    | .ok q => some q.2.length

theorem written_size : ∀ l ∈ writtenLetters, ∃ k < 10000, writtenSize l = some k := by
  have h : ∀ l ∈ writtenLetters, (match writtenSize l with | none => false | some k => decide (k < 10000)) = true := by
    decide +kernel
  intro l hl
  have := h l hl
  cases e : writtenSize l with
  | none => rw [e] at this; cases this
  | some k => rw [e] at this; exact ⟨k, of_decide_eq_true this, rfl⟩

theorem written_sent : ∀ p ∈ posts writtenHistory, ∀ sh, p.letter.shape = .ok sh → ∃ t d,
    messageData plainEnv 20 p.letter.type (sh.outgoing p.heap p.addr p.key) = .ok (t, d) ∧ d.length + 40 < 2 ^ 32 := by
  rw [written_posts]
  intro p hp sh hsh
  obtain ⟨l, hl, rfl⟩ := List.mem_map.mp hp
  obtain ⟨k, hk, e⟩ := written_size l hl
  unfold writtenSize at e
  rw [show l.shape = .ok sh from hsh] at e
  dsimp only at e
  show ∃ t d, messageData plainEnv 20 l.type (sh.outgoing writtenHeap 100 100) = .ok (t, d) ∧ _
  cases em : messageData plainEnv 20 l.type (sh.outgoing writtenHeap 100 100) with
  | error x => rw [em] at e; cases e
  | ok q =>
    rw [em] at e
    simp only [Option.some.injEq] at e
    exact ⟨q.1, q.2, rfl, by omega⟩

/-- Beside `C77_arrive_partial` and `C77_complete_partial`: a warning and the reason of a failure arrive. -/
theorem written_example (root : PyStr → PyStr) : ∃ w i j,
    w = (WireLink.fresh true exRpid).run plainEnv library 20 21 (writtenHistory.flatMap LetterOp.wire) ∧
    w.arrived[0]? = some i ∧
    RecordArrives library root writtenVal (fun _ => .nil) (.warning RecordExamples.warning) (writtenPost writtenLetters[0]) i ∧
    w.arrived[1]? = some j ∧
    RecordArrives library root writtenVal (fun _ => .nil) (.error failure) (writtenPost writtenLetters[1]) j := by
  have ha : ∀ a, LetterOp.flush (some a) ∈ writtenHistory → 22 ≤ a := by
    intro a h
    simp only [writtenHistory, List.mem_append, List.mem_flatMap, List.mem_cons, List.not_mem_nil, or_false, reduceCtorEq,
      LetterOp.flush.injEq, Option.some.injEq, false_or, List.mem_replicate, and_false] at h
    obtain ⟨_, _, rfl⟩ := h
    decide
  obtain ⟨h1, h2, h3⟩ : ((WireLink.fresh true exRpid).run plainEnv library 20 21 (writtenHistory.flatMap LetterOp.wire)).link.sender.buffer = [] ∧
      ((WireLink.fresh true exRpid).run plainEnv library 20 21 (writtenHistory.flatMap LetterOp.wire)).link.wire = [] ∧
      ((WireLink.fresh true exRpid).run plainEnv library 20 21 (writtenHistory.flatMap LetterOp.wire)).link.recv.nextMessage = ({}, .ok none) := by
    rw [run_under]
    decide +kernel
  have h := C77_complete_partial plainEnv (fun _ _ => rfl) library library_standard library_noObject library_records 20 21 (by decide) true
    exRpid writtenHistory written_ok written_sent ha (by decide) _ rfl h1 h2 ⟨{}, h3⟩ root writtenVal (fun _ => .nil)
  obtain ⟨i, hi, hi'⟩ := h 0 _ (.warning RecordExamples.warning) rfl written_ready.1 written_warning_sent
  obtain ⟨j, hj, hj'⟩ := h 1 _ (.error failure) rfl written_ready.2 written_failure_sent
  exact ⟨_, i, j, rfl, hi, hi', hj, hj'⟩

end Verif
