import Verif.Proof.Contents

/-! # C75: what users put into messages is what the other side reads; C76: pipelines -/

namespace Verif

theorem All2.at {α β : Type} {R : α → β → Prop} {as : List α} {bs : List β} (h : All2 R as bs) (k : Nat) {a : α} {b : β}
    (ha : as[k]? = some a) (hb : bs[k]? = some b) : R a b := by
  induction h generalizing k with
  | nil => simp at ha
  | cons q _ ih =>
    cases k with
    | zero =>
      simp only [List.getElem?_cons_zero, Option.some.injEq] at ha hb
      subst ha
      subst hb
      exact q
    | succ k =>
      simp only [List.getElem?_cons_succ] at ha hb
      exact ih k ha hb

/-- C75: in all histories of sending, flushing, delivering and polling, in any order: if the `k`-th message was made from a host call, a
reply, a pipeline or the opening of a pool, and there is a `k`-th event, then the event shows that content: the call id, the method, the
parameters and the result as they were given, the same host information, the same pipeline. Partial: fields of prompts are those
without a default value and attributes, and replies have no error (and see `C72_events_partial`). -/
theorem C75_arrive_partial (E : TextEnv) (hE : ExtendsAscii E.uni) (L : Lib) (std : L.Standard) (hL : L.NoObject) (n m : Nat) (hnm : n < m)
    (client : Bool) (rpid : UUID) (ops : List LetterOp) (hp : ∀ p ∈ posts ops, p.Ok E L)
    (hs : ∀ p ∈ posts ops, ∀ sh, p.letter.shape = .ok sh → ∃ t d,
      messageData E n p.letter.type (sh.outgoing p.heap p.addr p.key) = .ok (t, d) ∧ d.length + 40 < 2 ^ 32)
    (ha : ∀ a, LetterOp.flush (some a) ∈ ops → 22 ≤ a) (hn : ops.length < 2 ^ 64)
    (w : WireLink) (hw : w = (WireLink.fresh client rpid).run E L n m (ops.flatMap LetterOp.wire))
    (strict : Bool) (val : Nat → PVal) (k : Nat) (p : Post) (c : Content) (i : Mail (Except Err Incoming))
    (hk : (posts ops)[k]? = some p) (hv : c.Valid strict) (hc : c.Sent strict L p.heap val p.letter) (hi : w.arrived[k]? = some i) :
    ContentArrives strict L val c p i := by
  obtain ⟨_, _, _, h4⟩ := C72_events_partial E hE L std hL n m hnm client rpid ops hp hs ha hn w hw
  have hlt : k < w.arrived.length := by
    rw [List.getElem?_eq_some_iff] at hi
    exact hi.1
  refine content_arrives (hp p (List.mem_of_getElem? hk)) hv hc (h4.at k ?_ hi)
  rw [List.getElem?_take_of_lt hlt]
  exact hk

/-- C75: when everything was flushed and delivered and the receiver is told that there is no more, the event of every such message is
there and shows its content. -/
theorem C75_complete_partial (E : TextEnv) (hE : ExtendsAscii E.uni) (L : Lib) (std : L.Standard) (hL : L.NoObject) (n m : Nat)
    (hnm : n < m) (client : Bool) (rpid : UUID) (ops : List LetterOp) (hp : ∀ p ∈ posts ops, p.Ok E L)
    (hs : ∀ p ∈ posts ops, ∀ sh, p.letter.shape = .ok sh → ∃ t d,
      messageData E n p.letter.type (sh.outgoing p.heap p.addr p.key) = .ok (t, d) ∧ d.length + 40 < 2 ^ 32)
    (ha : ∀ a, LetterOp.flush (some a) ∈ ops → 22 ≤ a) (hn : ops.length < 2 ^ 64)
    (w : WireLink) (hw : w = (WireLink.fresh client rpid).run E L n m (ops.flatMap LetterOp.wire))
    (hflushed : w.link.sender.buffer = []) (hdelivered : w.link.wire = [])
    (hnone : ∃ r, w.link.recv.nextMessage = (r, .ok none))
    (strict : Bool) (val : Nat → PVal) (k : Nat) (p : Post) (c : Content)
    (hk : (posts ops)[k]? = some p) (hv : c.Valid strict) (hc : c.Sent strict L p.heap val p.letter) :
    ∃ i, w.arrived[k]? = some i ∧ ContentArrives strict L val c p i := by
  have h := C72_complete_partial E hE L std hL n m hnm client rpid ops hp hs ha hn w hw hflushed hdelivered hnone
  have hlt : k < w.arrived.length := by
    rw [← h.length_eq]
    rw [List.getElem?_eq_some_iff] at hk
    exact hk.1
  refine ⟨_, List.getElem?_eq_getElem hlt, ?_⟩
  exact content_arrives (hp p (List.mem_of_getElem? hk)) hv hc (h.at k hk (List.getElem?_eq_getElem hlt))

/-- C75: there is no choice in what is read: two trees that a received value is are the same, but for the objects that are passed on. -/
theorem C75_unique (L : Lib) (s : DState) (leaf leaf' : Nat → DVal → Prop) (t u : HVal) (d : DVal)
    (h : IsTree (s.look L) leaf t d) (h' : IsTree (s.look L) leaf' u d) : Agree t u := tree_unique h u h'

/-- C76: `FromPSObjectForRemoting` of a command reads what `ToPSObjectForRemoting` made. -/
theorem C76_command (c : Command HVal) (peer : Option PSVersion) :
    ∃ r, RemoteCommand.read (c.toRemoting peer).tree = .ok r ∧ Command.fromRemoting r = c.knownTo (peer.getD Win7RC) :=
  ⟨_, command_read _, C32 c peer⟩

/-- C76: a pipeline that was sent, with its settings, its host and its statements, is what the event of the message gives. -/
theorem C76_pipeline_partial (E : TextEnv) (hE : ExtendsAscii E.uni) (L : Lib) (std : L.Standard) (hL : L.NoObject) (n m : Nat)
    (hnm : n < m) (client : Bool) (rpid : UUID) (ops : List LetterOp) (hp : ∀ p ∈ posts ops, p.Ok E L)
    (hs : ∀ p ∈ posts ops, ∀ sh, p.letter.shape = .ok sh → ∃ t d,
      messageData E n p.letter.type (sh.outgoing p.heap p.addr p.key) = .ok (t, d) ∧ d.length + 40 < 2 ^ 32)
    (ha : ∀ a, LetterOp.flush (some a) ∈ ops → 22 ≤ a) (hn : ops.length < 2 ^ 64)
    (w : WireLink) (hw : w = (WireLink.fresh client rpid).run E L n m (ops.flatMap LetterOp.wire))
    (val : Nat → PVal) (k : Nat) (p : Post) (q : PowerShell HVal HostInfo) (peer : Option PSVersion) (i : Mail (Except Err Incoming))
    (hk : (posts ops)[k]? = some p) (hne : q.commands ≠ []) (hd : ∀ d ∈ q.host.defaultData, d.Valid)
    (hc : (Content.pipeline q peer).Sent true L p.heap val p.letter) (hi : w.arrived[k]? = some i) :
    i.pid = p.pid ∧ ∃ d ds φ noInput apartment options history host command nested ti ta to th ts tc tn q',
      i.object = .ok (.object d ds) ∧
      readEvent L i.type (.object d ds) = .ok (.createPipeline noInput apartment options history host command nested) ∧
      IsTree (ds.look L) (fun j d => VMatch φ (val j) d) ti noInput ∧ IsTree (ds.look L) (fun j d => VMatch φ (val j) d) ta apartment ∧
      IsTree (ds.look L) (fun j d => VMatch φ (val j) d) to options ∧ IsTree (ds.look L) (fun j d => VMatch φ (val j) d) th history ∧
      IsTree (ds.look L) (fun j d => VMatch φ (val j) d) ts host ∧ IsTree (ds.look L) (fun j d => VMatch φ (val j) d) tc command ∧
      IsTree (ds.look L) (fun j d => VMatch φ (val j) d) tn nested ∧
      PowerShell.read ti ta to th ts tc tn = .ok q' ∧ q' = { q with commands := q'.commands } ∧
      (statements q'.commands).map (·.map Command.unmarked) =
        (statements q.commands).map (·.map (Command.knownTo (peer.getD Win7RC))) := by
  obtain ⟨_, h2, d, ds, e, φ, hx, hr, ⟨i', a, o, h, s, c, n', ti, ta, to, th, ts, tc, tn, q', rfl, rest⟩, _⟩ :=
    C75_arrive_partial E hE L std hL n m hnm client rpid ops hp hs ha hn w hw true val k p (.pipeline q peer) i hk ⟨hne, hd⟩ hc hi
  exact ⟨h2, d, ds, φ, i', a, o, h, s, c, n', ti, ta, to, th, ts, tc, tn, q', hx, hr, rest⟩

/-! ### An example -/

/-- A list of the example. -/
def listOf (l : List PVal) : PObj where
  data := .list .list l
  types := [txt! "System.Collections.ArrayList", txt! "System.Object"]

/-- A member of an enum class of the example. -/
def memberObj (k : Nat) (name text : PyStr) (n : Int) : PObj where
  key := some k
  data := .enum (.int .psInt n)
  toStr := some text
  types := [name, txt! "System.Enum", txt! "System.ValueType", txt! "System.Object"]

/-- A command of the example, the member `PipelineResultTypes.none` is at 13. -/
def commandObj (k : Nat) (cmd : PyStr) (args : Nat) (script : Bool) : PObj where
  key := some k
  extended := [(txt! "Cmd", .prim (.str .string cmd)), (txt! "Args", .ref args), (txt! "IsScript", .bool script),
    (txt! "UseLocalScope", .nil), (txt! "MergeMyResult", .ref 13), (txt! "MergeToResult", .ref 13),
    (txt! "MergePreviousResults", .ref 13), (txt! "MergeError", .ref 13), (txt! "MergeWarning", .ref 13),
    (txt! "MergeVerbose", .ref 13), (txt! "MergeDebug", .ref 13), (txt! "MergeInformation", .ref 13)]

/-- The objects of a host call (0 to 3) and of a pipeline with two statements (4 to 18). The value of a parameter is an object that refers
to itself (12). -/
def contentHeap : Heap
  | 0 => memberObj 0 (txt! "System.Management.Automation.Remoting.RemoteHostMethodId") (txt! "PromptForChoice") 26
  | 1 => listOf [.prim (.str .string (txt! "Confirm")), .prim (.str .string (txt! "Sure?")), .ref 2, .prim (.plainInt 0)]
  | 2 => listOf [.ref 3]
  | 3 => { key := some 3, extended := [(txt! "label", .prim (.str .string (txt! "&Yes"))), (txt! "helpMessage", .nil)] }
  | 4 => memberObj 4 (txt! "System.Management.Automation.RemoteStreamOptions") (txt! "None") 0
  | 5 => { key := some 5, extended := [(txt! "_isHostNull", .bool true), (txt! "_isHostUINull", .bool true),
           (txt! "_isHostRawUINull", .bool true), (txt! "_useRunspaceHost", .bool true)] }
  | 6 => { key := some 6, extended := [(txt! "Cmds", .ref 7), (txt! "IsNested", .bool false), (txt! "History", .nil),
           (txt! "RedirectShellErrorOutputPipe", .bool true), (txt! "ExtraCmds", .ref 8)] }
  | 7 => listOf [.ref 9]
  | 8 => listOf [.ref 16, .ref 17]
  | 9 => commandObj 9 (txt! "Get-Item") 10 false
  | 10 => listOf [.ref 11]
  | 11 => { key := some 11, extended := [(txt! "N", .prim (.str .string (txt! "Path"))), (txt! "V", .ref 12)] }
  | 12 => { key := some 12, types := [txt! "My.Type"], adapted := [(txt! "Self", .ref 12)] }
  | 13 => memberObj 13 (txt! "System.Management.Automation.Runspaces.PipelineResultTypes") (txt! "None") 0
  | 14 => commandObj 14 (txt! "1 + 1") 15 true
  | 15 => listOf []
  | 16 => { key := some 16, extended := [(txt! "Cmds", .ref 7)] }
  | 17 => { key := some 17, extended := [(txt! "Cmds", .ref 18)] }
  | 18 => listOf [.ref 14]
  | _ => {}

/-- The host call. -/
def exampleCall : HostCall :=
  .promptForChoice (.str (txt! "Confirm")) (.str (txt! "Sure?")) [⟨some (txt! "&Yes"), none⟩] (.int 0)

/-- The pipeline. -/
def contentPipeline : PowerShell HVal HostInfo where
  commands := [{ commandText := txt! "Get-Item", parameters := [(some (txt! "Path"), .other 0)], endOfStatement := true },
    { commandText := txt! "1 + 1", isScript := true, endOfStatement := false }]
  host := {}

/-- The messages. -/
def contentLetters : List Letter :=
  [.pipelineHostCall 7 (.ref 0) (.ref 1),
   .createPipeline true .nil (.ref 4) false (.ref 5) (.ref 6) false]

/-- A message about these objects. -/
def contentPost (l : Letter) : Post where
  letter := l
  heap := contentHeap
  addr := 100
  key := 100
  pid := some exPid

/-- They are sent one after the other, in pieces. -/
def contentHistory : List LetterOp :=
  contentLetters.flatMap (fun l => [.post (contentPost l), .flush (some 200)]) ++
    (List.replicate 2 (.flush none) ++ (List.replicate 4 .deliver ++ List.replicate 3 .poll))

/-- Builds the derivation of a concrete tree. -/
macro "tree_tac" : tactic => `(tactic| repeat first
  | exact All2.nil
  | refine All2.cons ?_ ?_
  | exact IsTree.str rfl
  | exact IsTree.int rfl
  | exact IsTree.bool rfl
  | exact IsTree.nil rfl
  | exact IsTree.enum rfl
  | exact IsTree.other rfl
  | refine IsTree.list rfl ?_
  | refine IsTree.obj rfl rfl ?_)

theorem content_completed : contentHeap.completed library = contentHeap := by
  have none_of : ∀ a, (library.declared (contentHeap a)).adapted = [] ∧ (library.declared (contentHeap a)).extended = [] := by
    intro a
    by_cases h : a < 19
    · have all : ∀ a ∈ List.range 19, (library.declared (contentHeap a)).adapted = [] ∧
          (library.declared (contentHeap a)).extended = [] := by decide +kernel
      exact all a (List.mem_range.mpr h)
    · have : contentHeap a = {} := by
        unfold contentHeap
        split <;> first | omega | rfl
      rw [this]
      exact ⟨rfl, rfl⟩
  funext a
  unfold Heap.completed Lib.completed
  rw [(none_of a).1, (none_of a).2, arranged_nil, arranged_nil]

theorem content_call : (Content.hostCall 7 exampleCall).Sent true library contentHeap (fun _ => .ref 12) (contentPost contentLetters[0]).letter := by
  unfold Content.Sent
  rw [content_completed]
  refine ⟨_, _, _, _, rfl, .inl rfl, .enum rfl, ?_⟩
  tree_tac

theorem content_pipeline : (Content.pipeline contentPipeline (some Pwsh5)).Sent true library contentHeap (fun _ => .ref 12)
    (contentPost contentLetters[1]).letter := by
  unfold Content.Sent
  rw [content_completed]
  refine ⟨_, _, _, _, _, _, rfl, rfl, rfl, .nil rfl, .enum rfl, ?_, ?_⟩
  · tree_tac
  · tree_tac

theorem content_valid : (Content.hostCall 7 exampleCall).Valid true ∧ (Content.pipeline contentPipeline (some Pwsh5)).Valid true := by
  refine ⟨?_, ?_⟩
  · simp [Content.Valid, exampleCall, HostCall.Valid]
  · exact ⟨by simp [contentPipeline], by intro d hd; cases hd⟩

theorem contents_posts : posts contentHistory = contentLetters.map contentPost := rfl

theorem contents_graph : ∀ l ∈ contentLetters, graphCheck library contentHeap l.objects (List.range 19) = true ∧
    graphXmlB contentHeap l.objects (List.range 19) = true ∧ within (List.range 19) l.objects = true ∧
    ∀ q ∈ l.numbers, q.1.minValue ≤ q.2 ∧ q.2 ≤ q.1.maxValue := by
  decide +kernel

theorem contents_fields : ∀ l ∈ contentLetters, l.FieldsOk plainEnv contentHeap := by
  intro l hl
  simp only [contentLetters, List.mem_cons, List.not_mem_nil, or_false] at hl
  rcases hl with rfl | rfl
  · exact ⟨1, .list, _, rfl, rfl⟩
  · trivial

theorem contents_ok : ∀ p ∈ posts contentHistory, p.Ok plainEnv library := by
  rw [contents_posts]
  intro p hp
  obtain ⟨l, hl, rfl⟩ := List.mem_map.mp hp
  obtain ⟨h1, h2, h3, h4⟩ := contents_graph l hl
  have reach : ∀ b, Reach contentHeap l.objects b → b ∈ List.range 19 := fun b hb => reach_within h3 (by decide +kernel) hb
  have all : ∀ b ∈ List.range 19, b ≠ 100 ∧ (contentHeap b).key ≠ some 100 ∧
      (contentHeap b).types.head? ≠ some (txt! "System.Object") := by
    decide +kernel
  exact {
    graph := graphCheck_ok plainEnv h1
    xml := graphXmlB_ok plainEnv h2
    numbers := fun q hq => (IntKind.inRange_iff _ _).mpr (h4 q hq)
    fields := contents_fields l hl
    addr := fun b hb => (all b (reach b hb)).1
    key := fun b hb => (all b (reach b hb)).2.1
    types := fun b hb h => absurd h (all b (reach b hb)).2.2
    pid := fun q hq => by cases hq; decide }

/-- The size of a message. -/
def contentSize (l : Letter) : Option Nat :=
  match l.shape with
  | .error _ => none
  | .ok sh =>
    match messageData plainEnv 20 l.type (sh.outgoing contentHeap 100 100) with
    | .error _ => none
    | .ok q => some q.2.length

theorem contents_size : ∀ l ∈ contentLetters, ∃ k < 10000, contentSize l = some k := by
  have h : ∀ l ∈ contentLetters, (match contentSize l with | none => false | some k => decide (k < 10000)) = true := by
    decide +kernel
  intro l hl
  have := h l hl
  cases e : contentSize l with
  | none => rw [e] at this; cases this
  | some k => rw [e] at this; exact ⟨k, of_decide_eq_true this, rfl⟩

theorem contents_sent : ∀ p ∈ posts contentHistory, ∀ sh, p.letter.shape = .ok sh → ∃ t d,
    messageData plainEnv 20 p.letter.type (sh.outgoing p.heap p.addr p.key) = .ok (t, d) ∧ d.length + 40 < 2 ^ 32 := by
  rw [contents_posts]
  intro p hp sh hsh
  obtain ⟨l, hl, rfl⟩ := List.mem_map.mp hp
  obtain ⟨k, hk, e⟩ := contents_size l hl
  unfold contentSize at e
  rw [show l.shape = .ok sh from hsh] at e
  dsimp only at e
  show ∃ t d, messageData plainEnv 20 l.type (sh.outgoing contentHeap 100 100) = .ok (t, d) ∧ _
  cases em : messageData plainEnv 20 l.type (sh.outgoing contentHeap 100 100) with
  | error x => rw [em] at e; cases e
  | ok q =>
    rw [em] at e
    simp only [Option.some.injEq] at e
    exact ⟨q.1, q.2, rfl, by omega⟩

/-- Beside `C75_arrive_partial`, `C75_complete_partial` and `C76_pipeline_partial`: a host call and a pipeline arrive. -/
theorem content_example : ∃ w i j, w = (WireLink.fresh true exRpid).run plainEnv library 20 21 (contentHistory.flatMap LetterOp.wire) ∧
    w.arrived[0]? = some i ∧ ContentArrives true library (fun _ => .ref 12) (.hostCall 7 exampleCall) (contentPost contentLetters[0]) i ∧
    w.arrived[1]? = some j ∧
    ContentArrives true library (fun _ => .ref 12) (.pipeline contentPipeline (some Pwsh5)) (contentPost contentLetters[1]) j := by
  have ha : ∀ a, LetterOp.flush (some a) ∈ contentHistory → 22 ≤ a := by
    intro a h
    simp only [contentHistory, List.mem_append, List.mem_flatMap, List.mem_cons, List.not_mem_nil, or_false, reduceCtorEq,
      LetterOp.flush.injEq, Option.some.injEq, false_or, List.mem_replicate, and_false] at h
    obtain ⟨_, _, rfl⟩ := h
    decide
  obtain ⟨h1, h2, h3⟩ : ((WireLink.fresh true exRpid).run plainEnv library 20 21 (contentHistory.flatMap LetterOp.wire)).link.sender.buffer = [] ∧
      ((WireLink.fresh true exRpid).run plainEnv library 20 21 (contentHistory.flatMap LetterOp.wire)).link.wire = [] ∧
      ((WireLink.fresh true exRpid).run plainEnv library 20 21 (contentHistory.flatMap LetterOp.wire)).link.recv.nextMessage = ({}, .ok none) := by
    rw [run_under]
    decide +kernel
  have h := C75_complete_partial plainEnv (fun _ _ => rfl) library library_standard library_noObject 20 21 (by decide) true exRpid
    contentHistory contents_ok contents_sent ha (by decide) _ rfl h1 h2 ⟨{}, h3⟩ true (fun _ => .ref 12)
  obtain ⟨i, hi, hi'⟩ := h 0 _ (.hostCall 7 exampleCall) rfl content_valid.1 content_call
  obtain ⟨j, hj, hj'⟩ := h 1 _ (.pipeline contentPipeline (some Pwsh5)) rfl content_valid.2 content_pipeline
  exact ⟨_, i, j, rfl, hi, hi', hj, hj'⟩

end Verif
