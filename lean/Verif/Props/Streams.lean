import Verif.Spec.Streams
import Verif.Props.Written

/-!
# C93: Information and progress records
-/

namespace Verif

private theorem uint_range (n : Int) : IntKind.psUInt.InRange n ↔ FitsU32 n := by
  rw [IntKind.inRange_iff]; exact Iff.rfl

private theorem int_range (n : Int) : IntKind.psInt.InRange n ↔ Fits32 n := by
  rw [IntKind.inRange_iff]; exact Iff.rfl

private theorem noTags_iff {H : Heap} {t : Option Nat} : noTags H t = true ↔ ∀ q, ¬ SomeTags H t q := by
  unfold noTags SomeTags
  cases t with
  | none => simp
  | some a =>
    constructor
    · intro h q ⟨hq, hn⟩
      cases hq
      refine hn ?_
      dsimp only at h
      split at h
      · exact ⟨_, by assumption⟩
      · cases h
    · intro h
      have := h a
      simp only [true_and, Classical.not_not] at this
      obtain ⟨k, hk⟩ := this
      dsimp only
      rw [hk]

private theorem orDefault_getD {α : Type} (x : Option α) (d : α) : orDefault x d = x.getD d := by cases x <;> rfl

private theorem orZero_getD (x : Option Int) : orZero x = x.getD 0 := by
  cases x with
  | none => rfl
  | some n => by_cases h : n = 0 <;> simp [orZero, h]

private theorem shape_cases (l : Letter) : (l.InRange ∧ ∃ sh, l.shape = .ok sh) ∨ (¬ l.InRange ∧ l.shape = .error .valueError) := by
  by_cases h : l.InRange
  · exact .inl ⟨h, (C72_made_exact l).1.mpr h⟩
  · exact .inr ⟨h, (C72_made_exact l).2.mpr h⟩

/-- The result of `createInformation` in terms of what is picked. -/
private theorem create_ok {M : Machine} {H H' : Heap} {fresh : Nat} {a : InformationArgs} {l : Letter}
    (h : createInformation M H fresh a = .ok (H', l)) : ∃ time tags user computer process native managed,
    l = .informationRecord a.data (some a.source) (some time) tags (some user) (some computer) (some process) (some native) (some managed) ∧
    Picks a.time M.now time ∧ PicksUser M a.user user ∧ Picks a.computer M.node computer ∧ Picks a.process M.processId process ∧
    Picks a.native M.threadId native ∧ Picks a.managed 0 managed ∧
    (((∀ q, ¬ SomeTags H a.tags q) ∧ tags = .ref fresh ∧ H' = fun q => if q = fresh then emptyList else H q) ∨
      ∃ q, SomeTags H a.tags q ∧ tags = .ref q ∧ H' = H) := by
  unfold createInformation at h
  dsimp only at h
  cases hu : userOf M a.user with
  | error e => rw [hu] at h; cases h
  | ok user =>
    rw [hu] at h
    dsimp only at h
    split at h
    · cases h
    · simp only [Except.ok.injEq, Prod.mk.injEq] at h
      obtain ⟨h1, h2⟩ := h
      refine ⟨_, _, user, _, _, _, _, h2.symm, ?_, ?_, ?_, ?_, ?_, ?_, ?_⟩
      · cases a.time <;> simp [Picks, orDefault]
      · unfold userOf at hu
        cases hau : a.user with
        | some u => rw [hau] at hu; cases hu; exact .inl rfl
        | none =>
          rw [hau] at hu
          cases hm : M.user with
          | name n => rw [hm] at hu; cases hu; exact .inr ⟨rfl, .inl hm⟩
          | noModule => rw [hm] at hu; cases hu; exact .inr ⟨rfl, .inr ⟨hm, rfl⟩⟩
          | raises e => rw [hm] at hu; cases hu
      · cases a.computer <;> simp [Picks, orDefault]
      · cases a.process <;> simp [Picks, orDefault]
      · cases a.native <;> simp [Picks, orDefault]
      · cases a.managed with
        | none => simp [Picks, orZero]
        | some n => by_cases hn : n = 0 <;> simp [Picks, orZero, hn]
      · by_cases ht : noTags H a.tags = true
        · left
          refine ⟨noTags_iff.mp ht, by rw [if_pos ht], ?_⟩
          rw [← h1, if_pos ht]
        · right
          cases hat : a.tags with
          | none => rw [hat] at ht; exact absurd rfl ht
          | some q =>
            refine ⟨q, ⟨rfl, ?_⟩, ?_, ?_⟩
            · rintro ⟨k, hk⟩
              refine ht ?_
              rw [hat]
              show (match (H q).data with | .list _ [] => true | _ => false) = true
              rw [hk]
            · rw [hat] at ht; rw [if_neg ht]
            · rw [← h1, if_neg ht]

private theorem write_ok {version : PSVersion} {state : PipeState} {M : Machine} {H : Heap} {fresh : Nat} {a : InformationArgs}
    {r : Heap × Letter} (h : writeInformation version state M H fresh a = .ok r) : createInformation M H fresh a = .ok r := by
  unfold writeInformation at h
  split at h
  · cases h
  · split at h
    · cases h
    · exact h

private theorem information_shown {E : TextEnv} {L : Lib} {M : Machine} {H : Heap} {fresh : Nat} {a : InformationArgs} {p : Post}
    {i : Mail (Except Err Incoming)} (hp : p.Ok E L) (hl : createInformation M H fresh a = .ok (p.heap, p.letter)) (h : EventOf L p i) :
    ShowsInformation L M H [p.addr, fresh] p.pid a i := by
  obtain ⟨time, tags, user, computer, process, native, managed, e, h1, h2, h3, h4, h5, h6, h7⟩ := create_ok hl
  obtain ⟨ht, hpid, x, ev, φ, hx, hr, hs, hm⟩ := h
  rw [e] at ht hs
  have ht' : i.type = .InformationRecord := ht
  rw [ht'] at hr
  have hobj : ∃ v s, x = .object v s := by
    cases x with
    | object v s => exact ⟨v, s, rfl⟩
    | endOfInput => cases hr; exact hs.elim
  obtain ⟨v, s, rfl⟩ := hobj
  have hev : ∃ d1 d2 d3 d4 d5 d6 d7 d8 d9, ev = .informationRecord d1 d2 d3 d4 d5 d6 d7 d8 d9 := by
    cases ev <;> first | exact hs.elim | exact ⟨_, _, _, _, _, _, _, _, _, rfl⟩
  obtain ⟨d1, d2, d3, d4, d5, d6, d7, d8, d9, rfl⟩ := hev
  obtain ⟨g1, g2, g3, g4, g5, g6, g7, g8, g9⟩ := hs
  cases g2; cases g3; cases g5; cases g6; cases g7; cases g8; cases g9
  refine ⟨ht', hpid, v, s, d1, time, d4, user, computer, process, native, managed, hx, hr, h1, h2, h3, h4, h5, h6, φ, g1, ?_, ?_, ?_⟩
  · intro q hq
    rcases h7 with ⟨hn, _, _⟩ | ⟨q', hq', rfl, _⟩
    · exact absurd hq (hn q)
    · obtain ⟨r1, _⟩ := hq
      obtain ⟨r2, _⟩ := hq'
      cases r1.symm.trans r2
      exact g4
  · intro hn
    rcases h7 with ⟨_, rfl, hH⟩ | ⟨q', hq', _, _⟩
    · obtain ⟨b, rfl, hb⟩ := g4
      have hne : fresh ≠ p.addr := hp.addr fresh (.root (by rw [e]; simp [Letter.objects]))
      obtain ⟨o, ho, hom⟩ := hm v s rfl b fresh hb hne
      refine ⟨b, o, rfl, ho, ?_⟩
      have hd := hom.data
      rw [hH] at hd
      simp only [↓reduceIte] at hd
      obtain ⟨l, hl1, hl2⟩ := hd
      cases hl2
      exact hl1
    · exact absurd hq' (hn q')
  · intro b q hb hq
    simp only [List.mem_cons, List.not_mem_nil, or_false, not_or] at hq
    obtain ⟨o, ho, hom⟩ := hm v s rfl b q hb hq.1
    refine ⟨o, ho, ?_⟩
    rcases h7 with ⟨_, _, hH⟩ | ⟨_, _, _, hH⟩
    · rw [hH] at hom
      simp only [if_neg hq.2] at hom
      exact hom
    · rw [hH] at hom
      exact hom

private theorem progress_shown {L : Lib} {state : PipeState} {processing : PVal} {a : ProgressArgs} {p : Post}
    {i : Mail (Except Err Incoming)} (hl : writeProgress state processing a = .ok p.letter) (h : EventOf L p i) :
    ShowsProgress L p.heap [p.addr] p.pid processing a i := by
  unfold writeProgress at hl
  split at hl
  · cases hl
  dsimp only at hl
  split at hl
  · cases hl
  have e := Except.ok.inj hl
  obtain ⟨ht, hpid, x, ev, φ, hx, hr, hs, hm⟩ := h
  rw [← e] at ht hs
  have ht' : i.type = .ProgressRecord := ht
  rw [ht'] at hr
  have hobj : ∃ v s, x = .object v s := by
    cases x with
    | object v s => exact ⟨v, s, rfl⟩
    | endOfInput => cases hr; exact hs.elim
  obtain ⟨v, s, rfl⟩ := hobj
  have hev : ∃ d1 d2 d3 d4 d5 d6 d7 d8, ev = .progressRecord d1 d2 d3 d4 d5 d6 d7 d8 := by
    cases ev <;> first | exact hs.elim | exact ⟨_, _, _, _, _, _, _, _, rfl⟩
  obtain ⟨d1, d2, d3, d4, d5, d6, d7, d8, rfl⟩ := hev
  obtain ⟨g1, g2, g3, g4, g5, g6, g7, g8⟩ := hs
  cases g1; cases g2; cases g3; cases g5; cases g6; cases g8
  have h4 : d4 = (a.operation.map shownText).getD .nil := by
    rw [show d4 = _ from g4]
    cases a.operation <;> rfl
  subst h4
  refine ⟨ht', hpid, v, s, d7, hx, hr, φ, _, ?_, g7, ?_⟩
  · cases a.type with
    | none => exact .inr ⟨rfl, rfl⟩
    | some t => exact .inl rfl
  · intro b q hb hq
    simp only [List.mem_cons, List.not_mem_nil, or_false] at hq
    exact hm v s rfl b q hb hq

/-- C93: whatever else is sent and whatever the sizes of the payloads, the event the client gets for a `write_information` shows the record
that the arguments describe: every field that was given as it was given, and for the others the time, the user, the computer, the process and
the thread of the server, 0 for the managed thread and an empty list of tags. Missing: objects that do not meet the conditions of C71 and C72. -/
theorem C93_information_partial (E : TextEnv) (hE : ExtendsAscii E.uni) (L : Lib) (std : L.Standard) (hL : L.NoObject) (n m : Nat) (hnm : n < m)
    (client : Bool) (rpid : UUID) (ops : List LetterOp) (hp : ∀ p ∈ posts ops, p.Ok E L)
    (hs : ∀ p ∈ posts ops, ∀ sh, p.letter.shape = .ok sh → ∃ t d,
      messageData E n p.letter.type (sh.outgoing p.heap p.addr p.key) = .ok (t, d) ∧ d.length + 40 < 2 ^ 32)
    (ha : ∀ a, LetterOp.flush (some a) ∈ ops → 22 ≤ a) (hn : ops.length < 2 ^ 64)
    (w : WireLink) (hw : w = (WireLink.fresh client rpid).run E L n m (ops.flatMap LetterOp.wire))
    (version : PSVersion) (state : PipeState) (M : Machine) (H : Heap) (fresh : Nat) (a : InformationArgs) (k : Nat) (p : Post)
    (i : Mail (Except Err Incoming)) (hk : (posts ops)[k]? = some p)
    (hl : writeInformation version state M H fresh a = .ok (p.heap, p.letter)) (hi : w.arrived[k]? = some i) :
    ShowsInformation L M H [p.addr, fresh] p.pid a i := by
  obtain ⟨_, _, _, h4⟩ := C72_events_partial E hE L std hL n m hnm client rpid ops hp hs ha hn w hw
  have hlt : k < w.arrived.length := by
    rw [List.getElem?_eq_some_iff] at hi
    exact hi.1
  exact information_shown (hp p (List.mem_of_getElem? hk)) (write_ok hl) (h4.at k (by rw [List.getElem?_take_of_lt hlt]; exact hk) hi)

/-- C93: the same for `write_progress`; what is not given is -1 for the numbers, `Processing` for the type and no operation. Missing: as in
`C93_information_partial`. -/
theorem C93_progress_partial (E : TextEnv) (hE : ExtendsAscii E.uni) (L : Lib) (std : L.Standard) (hL : L.NoObject) (n m : Nat) (hnm : n < m)
    (client : Bool) (rpid : UUID) (ops : List LetterOp) (hp : ∀ p ∈ posts ops, p.Ok E L)
    (hs : ∀ p ∈ posts ops, ∀ sh, p.letter.shape = .ok sh → ∃ t d,
      messageData E n p.letter.type (sh.outgoing p.heap p.addr p.key) = .ok (t, d) ∧ d.length + 40 < 2 ^ 32)
    (ha : ∀ a, LetterOp.flush (some a) ∈ ops → 22 ≤ a) (hn : ops.length < 2 ^ 64)
    (w : WireLink) (hw : w = (WireLink.fresh client rpid).run E L n m (ops.flatMap LetterOp.wire))
    (state : PipeState) (processing : PVal) (a : ProgressArgs) (k : Nat) (p : Post) (i : Mail (Except Err Incoming))
    (hk : (posts ops)[k]? = some p) (hl : writeProgress state processing a = .ok p.letter) (hi : w.arrived[k]? = some i) :
    ShowsProgress L p.heap [p.addr] p.pid processing a i := by
  obtain ⟨_, _, _, h4⟩ := C72_events_partial E hE L std hL n m hnm client rpid ops hp hs ha hn w hw
  have hlt : k < w.arrived.length := by
    rw [List.getElem?_eq_some_iff] at hi
    exact hi.1
  exact progress_shown hl (h4.at k (by rw [List.getElem?_take_of_lt hlt]; exact hk) hi)

/-- C93: when everything was flushed, delivered and asked for, every `write_information` and `write_progress` has its event. Missing: as in
`C93_information_partial`. -/
theorem C93_arrives_partial (E : TextEnv) (hE : ExtendsAscii E.uni) (L : Lib) (std : L.Standard) (hL : L.NoObject) (n m : Nat) (hnm : n < m)
    (client : Bool) (rpid : UUID) (ops : List LetterOp) (hp : ∀ p ∈ posts ops, p.Ok E L)
    (hs : ∀ p ∈ posts ops, ∀ sh, p.letter.shape = .ok sh → ∃ t d,
      messageData E n p.letter.type (sh.outgoing p.heap p.addr p.key) = .ok (t, d) ∧ d.length + 40 < 2 ^ 32)
    (ha : ∀ a, LetterOp.flush (some a) ∈ ops → 22 ≤ a) (hn : ops.length < 2 ^ 64)
    (w : WireLink) (hw : w = (WireLink.fresh client rpid).run E L n m (ops.flatMap LetterOp.wire))
    (hflushed : w.link.sender.buffer = []) (hdelivered : w.link.wire = []) (hnone : ∃ r, w.link.recv.nextMessage = (r, .ok none))
    (k : Nat) (p : Post) (hk : (posts ops)[k]? = some p) :
    ∃ i, w.arrived[k]? = some i ∧
      (∀ version state M H fresh a, writeInformation version state M H fresh a = .ok (p.heap, p.letter) →
        ShowsInformation L M H [p.addr, fresh] p.pid a i) ∧
      (∀ state processing a, writeProgress state processing a = .ok p.letter → ShowsProgress L p.heap [p.addr] p.pid processing a i) := by
  have h := C72_complete_partial E hE L std hL n m hnm client rpid ops hp hs ha hn w hw hflushed hdelivered hnone
  have hlt : k < w.arrived.length := by
    rw [← h.length_eq]
    rw [List.getElem?_eq_some_iff] at hk
    exact hk.1
  have he := h.at k hk (List.getElem?_eq_getElem hlt)
  exact ⟨_, List.getElem?_eq_getElem hlt, fun _ _ _ _ _ _ hl => information_shown (hp p (List.mem_of_getElem? hk)) (write_ok hl) he,
    fun _ _ _ hl => progress_shown hl he⟩

private theorem picks_iff {α : Type} {g : Option α} {d x : α} : Picks g d x ↔ x = g.getD d := by
  cases g <;> simp [Picks, eq_comm]

private theorem user_error {M : Machine} {g : Option PyStr} {e : Err} : userOf M g = .error e ↔ g = none ∧ M.user = .raises e := by
  unfold userOf
  cases g with
  | some u => simp
  | none => cases M.user <;> simp

private theorem user_ok {M : Machine} {g : Option PyStr} {u : PyStr} : userOf M g = .ok u ↔ PicksUser M g u := by
  unfold userOf PicksUser
  cases g with
  | some v => simp
  | none => cases M.user <;> simp [eq_comm]

private theorem create_error {M : Machine} {H : Heap} {fresh : Nat} {a : InformationArgs} {e : Err} :
    createInformation M H fresh a = .error e ↔ userOf M a.user = .error e ∨ ((∃ u, userOf M a.user = .ok u) ∧ e = .valueError ∧
      ¬ (FitsU32 (a.process.getD M.processId) ∧ FitsU32 (a.native.getD M.threadId) ∧ FitsU32 (a.managed.getD 0))) := by
  unfold createInformation
  cases hu : userOf M a.user with
  | error e' => simp
  | ok user =>
    dsimp only
    rw [orZero_getD, orDefault_getD a.process, orDefault_getD a.native]
    simp only [reduceCtorEq, false_or, Except.ok.injEq, exists_eq', true_and]
    generalize hl : Letter.informationRecord .. = l
    have hr : l.InRange ↔ FitsU32 (a.process.getD M.processId) ∧ FitsU32 (a.native.getD M.threadId) ∧ FitsU32 (a.managed.getD 0) := by
      rw [← hl]
      simp [Letter.InRange, Letter.numbers, uint_range]
    rcases shape_cases l with ⟨h, sh, hsh⟩ | ⟨h, hsh⟩
    · rw [hsh]
      simp [hr.mp h]
    · rw [hsh]
      rw [hr] at h
      simp [h, eq_comm]

/-- C93: exactly when `write_information` raises, and what: the peer does not know the message, the pipeline is not running, the name of the
user is needed and cannot be told, or a number does not fit an `UInt32`. -/
theorem C93_information_refused_exact (version : PSVersion) (state : PipeState) (M : Machine) (H : Heap) (fresh : Nat) (a : InformationArgs)
    (e : Err) : writeInformation version state M H fresh a = .error e ↔
      (version.lt Pwsh5 = true ∧ e = .invalidProtocolVersion) ∨
      (version.lt Pwsh5 = false ∧ ((state ≠ .Running ∧ e = .invalidPipelineState) ∨
        (state = .Running ∧ ((a.user = none ∧ M.user = .raises e) ∨
          ((∃ u, PicksUser M a.user u) ∧ e = .valueError ∧ ∃ x, ¬ FitsU32 x ∧
            (Picks a.process M.processId x ∨ Picks a.native M.threadId x ∨ Picks a.managed 0 x)))))) := by
  unfold writeInformation
  cases hv : version.lt Pwsh5 with
  | true => simp [eq_comm]
  | false =>
    simp only [Bool.false_eq_true, ↓reduceIte, false_and, true_and, false_or]
    by_cases hst : state = .Running
    · rw [if_neg (by simp [hst])]
      simp only [hst, ne_eq, not_true_eq_false, false_and, true_and, false_or]
      rw [create_error, user_error]
      simp only [user_ok, picks_iff]
      refine or_congr Iff.rfl (and_congr Iff.rfl (and_congr Iff.rfl ⟨fun h => ?_, ?_⟩))
      · by_cases h1 : FitsU32 (a.process.getD M.processId)
        · by_cases h2 : FitsU32 (a.native.getD M.threadId)
          · exact ⟨_, fun h3 => h ⟨h1, h2, h3⟩, .inr (.inr rfl)⟩
          · exact ⟨_, h2, .inr (.inl rfl)⟩
        · exact ⟨_, h1, .inl rfl⟩
      · rintro ⟨x, hx, rfl | rfl | rfl⟩ ⟨h1, h2, h3⟩
        · exact hx h1
        · exact hx h2
        · exact hx h3
    · rw [if_pos hst]
      simp [hst, eq_comm]

/-- C93: exactly when `write_progress` raises, and what: the pipeline is not running, or a number does not fit an `Int32`. -/
theorem C93_progress_refused_exact (state : PipeState) (processing : PVal) (a : ProgressArgs) (e : Err) :
    writeProgress state processing a = .error e ↔ (state ≠ .Running ∧ e = .invalidPipelineState) ∨
      (state = .Running ∧ e = .valueError ∧ ∃ x ∈ [a.activityId, a.parentId, a.percent, a.seconds], ¬ Fits32 x) := by
  unfold writeProgress
  by_cases hst : state = .Running
  · rw [if_neg (by simp [hst])]
    simp only [hst, ne_eq, not_true_eq_false, false_and, true_and, false_or]
    generalize hl : Letter.progressRecord .. = l
    have hr : l.InRange ↔ ∀ x ∈ [a.activityId, a.parentId, a.percent, a.seconds], Fits32 x := by
      rw [← hl]
      simp [Letter.InRange, Letter.numbers, int_range]
    have hx : (∃ x ∈ [a.activityId, a.parentId, a.percent, a.seconds], ¬ Fits32 x) ↔ ¬ l.InRange := by
      rw [hr]
      simp only [Classical.not_forall, exists_prop]
    rw [hx]
    rcases shape_cases l with ⟨h, sh, hsh⟩ | ⟨h, hsh⟩
    · rw [hsh]
      simp [h]
    · rw [hsh]
      simp [h, eq_comm]
  · rw [if_pos hst]
    simp [hst, eq_comm]

/-! ## Examples -/

/-- A machine. -/
def exampleMachine : Machine where
  now := { year := 2021, month := 6, day := 1, hour := 12, minute := 30, second := 15, microsecond := 0, nanosecond := 0, offset := none }
  user := .name (txt! "vagrant")
  node := txt! "server01"
  processId := 4242
  threadId := 17

/-- C93: where the name of the user cannot be told, for example in a container whose user has no name, `write_information` raises
the exception of `getpass.getuser`, though the user is an optional argument that "defaults to the current user"; with the name given, or if
the module was missing, it does not. -/
theorem C93_user_violated : ∃ (M : Machine) (a : InformationArgs), M.user = .raises .keyError ∧
    writeInformation Pwsh5 .Running M exampleHeap 50 a = .error .keyError ∧
    (∃ r, writeInformation Pwsh5 .Running M exampleHeap 50 { a with user := some [] } = .ok r) ∧
    ∃ r, writeInformation Pwsh5 .Running { M with user := .noModule } exampleHeap 50 a = .ok r :=
  ⟨{ exampleMachine with user := .raises .keyError }, { data := .ref 0, source := txt! "script.ps1" }, rfl, rfl, ⟨_, rfl⟩, _, rfl⟩

-- the other cases of the two exact theorems
example : writeInformation Win7RC .Running exampleMachine exampleHeap 50 { data := .nil, source := [] } = .error .invalidProtocolVersion ∧
    writeInformation Pwsh5 .Stopped exampleMachine exampleHeap 50 { data := .nil, source := [] } = .error .invalidPipelineState ∧
    writeInformation Pwsh5 .Running exampleMachine exampleHeap 50 { data := .nil, source := [], native := some (2 ^ 32) } = .error .valueError ∧
    writeProgress .Running (.ref 2) { activity := [], activityId := 2 ^ 31, status := [] } = .error .valueError ∧
    writeProgress .NotStarted (.ref 2) { activity := [], activityId := 1, status := [] } = .error .invalidPipelineState :=
  ⟨rfl, rfl, rfl, rfl, rfl⟩

/-- The objects of the example and a list without tags. -/
def streamHeap : Heap := fun q => if q = 50 then emptyList else exampleHeap q

/-- Nothing given. -/
def bareInformation : InformationArgs := { data := .ref 0, source := txt! "script.ps1" }

/-- All given. -/
def fullInformation : InformationArgs where
  data := .prim (.plainInt 3)
  source := txt! "other.ps1"
  time := some { exampleMachine.now with year := 1999 }
  tags := some 1
  user := some (txt! "me")
  computer := some (txt! "pc")
  process := some 0
  native := some 4294967295
  managed := some 8

/-- A progress record. -/
def someProgress : ProgressArgs where
  activity := txt! "Copy"
  activityId := 1
  status := txt! "busy"
  percent := 50

/-- The three messages. -/
def streamLetters : List Letter :=
  [.informationRecord (.ref 0) (some (txt! "script.ps1")) (some exampleMachine.now) (.ref 50) (some (txt! "vagrant")) (some (txt! "server01"))
     (some 4242) (some 17) (some 0),
   .informationRecord (.prim (.plainInt 3)) (some (txt! "other.ps1")) (some { exampleMachine.now with year := 1999 }) (.ref 1)
     (some (txt! "me")) (some (txt! "pc")) (some 0) (some 4294967295) (some 8),
   .progressRecord (some (txt! "Copy")) (some 1) (some (txt! "busy")) none (some (-1)) (some 50) (.ref 2) (some (-1))]

/-- A message about these objects. -/
def streamPost (l : Letter) : Post where
  letter := l
  heap := streamHeap
  addr := 100
  key := 100
  pid := some exPid

theorem stream_written : writeInformation Pwsh5 .Running exampleMachine exampleHeap 50 bareInformation =
      .ok ((streamPost streamLetters[0]).heap, (streamPost streamLetters[0]).letter) ∧
    writeInformation Pwsh5 .Running exampleMachine streamHeap 50 fullInformation =
      .ok ((streamPost streamLetters[1]).heap, (streamPost streamLetters[1]).letter) ∧
    writeProgress .Running (.ref 2) someProgress = .ok (streamPost streamLetters[2]).letter := ⟨rfl, rfl, rfl⟩

/-- They are sent one after the other, in pieces. -/
def streamHistory : List LetterOp :=
  streamLetters.flatMap (fun l => [.post (streamPost l), .flush (some 300)]) ++
    (List.replicate 2 (.flush none) ++ (List.replicate 5 .deliver ++ List.replicate 4 .poll))

theorem stream_posts : posts streamHistory = streamLetters.map streamPost := rfl

theorem stream_graph : ∀ l ∈ streamLetters, graphCheck library streamHeap l.objects [0, 1, 2, 3, 4, 50] = true ∧
    graphXmlB streamHeap l.objects [0, 1, 2, 3, 4, 50] = true ∧ within [0, 1, 2, 3, 4, 50] l.objects = true ∧
    ∀ q ∈ l.numbers, q.1.minValue ≤ q.2 ∧ q.2 ≤ q.1.maxValue := by
  decide +kernel

theorem stream_fields : ∀ l ∈ streamLetters, l.FieldsOk plainEnv streamHeap := by
  intro l hl
  have low : ∀ t : PyStr, (lowText t && t.all fun c => decide (32 ≤ c ∧ c ≤ 126)) = true → TextOk t ∧ Escapable t := by
    intro t h
    rw [Bool.and_eq_true] at h
    exact ⟨lowText_ok h.1, escapable_ascii fun c hc => of_decide_eq_true (List.all_eq_true.mp h.2 c hc)⟩
  have date : ∀ y, y = 2021 ∨ y = 1999 → TimeOk plainEnv (some { exampleMachine.now with year := y }) := by
    intro y hy d hd
    cases hd
    have hx : XmlLine (natStr y) := by
      have : ∀ c ∈ natStr y, 32 ≤ c ∧ c ≤ 126 := by rcases hy with rfl | rfl <;> decide
      intro c hc
      have := this c hc
      unfold IsXmlChar
      omega
    have hv : DateFields.Valid { exampleMachine.now with year := y } ∧ DateFields.MinuteZone { exampleMachine.now with year := y } := by
      unfold exampleMachine DateFields.Valid DateFields.MinuteZone DayOfMonth
      rcases hy with rfl | rfl <;> simp
    exact ⟨⟨hv.1, hv.2, C52_years y (by omega), rfl⟩, hx⟩
  simp only [streamLetters, List.mem_cons, List.not_mem_nil, or_false] at hl
  rcases hl with rfl | rfl | rfl
  · refine ⟨fun t ht => ?_, date 2021 (.inl rfl)⟩
    simp only [List.mem_cons, Option.some.injEq, List.not_mem_nil, or_false] at ht
    rcases ht with rfl | rfl | rfl <;> exact low _ (by decide)
  · refine ⟨fun t ht => ?_, date 1999 (.inr rfl)⟩
    simp only [List.mem_cons, Option.some.injEq, List.not_mem_nil, or_false] at ht
    rcases ht with rfl | rfl | rfl <;> exact low _ (by decide)
  · intro t ht
    simp only [List.mem_cons, Option.some.injEq, List.not_mem_nil, or_false, reduceCtorEq] at ht
    rcases ht with rfl | rfl <;> exact low _ (by decide)

theorem stream_ok : ∀ p ∈ posts streamHistory, p.Ok plainEnv library := by
  rw [stream_posts]
  intro p hp
  obtain ⟨l, hl, rfl⟩ := List.mem_map.mp hp
  obtain ⟨h1, h2, h3, h4⟩ := stream_graph l hl
  have reach : ∀ b, Reach streamHeap l.objects b → b ∈ [0, 1, 2, 3, 4, 50] := fun b hb => reach_within h3 (by decide +kernel) hb
  have all : ∀ b ∈ [0, 1, 2, 3, 4, 50], b ≠ 100 ∧ (streamHeap b).key ≠ some 100 ∧
      (streamHeap b).types.head? ≠ some (txt! "System.Object") := by
    decide +kernel
  exact {
    graph := graphCheck_ok plainEnv h1
    xml := graphXmlB_ok plainEnv h2
    numbers := fun q hq => (IntKind.inRange_iff _ _).mpr (h4 q hq)
    fields := stream_fields l hl
    addr := fun b hb => (all b (reach b hb)).1
    key := fun b hb => (all b (reach b hb)).2.1
    types := fun b hb h => absurd h (all b (reach b hb)).2.2
    pid := fun q hq => by cases hq; decide }

/-- The size of a message. -/
def streamSize (l : Letter) : Option Nat :=
  match l.shape with
  | .error _ => none
  | .ok sh =>
    match messageData plainEnv 20 l.type (sh.outgoing streamHeap 100 100) with
    | .error _ => none
    | .ok q => some q.2.length

theorem stream_sent : ∀ p ∈ posts streamHistory, ∀ sh, p.letter.shape = .ok sh → ∃ t d,
    messageData plainEnv 20 p.letter.type (sh.outgoing p.heap p.addr p.key) = .ok (t, d) ∧ d.length + 40 < 2 ^ 32 := by
  rw [stream_posts]
  intro p hp sh hsh
  obtain ⟨l, hl, rfl⟩ := List.mem_map.mp hp
  have h : ∀ l ∈ streamLetters, (match streamSize l with | none => false | some k => decide (k < 10000)) = true := by
    decide +kernel
  have e := h l hl
  unfold streamSize at e
  rw [show l.shape = .ok sh from hsh] at e
  dsimp only at e
  show ∃ t d, messageData plainEnv 20 l.type (sh.outgoing streamHeap 100 100) = .ok (t, d) ∧ _
  cases em : messageData plainEnv 20 l.type (sh.outgoing streamHeap 100 100) with
  | error x => rw [em] at e; cases e
  | ok q =>
    rw [em] at e
    have := of_decide_eq_true e
    exact ⟨q.1, q.2, rfl, by omega⟩

/-- Beside `C93_information_partial`, `C93_progress_partial` and `C93_arrives_partial`: the three records arrive. -/
theorem stream_example : ∃ w i j k,
    w = (WireLink.fresh true exRpid).run plainEnv library 20 21 (streamHistory.flatMap LetterOp.wire) ∧
    w.arrived[0]? = some i ∧ ShowsInformation library exampleMachine exampleHeap [100, 50] (some exPid) bareInformation i ∧
    w.arrived[1]? = some j ∧ ShowsInformation library exampleMachine streamHeap [100, 50] (some exPid) fullInformation j ∧
    w.arrived[2]? = some k ∧ ShowsProgress library streamHeap [100] (some exPid) (.ref 2) someProgress k := by
  have ha : ∀ a, LetterOp.flush (some a) ∈ streamHistory → 22 ≤ a := by
    intro a h
    simp only [streamHistory, List.mem_append, List.mem_flatMap, List.mem_cons, List.not_mem_nil, or_false, reduceCtorEq,
      LetterOp.flush.injEq, Option.some.injEq, false_or, List.mem_replicate, and_false] at h
    obtain ⟨_, _, rfl⟩ := h
    decide
  obtain ⟨h1, h2, h3⟩ : ((WireLink.fresh true exRpid).run plainEnv library 20 21 (streamHistory.flatMap LetterOp.wire)).link.sender.buffer = [] ∧
      ((WireLink.fresh true exRpid).run plainEnv library 20 21 (streamHistory.flatMap LetterOp.wire)).link.wire = [] ∧
      ((WireLink.fresh true exRpid).run plainEnv library 20 21 (streamHistory.flatMap LetterOp.wire)).link.recv.nextMessage = ({}, .ok none) := by
    rw [run_under]
    decide +kernel
  have h := C93_arrives_partial plainEnv (fun _ _ => rfl) library library_standard library_noObject 20 21 (by decide) true
    exRpid streamHistory stream_ok stream_sent ha (by decide) _ rfl h1 h2 ⟨{}, h3⟩
  obtain ⟨i, hi, hi', _⟩ := h 0 _ rfl
  obtain ⟨j, hj, hj', _⟩ := h 1 _ rfl
  obtain ⟨k, hk, _, hk'⟩ := h 2 _ rfl
  exact ⟨_, i, j, k, rfl, hi, hi' _ _ _ _ _ _ stream_written.1, hj, hj' _ _ _ _ _ _ stream_written.2.1, hk, hk' _ _ _ stream_written.2.2⟩

end Verif
