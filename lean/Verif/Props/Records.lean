import Verif.Proof.Records

/-! # C65-C67: error, debug, verbose and warning records -/

namespace Verif

variable {V : Type}

/-! ## Examples -/

namespace RecordExamples

/-- `Get-Item -Path x` in `C:\a.ps1`. -/
def extent : ScriptExtent where
  start := { file := some (txt! "C:\\a.ps1"), line := some 3, column := some 5, text := some (txt! "    Get-Item -Path x") }
  stop := { file := some (txt! "C:\\a.ps1"), line := some 3, column := some 20, text := some (txt! "    Get-Item -Path x") }

def command : CommandInfo where
  commandType := some (some 8)
  name := some (some (txt! "Get-Item"))
  visibility := some (some 1)

def info : InvocationInfo Nat where
  boundParameters := some [(1, 2)]
  commandOrigin := some 1
  displayScriptPosition := some extent
  expectingInput := some false
  historyId := some 7
  invocationName := some (txt! "Get-Item")
  line := some (txt! "    Get-Item -Path x")
  myCommand := some command
  offsetInLine := some 5
  pipelineLength := some 2
  pipelinePosition := some 1
  positionMessage := some (txt! "At C:\\a.ps1:3 char:5")
  psCommandPath := some (txt! "C:\\a.ps1")
  psScriptRoot := some (txt! "C:\\")
  scriptLineNumber := some 3
  scriptName := some (txt! "C:\\a.ps1")

theorem info_valid : info.Valid := by
  refine ⟨fun n h => ?_, fun c n h h' => ?_⟩
  · cases h; decide
  · cases h; cases h'; decide

theorem info_complete : info.Complete := by
  refine ⟨by nofun, fun c h _ h' => ?_⟩
  cases h; cases h'

theorem extent_measurable : extent.Measurable := ⟨20, rfl, fun _ => ⟨by nofun, fun _ => by nofun, fun h => absurd rfl h⟩⟩

def record : ErrorRecord Nat where
  exception := .exception { value := 5, message := some (some (txt! "no such item")) }
  categoryInfo := { category := some 13, activity := some (txt! "Get-Item"), targetName := some (txt! "x") }
  targetObject := some 9
  fullyQualifiedErrorId := some (txt! "PathNotFound")
  invocationInfo := some info
  errorDetails := some { message := some (txt! "look elsewhere"), action := some [] }
  pipelineIterationInfo := some [0, 1]
  scriptStackTrace := some (txt! "at <ScriptBlock>")
  serializeExtendedInfo := true

theorem record_valid : record.Valid := by
  refine ⟨fun n h => ?_, fun i h => ?_⟩
  · cases h; decide
  · cases h; exact info_valid

def warning : InformationalRecord Nat where
  message := some (txt! "careful")
  invocationInfo := some info
  pipelineIterationInfo := some [0, 1]
  serializeExtendedInfo := true

end RecordExamples

/-! ## C65 -/

theorem infoOfError_ok (root : PyStr → PyStr) (r : ErrorRecord V) (hv : r.Valid)
    (h : ∀ i, r.Sends i → i.Complete) : ∃ info, infoOfError root r.sentInfo = .ok info := by
  cases hs : r.sentInfo with
  | none => exact ⟨_, rfl⟩
  | some i =>
    have hi : r.Sends i := by
      unfold ErrorRecord.sentInfo at hs
      split at hs
      · exact ⟨by assumption, hs⟩
      · cases hs
    obtain ⟨j, hj⟩ := (infoArrived_iff root i (hv.2 i hi.2)).2 (h i hi)
    exact ⟨some j, by simp only [infoOfError, hj, Except.map]⟩

theorem sentInfo_of_sends {r : ErrorRecord V} {i : InvocationInfo V} (h : r.Sends i) : r.sentInfo = some i := by
  unfold ErrorRecord.sentInfo
  rw [h.1, h.2]; rfl

theorem sends_of_sentInfo {r : ErrorRecord V} {i : InvocationInfo V} (h : r.sentInfo = some i) : r.Sends i := by
  unfold ErrorRecord.sentInfo at h
  split at h
  · exact ⟨by assumption, h⟩
  · cases h

theorem detailsArrived_iff (d : Option ErrorDetails) :
    detailsArrived d = d ↔ ∀ x, d = some x → HasText x.message ∨ HasText x.action := by
  have ht : ∀ t : Option PyStr, HasText t ↔ ¬ t.getD [] = [] := by
    intro t
    cases t with
    | none => exact ⟨fun ⟨_, h, _⟩ => (by cases h), fun h => absurd rfl h⟩
    | some t => exact ⟨fun ⟨s, h, h'⟩ => (by cases h; exact h'), fun h => ⟨t, rfl, h⟩⟩
  cases d with
  | none => exact ⟨fun _ x h => (by cases h), fun _ => rfl⟩
  | some d =>
    simp only [detailsArrived, readDetails]
    by_cases h : d.message.getD [] = [] ∧ d.action.getD [] = []
    · rw [if_pos h]
      refine ⟨fun h' => (by cases h'), fun h' => ?_⟩
      rcases h' d rfl with h1 | h1
      · exact absurd h.1 ((ht _).1 h1)
      · exact absurd h.2 ((ht _).1 h1)
    · rw [if_neg h]
      refine ⟨fun _ x hx => ?_, fun _ => rfl⟩
      cases hx
      by_cases hm : d.message.getD [] = []
      · exact .inr ((ht _).2 fun ha => h ⟨hm, ha⟩)
      · exact .inl ((ht _).2 hm)

theorem traceArrived_iff (t : Option PyStr) : traceArrived t = t ↔ NotEmpty t := by
  unfold NotEmpty
  cases t with
  | none => exact ⟨fun _ h => (by cases h), fun _ => rfl⟩
  | some t =>
    simp only [traceArrived]
    by_cases h : t = []
    · subst h; exact ⟨fun h' => (by cases h'), fun h' => absurd rfl h'⟩
    · rw [if_neg h]
      exact ⟨fun _ h' => h (Option.some.inj h'), fun _ => rfl⟩

theorem sameError_arrived (r : ErrorRecord V) (e : RecordException V) (n : Nat) (shown : PyStr)
    (info : Option (InvocationInfo V)) (he : r.exception = .exception e) (hn : r.categoryInfo.category = some n) :
    r.SameError (errorArrived r e n shown info) ↔ r.NoEmptyTexts := by
  constructor
  · rintro ⟨_, _, _, _, _, _, _, _, h1, h2⟩
    exact ⟨(detailsArrived_iff _).1 h1, (traceArrived_iff _).1 h2⟩
  · rintro ⟨h1, h2⟩
    exact ⟨⟨e, _, he, rfl, rfl, rfl⟩, rfl, rfl, hn.symm, rfl, rfl, rfl, rfl, (detailsArrived_iff _).2 h1,
      (traceArrived_iff _).2 h2⟩

/-- C65, who may send: an error record is serialized exactly if its category is set, some message can be
shown for it, and the text of the place in its invocation info can be told. -/
theorem C65_sends (r : ErrorRecord V) :
    (∃ o, r.send = .ok o) ↔ r.categoryInfo.category ≠ none ∧ r.Showable ∧
      ∀ i e, r.invocationInfo = some i → i.displayScriptPosition = some e → e.Measurable := by
  constructor
  · rintro ⟨o, h⟩
    obtain ⟨n, h1, h2⟩ := send_inv r o h
    exact ⟨by rw [h1]; nofun, h2⟩
  · rintro ⟨h1, h2, h3⟩
    cases hn : r.categoryInfo.category with
    | none => exact absurd hn h1
    | some n => exact ⟨_, send_ok r n hn h2 h3⟩

/-- C65, who arrives: of the records that are sent, those with an exception and without an incomplete
invocation info. -/
theorem C65_arrives (root : PyStr → PyStr) (r : ErrorRecord V) (hv : r.Valid) :
    (∃ r', r.trip root = .ok r') ↔
      (∃ o, r.send = .ok o) ∧ (∃ e, r.exception = .exception e) ∧ ∀ i, r.Sends i → i.Complete := by
  constructor
  · rintro ⟨r', h⟩
    obtain ⟨n, e, info, h1, h2, h3, h4, h5, h6, h7⟩ := trip_inv root r r' hv h
    refine ⟨⟨_, send_ok r n h1 h3 h4⟩, ⟨e, h5⟩, fun i hi => ?_⟩
    rw [sentInfo_of_sends hi] at h6
    refine (infoArrived_iff root i (hv.2 i hi.2)).1 ?_
    cases hj : infoArrived root i with
    | error x => simp only [infoOfError, hj, Except.map] at h6; cases h6
    | ok j => exact ⟨j, rfl⟩
  · rintro ⟨⟨o, ho⟩, ⟨e, he⟩, hi⟩
    obtain ⟨n, h1, h2, h3⟩ := send_inv r o ho
    obtain ⟨info, hinfo⟩ := infoOfError_ok root r hv hi
    exact ⟨_, trip_ok root r n e info h1 (hv.1 n h1) h2 h3 he hinfo⟩

/-- C65 with the conditions under which it holds: the record arrives, with the same exception, target,
error id, category, details and stack trace; the category says at the other end what it said here, the
exception is told which invocation info the record had, and the list of the pipeline comes with the
invocation info. -/
theorem C65_partial (root : PyStr → PyStr) (r : ErrorRecord V) (hv : r.Valid)
    (hs : ∃ o, r.send = .ok o) (hx : ∃ e, r.exception = .exception e) (hi : ∀ i, r.Sends i → i.Complete)
    (ht : r.NoEmptyTexts) :
    ∃ r', r.trip root = .ok r' ∧ r.SameError r' ∧
      (∃ shown, r.categoryInfo.shown = .ok shown ∧ r'.categoryInfo.toString = some shown ∧
        r'.categoryInfo.shown = .ok shown) ∧
      (∃ f, r'.exception = .exception f ∧ f.remoteInfo = some r.invocationInfo) ∧
      (∀ i, r.Sends i → r'.serializeExtendedInfo = true ∧
        r'.pipelineIterationInfo = r.pipelineIterationInfo ∧ ∃ j, r'.invocationInfo = some j ∧ i.Keeps j) ∧
      ((∀ i, ¬ r.Sends i) → r'.serializeExtendedInfo = false ∧ r'.pipelineIterationInfo = none ∧
        r'.invocationInfo = none) := by
  obtain ⟨o, ho⟩ := hs
  obtain ⟨e, he⟩ := hx
  obtain ⟨n, h1, h2, h3⟩ := send_inv r o ho
  obtain ⟨info, hinfo⟩ := infoOfError_ok root r hv hi
  refine ⟨_, trip_ok root r n e info h1 (hv.1 n h1) h2 h3 he hinfo, (sameError_arrived r e n _ info he h1).2 ht,
    ⟨_, categoryShown _ n h1, rfl, ?_⟩, ⟨_, rfl, rfl⟩, ?_, ?_⟩
  · exact categoryShown _ n rfl
  · intro i hi
    have hs := sentInfo_of_sends hi
    rw [hs] at hinfo
    refine ⟨?_, ?_, ?_⟩
    · show r.sentInfo.isSome = true; rw [hs]; rfl
    · show (if r.sentInfo.isSome then r.pipelineIterationInfo else none) = _; rw [hs]; rfl
    · cases hj : infoArrived root i with
      | error x => simp only [infoOfError, hj, Except.map] at hinfo; cases hinfo
      | ok j =>
        simp only [infoOfError, hj, Except.map] at hinfo
        cases hinfo
        exact ⟨j, rfl, infoArrived_keeps root i j hj⟩
  · intro hno
    have hs : r.sentInfo = none := by
      cases hs : r.sentInfo with
      | none => rfl
      | some i => exact absurd (sends_of_sentInfo hs) (hno i)
    rw [hs] at hinfo
    cases hinfo
    refine ⟨?_, ?_, rfl⟩
    · show r.sentInfo.isSome = false; rw [hs]; rfl
    · show (if r.sentInfo.isSome then r.pipelineIterationInfo else none) = _; rw [hs]; rfl

/-- C65, exactly: of the records that arrive, those tell the same error whose details hold some text and
whose stack trace is not empty. -/
theorem C65_exact (root : PyStr → PyStr) (r r' : ErrorRecord V) (hv : r.Valid) (h : r.trip root = .ok r') :
    r.SameError r' ↔ r.NoEmptyTexts := by
  obtain ⟨n, e, info, h1, h2, h3, h4, h5, h6, rfl⟩ := trip_inv root r r' hv h
  exact sameError_arrived r e n _ info h5 h1

open RecordExamples in
example : record.Valid ∧ (∃ o, record.send = .ok o) ∧ (∃ e, record.exception = .exception e) ∧
    (∀ i, record.Sends i → i.Complete) ∧ record.NoEmptyTexts := by
  refine ⟨record_valid, ⟨_, send_ok record 13 rfl (.inr ⟨_, _, rfl, rfl⟩) ?_⟩, ⟨_, rfl⟩, ?_, ?_, by nofun⟩
  · intro i e hi he
    cases hi; cases he
    exact extent_measurable
  · intro i hi
    cases hi.2
    exact info_complete
  · intro d hd
    cases hd
    exact .inl ⟨_, rfl, by decide⟩

/-- C65 with `write_error`: an exception with a message and no further arguments but the target, the id
and maybe an invocation info arrives as such, uncategorised. -/
theorem C65_written (root : PyStr → PyStr) (e : RecordException V) (m : PyStr)
    (hm : e.message = some (some m)) (target : Option V) (errorId : Option PyStr)
    (info : Option (InvocationInfo V)) (iteration : Option (List V))
    (hi : ∀ i, info = some i → i.Valid ∧ i.Complete ∧
      ∀ x, i.displayScriptPosition = some x → x.Measurable) :
    ∃ r' f, (writeError (.exception e) none target errorId none info iteration none).trip root = .ok r' ∧
      r'.exception = .exception f ∧ f.value = e.value ∧ f.message = e.message ∧
      r'.targetObject = target ∧ r'.fullyQualifiedErrorId = errorId ∧
      r'.categoryInfo = ⟨some 0, none, none, none, none, some (txt! "NotSpecified (:) [], ")⟩ ∧
      r'.errorDetails = none ∧ r'.scriptStackTrace = none ∧
      (info = none → r'.invocationInfo = none) ∧
      ∀ i, info = some i → r'.pipelineIterationInfo = iteration ∧ ∃ j, r'.invocationInfo = some j ∧ i.Keeps j := by
  generalize hr : writeError (.exception e) none target errorId none info iteration none = r
  have hinfo : r.invocationInfo = info := by rw [← hr]; rfl
  have hv : r.Valid := by
    refine ⟨fun n h => ?_, fun i h => (hi i (hinfo ▸ h)).1⟩
    rw [← hr] at h; cases h; decide
  have hcat : r.categoryInfo.category = some 0 := by rw [← hr]; rfl
  have hex : r.exception = .exception e := by rw [← hr]; rfl
  have hsend : ∃ o, r.send = .ok o :=
    ⟨_, send_ok r 0 hcat (.inr ⟨e, m, hex, hm⟩) fun i x h hx => (hi i (hinfo ▸ h)).2.2 x hx⟩
  obtain ⟨i', hi'⟩ := infoOfError_ok root r hv fun i h => (hi i (hinfo ▸ h.2)).2.1
  obtain ⟨o, ho⟩ := hsend
  obtain ⟨_, _, h2, h3⟩ := send_inv r o ho
  have htrip := trip_ok root r 0 e i' hcat (by decide) h2 h3 hex hi'
  obtain ⟨r', hr', _, _, _, hsent, hun⟩ := C65_partial root r hv ⟨o, ho⟩ ⟨e, hex⟩
    (fun i h => (hi i (hinfo ▸ h.2)).2.1) (by rw [← hr]; exact ⟨by nofun, by nofun⟩)
  have : r' = _ := Except.ok.inj (hr'.symm.trans htrip)
  refine ⟨r', { e with remoteInfo := some r.invocationInfo }, hr', by rw [this]; rfl, rfl, rfl,
    ?_, ?_, ?_, ?_, ?_, ?_, ?_⟩
  · rw [this, ← hr]; rfl
  · rw [this, ← hr]; rfl
  · rw [this, ← hr]; rfl
  · rw [this, ← hr]; rfl
  · rw [this, ← hr]; rfl
  · intro h
    refine (hun fun i hs => ?_).2.2
    rw [hs.2, h] at hinfo; cases hinfo
  · intro i h
    have hs : r.Sends i := ⟨by rw [← hr, h]; rfl, hinfo.trans h⟩
    have hit : r.pipelineIterationInfo = iteration := by rw [← hr]; rfl
    exact hit ▸ (hsent i hs).2

open RecordExamples in
example : info.Valid ∧ info.Complete ∧ ∀ x, info.displayScriptPosition = some x → x.Measurable :=
  ⟨info_valid, info_complete, fun x h => by cases h; exact extent_measurable⟩

/-- Error details without text and an empty stack trace arrive as `None`; a record without exception is
sent but not read. -/
theorem C65_violated (root : PyStr → PyStr) :
    (∃ r r' : ErrorRecord Nat, r.Valid ∧ r.trip root = .ok r' ∧ r.errorDetails = some ⟨some [], some []⟩ ∧
      r'.errorDetails = none ∧ r.scriptStackTrace = some [] ∧ r'.scriptStackTrace = none) ∧
    ∃ r : ErrorRecord Nat, r.Valid ∧ (∃ o, r.send = .ok o) ∧ r.trip root = .error .valueError := by
  refine ⟨⟨{
    exception := .exception { value := 5, message := some (some (txt! "no such item")) }
    categoryInfo := {}
    errorDetails := some ⟨some [], some []⟩
    scriptStackTrace := some [] }, _, ?_, rfl, rfl, rfl, rfl, rfl⟩, {
    exception := .none
    categoryInfo := {}
    errorDetails := some ⟨some (txt! "m"), none⟩ }, ?_, ⟨_, rfl⟩, rfl⟩
  · exact ⟨fun n h => (by cases h; decide), fun i h => (by cases h)⟩
  · exact ⟨fun n h => (by cases h; decide), fun i h => (by cases h)⟩

/-! ## C66 -/

/-- C66, who arrives: a debug, verbose or warning record with an invocation info arrives exactly if the
info names the origin of the command and the visibility of its command. -/
theorem C66_arrives (root : PyStr → PyStr) (r : InformationalRecord V) (i : InvocationInfo V) (hs : r.Sends i)
    (hv : i.Valid) : (∃ r', r.trip root = .ok r') ↔ i.Complete := by
  rw [← infoArrived_iff root i hv, informational_sent root r i hs]
  cases infoArrived root i with
  | error e => exact ⟨fun ⟨_, h⟩ => (by cases h), fun ⟨_, h⟩ => (by cases h)⟩
  | ok j => exact ⟨fun _ => ⟨j, rfl⟩, fun _ => ⟨_, rfl⟩⟩

/-- C66 with the conditions under which it holds: the message and the list of the pipeline are the same,
the invocation info keeps the call, the place and the command. (For error records this is in
`C65_partial`.) Not kept: the position message, the path and the root of the script, the lines in the
extent. -/
theorem C66_partial (root : PyStr → PyStr) (r : InformationalRecord V) (i : InvocationInfo V) (hs : r.Sends i)
    (hv : i.Valid) (hc : i.Complete) :
    ∃ r' j, r.trip root = .ok r' ∧ r'.message = r.message ∧
      r'.pipelineIterationInfo = r.pipelineIterationInfo ∧ r'.serializeExtendedInfo = true ∧
      r'.invocationInfo = some j ∧ i.Keeps j := by
  obtain ⟨j, hj⟩ := (infoArrived_iff root i hv).2 hc
  refine ⟨⟨r.message, some j, r.pipelineIterationInfo, true⟩, j, ?_, rfl, rfl, rfl, rfl,
    infoArrived_keeps root i j hj⟩
  rw [informational_sent root r i hs, hj]
  rfl

/-- C66, exactly: the records with invocation info that arrive as they were are those with a settled
one. -/
theorem C66_exact (root : PyStr → PyStr) (r : InformationalRecord V) (i : InvocationInfo V) (hs : r.Sends i)
    (hv : i.Valid) (hc : i.Complete) : r.trip root = .ok r ↔ i.Settled := by
  rw [← infoArrived_settled root i hv hc, informational_sent root r i hs]
  obtain ⟨m, i', it, s⟩ := r
  obtain ⟨rfl, rfl⟩ := hs
  constructor
  · intro h
    cases hj : infoArrived root i with
    | error e => rw [hj] at h; cases h
    | ok j => rw [hj] at h; cases h; rfl
  · intro h
    rw [h]; rfl

/-- C66, what a peer of another make is given: everything of the invocation info is sent, also what a
psrpcore peer does not take over. -/
theorem C66_sent (r : InformationalRecord V) (i : InvocationInfo V) (hs : r.Sends i) :
    HoldsInfo r.toRemoting i := informational_holds r i hs

/-- C66 for error records, what a peer of another make is given. -/
theorem C66_sent_error (r : ErrorRecord V) (i : InvocationInfo V) (o : Notes V) (hs : r.Sends i)
    (h : r.send = .ok o) : HoldsInfo o i := by
  refine error_holds r i o (sentInfo_of_sends hs) ?_
  unfold ErrorRecord.send at h
  cases ht : r.toRemoting with
  | error e => rw [ht] at h; cases h
  | ok o' =>
    rw [ht] at h
    cases h1 : r.shown with
    | error e => rw [h1] at h; cases h
    | ok t =>
      cases h2 : infoSerializable r.invocationInfo with
      | error e => rw [h1, h2] at h; cases h
      | ok u => rw [h1, h2] at h; cases h; rfl

open RecordExamples in
example : record.Sends info ∧ ∃ o, record.send = .ok o := ⟨⟨rfl, rfl⟩, _, rfl⟩

/-- C66 without invocation info, or with one that is not marked to be sent: the message arrives alone. -/
theorem C66_unsent (root : PyStr → PyStr) (r : InformationalRecord V) (h : ∀ i, ¬ r.Sends i) :
    ∃ r', r.trip root = .ok r' ∧ r'.message = r.message ∧ r'.invocationInfo = none ∧
      r'.pipelineIterationInfo = none ∧ r'.serializeExtendedInfo = false :=
  ⟨_, informational_unsent root r h, rfl, rfl, rfl, rfl⟩

/-- C66 with `write_debug`, `write_verbose` and `write_warning`: the invocation info they are given is
sent. -/
theorem C66_written (root : PyStr → PyStr) (message : PyStr) (i : InvocationInfo V)
    (iteration : Option (List V)) (hv : i.Valid) (hc : i.Complete) :
    ∃ r' j, (writeInformational message (some i) iteration).trip root = .ok r' ∧
      r'.message = some message ∧ r'.pipelineIterationInfo = iteration ∧ r'.invocationInfo = some j ∧
      i.Keeps j := by
  obtain ⟨r', j, h1, h2, h3, _, h5, h6⟩ :=
    C66_partial root (writeInformational message (some i) iteration) i ⟨rfl, rfl⟩ hv hc
  exact ⟨r', j, h1, h2, h3, h5, h6⟩

open RecordExamples in
example : warning.Sends info ∧ info.Valid ∧ info.Complete := ⟨⟨rfl, rfl⟩, info_valid, info_complete⟩

open RecordExamples in
example : ({ info with
    positionMessage := none, psCommandPath := some [], psScriptRoot := some [], unboundArguments := some []
    displayScriptPosition := some ⟨{ extent.start with text := some [] }, { extent.stop with text := some [] }⟩
    myCommand := some { command with definition := some none } } : InvocationInfo Nat).Settled := by
  refine ⟨rfl, rfl, rfl, by nofun, by nofun, by nofun, ⟨_, rfl, rfl, rfl, rfl⟩, fun c h => ?_⟩
  cases h
  exact ⟨⟨_, rfl⟩, by nofun, by nofun, ⟨_, rfl⟩⟩

/-- A record with an invocation info fresh from its constructor is sent and cannot be read. Of a full one
the position message and the script's path are lost, and one without extent arrives with an extent. -/
theorem C66_violated (root : PyStr → PyStr) :
    (writeInformational (V := Nat) (txt! "m") (some {}) none).trip root = .error .valueError ∧
    (∃ r' j, RecordExamples.warning.trip root = .ok r' ∧ r'.invocationInfo = some j ∧
      RecordExamples.info.positionMessage ≠ none ∧ j.positionMessage = none ∧
      RecordExamples.info.psCommandPath ≠ some [] ∧ j.psCommandPath = some []) ∧
    ∃ r' j e, (writeInformational (V := Nat) (txt! "m") (some { commandOrigin := some 0 }) none).trip root =
      .ok r' ∧ r'.invocationInfo = some j ∧ j.displayScriptPosition = some e ∧
      e.start.file = some [] ∧ e.start.line = none := by
  refine ⟨rfl, ⟨_, _, rfl, rfl, by nofun, rfl, by nofun, rfl⟩, _, _, _, rfl, rfl, rfl, rfl, rfl⟩

/-! ## C67 -/

/-- C67: a received record that is passed on keeps what it kept the first time, and from the second
arrival on nothing changes any more. -/
theorem C67_settles (root : PyStr → PyStr) (r r1 : InformationalRecord V) (h : r.trip root = .ok r1) :
    ∃ r2, r1.trip root = .ok r2 ∧ r2.trip root = .ok r2 ∧ r2.message = r1.message ∧
      r2.pipelineIterationInfo = r1.pipelineIterationInfo ∧
      (r1.invocationInfo = none → r2 = r1) ∧
      ∀ j, r1.invocationInfo = some j → ∃ k, r2.invocationInfo = some k ∧ j.Keeps k ∧ k.Settled := by
  by_cases hs : ∃ i, r.Sends i
  · obtain ⟨i, hs⟩ := hs
    rw [informational_sent root r i hs] at h
    cases hj : infoArrived root i with
    | error e => rw [hj] at h; cases h
    | ok j =>
      rw [hj] at h
      cases h
      obtain ⟨k, hk, hset, hkk⟩ := infoArrived_twice root i j hj
      refine ⟨⟨r.message, some k, r.pipelineIterationInfo, true⟩, ?_, ?_, rfl, rfl, by nofun, ?_⟩
      · rw [informational_sent root _ j ⟨rfl, rfl⟩, hk]; rfl
      · rw [informational_sent root _ k ⟨rfl, rfl⟩, hkk]; rfl
      · intro j' hj'
        cases hj'
        exact ⟨k, rfl, infoArrived_keeps root j k hk, hset⟩
  · rw [informational_unsent root r fun i hi => hs ⟨i, hi⟩] at h
    cases h
    have hun : ∀ i, ¬ (InformationalRecord.mk r.message none none false : InformationalRecord V).Sends i :=
      fun i hi => by cases hi.1
    exact ⟨_, informational_unsent root _ hun, informational_unsent root _ hun, rfl, rfl, fun _ => rfl,
      fun j hj => by cases hj⟩

/-- C67, exactly when the first arrival is final: with an extent, or with neither extent nor script name
nor line. `dirname` of no path is no path. -/
theorem C67_exact (root : PyStr → PyStr) (hroot : root [] = []) (r r1 : InformationalRecord V)
    (i : InvocationInfo V) (hs : r.Sends i) (h : r.trip root = .ok r1) :
    r1.trip root = .ok r1 ↔ i.displayScriptPosition ≠ none ∨
      (i.scriptName.getD [] = [] ∧ i.line.getD [] = []) := by
  rw [informational_sent root r i hs] at h
  cases hj : infoArrived root i with
  | error e => rw [hj] at h; cases h
  | ok j =>
    rw [hj] at h
    cases h
    obtain ⟨hv, hc⟩ := infoArrived_valid root i j hj
    rw [C66_exact root _ j ⟨rfl, rfl⟩ hv hc]
    obtain ⟨hp1, hp2, hp3, _⟩ := infoArrived_place root i j hj
    constructor
    · rintro ⟨_, h2, _, _, _, _, ⟨e, he, _, h8, _⟩, _⟩
      cases hd : i.displayScriptPosition with
      | some _ => exact .inl (by nofun)
      | none =>
        rw [placeArrived_none root i hd] at hp1 hp2
        refine .inr ⟨Option.some.inj (hp2.symm.trans h2), ?_⟩
        rw [hp1] at he
        cases he
        exact Option.some.inj h8
    · rintro (hd | ⟨h1, h2⟩)
      · exact settled_of_extent root i j hj hd
      · cases hd : i.displayScriptPosition with
        | some e => exact settled_of_extent root i j hj (by rw [hd]; nofun)
        | none =>
          refine settled_of_arrived root i j hj ?_ ?_ <;> rw [placeArrived_none root i hd, h1, h2]
          · rw [hroot]
          · exact ⟨rfl, rfl, rfl⟩

/-- A received record loses the path of its script when it is passed on, if it was sent without
extent. -/
theorem C67_violated (root : PyStr → PyStr) :
    ∃ (r r1 r2 : InformationalRecord Nat) (j k : InvocationInfo Nat),
      r.trip root = .ok r1 ∧ r1.trip root = .ok r2 ∧ r1.invocationInfo = some j ∧
      r2.invocationInfo = some k ∧ j.psCommandPath = some (txt! "/a.ps1") ∧ k.psCommandPath = some [] := by
  exact ⟨writeInformational (txt! "m")
    (some { commandOrigin := some 0, scriptName := some (txt! "/a.ps1") }) none, _, _, _, _, rfl, rfl, rfl, rfl,
    rfl, rfl⟩

/-- What an error record needs to arrive, once it has arrived. -/
theorem errorArrived_again (root : PyStr → PyStr) (r r1 : ErrorRecord V) (hv : r.Valid)
    (h : r.trip root = .ok r1) :
    r1.Valid ∧ (∃ n, r1.categoryInfo.category = some n) ∧ r1.Showable ∧ (∃ e, r1.exception = .exception e) ∧
    r1.NoEmptyTexts ∧ r1.sentInfo = r1.invocationInfo ∧ (r1.sentInfo = none → r1.pipelineIterationInfo = none) ∧
    ∀ i, r1.Sends i → i.Complete := by
  obtain ⟨n, e, info, h1, h2, h3, h4, h5, h6, rfl⟩ := trip_inv root r r1 hv h
  have hsent : ∀ j, info = some j → ∃ i, r.sentInfo = some i ∧ infoArrived root i = .ok j := by
    intro j hj
    cases hs : r.sentInfo with
    | none => rw [hs] at h6; cases h6; cases hj
    | some i =>
      rw [hs] at h6
      cases hi : infoArrived root i with
      | error x => simp only [infoOfError, hi, Except.map] at h6; cases h6
      | ok k =>
        simp only [infoOfError, hi, Except.map] at h6
        cases h6; cases hj
        exact ⟨i, rfl, hi⟩
  have hnone : r.sentInfo = none → info = none := by
    intro hs; rw [hs] at h6; cases h6; rfl
  have hsome : r.sentInfo.isSome = info.isSome := by
    cases hs : r.sentInfo with
    | none => rw [hnone hs]
    | some i =>
      cases info with
      | none =>
        rw [hs] at h6
        cases hi : infoArrived root i with
        | error x => simp only [infoOfError, hi, Except.map] at h6; cases h6
        | ok k => simp only [infoOfError, hi, Except.map] at h6; cases h6
      | some j => rfl
  refine ⟨⟨?_, ?_⟩, ⟨n, rfl⟩, ?_, ⟨_, rfl⟩, ⟨?_, ?_⟩, ?_, ?_, ?_⟩
  · intro m hm; cases hm; exact h2
  · intro j hj
    obtain ⟨i, _, hi⟩ := hsent j hj
    exact (infoArrived_valid root i j hi).1
  · rcases h3 with ⟨d, hd, ht⟩ | ⟨e', m, he', hm⟩
    · refine .inl ⟨d, ?_, ht⟩
      show detailsArrived r.errorDetails = some d
      rw [(detailsArrived_iff _).2 (fun x hx => by rw [hd] at hx; cases hx; exact .inl ht), hd]
    · rw [h5] at he'
      cases he'
      exact .inr ⟨_, m, rfl, hm⟩
  · intro d hd
    have hd' : detailsArrived r.errorDetails = some d := hd
    cases hx : r.errorDetails with
    | none => rw [hx] at hd'; cases hd'
    | some x =>
      have : detailsArrived (some x) = some x := by
        rw [hx] at hd'
        simp only [detailsArrived, readDetails] at hd' ⊢
        split at hd'
        · cases hd'
        · rename_i hne; rw [if_neg hne]
      rw [hx, this] at hd'
      cases hd'
      exact (detailsArrived_iff _).1 this _ rfl
  · show NotEmpty (traceArrived r.scriptStackTrace)
    intro ht
    cases hx : r.scriptStackTrace with
    | none => rw [hx] at ht; cases ht
    | some t =>
      rw [hx] at ht
      simp only [traceArrived] at ht
      split at ht
      · cases ht
      · rename_i hne; exact hne (Option.some.inj ht)
  · show (if r.sentInfo.isSome then info else none) = info
    rw [hsome]
    cases info <;> rfl
  · intro hs
    have hs' : (if r.sentInfo.isSome then info else none) = none := hs
    show (if r.sentInfo.isSome then r.pipelineIterationInfo else none) = none
    rw [hsome] at hs' ⊢
    cases info with
    | none => rfl
    | some i => cases hs'
  · intro j hj
    obtain ⟨i, _, hi⟩ := hsent j hj.2
    exact (infoArrived_valid root i j hi).2

/-- C67 for error records, who can be passed on: a received record is sent again and arrives, unless it
came with an invocation info that had neither extent nor offset. -/
theorem C67_error_forwards (root : PyStr → PyStr) (r r1 : ErrorRecord V) (hv : r.Valid)
    (h : r.trip root = .ok r1) :
    (∃ r2, r1.trip root = .ok r2) ↔
      ∀ i, r.Sends i → i.displayScriptPosition ≠ none ∨ i.offsetInLine ≠ none := by
  obtain ⟨g1, ⟨m, g2⟩, g3, g4, g5, g6, g7, g8⟩ := errorArrived_again root r r1 hv h
  rw [C65_arrives root r1 g1, C65_sends]
  obtain ⟨n, e, info, h1, h2, h3, h4, h5, h6, rfl⟩ := trip_inv root r r1 hv h
  have key : (∀ i x, info = some i → i.displayScriptPosition = some x → x.Measurable) ↔
      ∀ i, r.Sends i → i.displayScriptPosition ≠ none ∨ i.offsetInLine ≠ none := by
    cases hs : r.sentInfo with
    | none =>
      rw [hs] at h6; cases h6
      exact ⟨fun _ i hi => (by rw [sentInfo_of_sends hi] at hs; cases hs), fun _ _ _ h => (by cases h)⟩
    | some i =>
      rw [hs] at h6
      cases hj : infoArrived root i with
      | error x => simp only [infoOfError, hj, Except.map] at h6; cases h6
      | ok j =>
        simp only [infoOfError, hj, Except.map] at h6
        cases h6
        have hp := (infoArrived_place root i j hj).1
        have hri := (sends_of_sentInfo hs)
        have hall : (∀ i', r.Sends i' → i'.displayScriptPosition ≠ none ∨ i'.offsetInLine ≠ none) ↔
            (i.displayScriptPosition ≠ none ∨ i.offsetInLine ≠ none) := by
          refine ⟨fun h => h i hri, fun h i' hi' => ?_⟩
          have := hi'.2.symm.trans hri.2
          cases this; exact h
        have hone : (∀ i' x, some j = some i' → i'.displayScriptPosition = some x → x.Measurable) ↔
            (placeArrived root i).1.Measurable := by
          refine ⟨fun h => h j _ rfl hp, fun h i' x hi' hx => ?_⟩
          cases hi'; rw [hp] at hx; cases hx; exact h
        rw [hall, hone]
        cases hd : i.displayScriptPosition with
        | some x =>
          refine ⟨fun _ => .inl (by nofun), fun _ => ?_⟩
          obtain ⟨stop, k1, k2⟩ := h4 i x hri.2 hd
          rw [placeArrived_extent root i hd]
          exact ⟨stop, k1, fun hle => ⟨by nofun, (k2 hle).2.1, fun _ => by nofun⟩⟩
        | none =>
          rw [placeArrived_none root i hd]
          unfold lineExtent ScriptExtent.Measurable
          by_cases hl : i.line.getD [] = []
          · simp only [hl, ↓reduceIte]
            constructor
            · rintro ⟨stop, k1, _⟩
              exact .inr (by rw [k1]; nofun)
            · rintro (k | k)
              · exact absurd rfl k
              · cases ho : i.offsetInLine with
                | none => exact absurd ho k
                | some o => exact ⟨o, rfl, fun _ => ⟨by nofun, fun _ => by nofun, fun hne => absurd rfl hne⟩⟩
          · simp only [hl, ↓reduceIte]
            constructor
            · rintro ⟨stop, k1, k2⟩
              cases k1
              exact .inr ((k2 (by omega)).2.1 trivial)
            · rintro (k | k)
              · exact absurd rfl k
              · exact ⟨_, rfl, fun _ => ⟨by nofun, fun _ => k, fun hne => absurd rfl hne⟩⟩
  rw [← key]
  exact ⟨fun h => h.1.2.2, fun h => ⟨⟨by rw [g2]; nofun, g3, h⟩, g4, g8⟩⟩

theorem infoOfError_twice (root : PyStr → PyStr) (i j : Option (InvocationInfo V))
    (h : infoOfError root i = .ok j) : ∃ k, infoOfError root j = .ok k ∧ infoOfError root k = .ok k := by
  cases i with
  | none => cases h; exact ⟨_, rfl, rfl⟩
  | some i =>
    cases hj : infoArrived root i with
    | error x => simp only [infoOfError, hj, Except.map] at h; cases h
    | ok j' =>
      simp only [infoOfError, hj, Except.map] at h
      cases h
      obtain ⟨k, h1, _, h3⟩ := infoArrived_twice root i j' hj
      exact ⟨some k, by simp only [infoOfError, h1, Except.map], by simp only [infoOfError, h3, Except.map]⟩

/-- C67 for error records: a received record that is passed on tells the same error; if that works once
it works any number of times, and from the third arrival on nothing changes any more. -/
theorem C67_error_settles (root : PyStr → PyStr) (r r1 r2 : ErrorRecord V) (hv : r.Valid)
    (h : r.trip root = .ok r1) (h' : r1.trip root = .ok r2) :
    r1.SameError r2 ∧ r2.categoryInfo = r1.categoryInfo ∧
    ∃ r3, r2.trip root = .ok r3 ∧ r3.trip root = .ok r3 ∧ r3.invocationInfo = r2.invocationInfo ∧
      r2.SameError r3 := by
  obtain ⟨v1, ⟨n1, c1⟩, s1, ⟨e1, x1⟩, t1, i1, p1, k1⟩ := errorArrived_again root r r1 hv h
  obtain ⟨v2, ⟨n2, c2⟩, s2, ⟨e2, x2⟩, t2, i2, p2, k2⟩ := errorArrived_again root r1 r2 v1 h'
  have hsame1 := (C65_exact root r1 r2 v1 h').2 t1
  have hcat : r2.categoryInfo = r1.categoryInfo := by
    obtain ⟨n, e, info, a1, a2, a3, a4, a5, a6, rfl⟩ := trip_inv root r r1 hv h
    obtain ⟨m, f, info', b1, b2, b3, b4, b5, b6, rfl⟩ := trip_inv root _ r2 v1 h'
    cases b1
    rfl
  -- the third arrival
  have hwell : ∀ i x, r2.invocationInfo = some i → i.displayScriptPosition = some x → x.Measurable := by
    have := (C67_error_forwards root r1 r2 v1 h').2 (fun i hi => .inl ?_)
    · obtain ⟨r3, h3⟩ := this
      obtain ⟨_, _, _, _, _, _, b4, _⟩ := trip_inv root r2 r3 v2 h3
      exact b4
    · obtain ⟨n, e, info, a1, a2, a3, a4, a5, a6, rfl⟩ := trip_inv root r r1 hv h
      have hinf : info = some i := hi.2
      subst hinf
      cases hs : r.sentInfo with
      | none => rw [hs] at a6; cases a6
      | some i0 =>
        rw [hs] at a6
        cases hj : infoArrived root i0 with
        | error y => simp only [infoOfError, hj, Except.map] at a6; cases a6
        | ok j =>
          simp only [infoOfError, hj, Except.map] at a6
          cases a6
          rw [(infoArrived_place root i0 i hj).1]; nofun
  have hinfo : infoOfError root r2.invocationInfo = .ok r2.invocationInfo := by
    obtain ⟨n, e, info, a1, a2, a3, a4, a5, a6, rfl⟩ := trip_inv root r r1 hv h
    obtain ⟨m, f, info', b1, b2, b3, b4, b5, b6, rfl⟩ := trip_inv root _ r2 v1 h'
    obtain ⟨k, q1, q2⟩ := infoOfError_twice root r.sentInfo info a6
    rw [i1] at b6
    have b6' : infoOfError root info = .ok info' := b6
    rw [b6'] at q1
    cases q1
    exact q2
  have h3 := trip_ok root r2 n2 e2 r2.invocationInfo c2 (v2.1 n2 c2) s2 hwell x2 (by rw [i2]; exact hinfo)
  have hsame2 := (C65_exact root r2 _ v2 h3).2 t2
  refine ⟨hsame1, hcat, _, h3, ?_, rfl, hsame2⟩
  obtain ⟨v3, ⟨n3, c3⟩, s3, ⟨e3, x3⟩, t3, i3, p3, k3⟩ := errorArrived_again root r2 _ v2 h3
  generalize hr3 : errorArrived r2 e2 n2 (categoryText r2.categoryInfo n2) r2.invocationInfo = r3 at *
  have hi3 : r3.invocationInfo = r2.invocationInfo := by rw [← hr3]; rfl
  have h4 := trip_ok root r3 n3 e3 r3.invocationInfo c3 (v3.1 n3 c3) s3 (by rw [hi3]; exact hwell) x3
    (by rw [i3, hi3]; exact hinfo)
  rw [h4]
  refine congrArg Except.ok ?_
  have hcat3 : r3.categoryInfo.toString = some (categoryText r3.categoryInfo n3) := by
    rw [← hr3] at c3 ⊢; cases c3; rfl
  have hd : detailsArrived r3.errorDetails = r3.errorDetails := (detailsArrived_iff _).2 t3.1
  have ht : traceArrived r3.scriptStackTrace = r3.scriptStackTrace := (traceArrived_iff _).2 t3.2
  have hex : ExceptionSlot.exception { e3 with remoteInfo := some r3.invocationInfo } = r3.exception := by
    rw [← hr3] at x3 ⊢
    cases x3
    rfl
  have hext : r3.sentInfo.isSome = r3.serializeExtendedInfo := by
    rw [← hr3] at i3 ⊢
    rw [i3]
    show r2.invocationInfo.isSome = r2.sentInfo.isSome
    rw [i2]
  have hit : (if r3.sentInfo.isSome then r3.pipelineIterationInfo else none) = r3.pipelineIterationInfo := by
    cases hs : r3.sentInfo with
    | none => rw [p3 hs]; rfl
    | some _ => rfl
  unfold errorArrived
  rw [hd, ht, hex, hit, hext, ← hcat3, ← c3]

/-- A received error record that came with an invocation info without extent and offset cannot be passed
on: the text of the extent made for it cannot be told. -/
theorem C67_error_violated (root : PyStr → PyStr) :
    ∃ r r1 : ErrorRecord Nat, r.Valid ∧ r.trip root = .ok r1 ∧ r1.send = .error .typeError := by
  refine ⟨writeError (.exception { value := 5, message := some (some (txt! "m")) }) none none none none
    (some { commandOrigin := some 0 }) none none, _, ?_, rfl, rfl⟩
  refine ⟨fun n h => (by cases h; decide), fun i h => ?_⟩
  cases h
  exact ⟨fun n h => (by cases h; decide), fun c n h => (by cases h)⟩

open RecordExamples in
example (root : PyStr → PyStr) : ∃ r1, warning.trip root = .ok r1 ∧ warning.Sends info :=
  ⟨_, rfl, rfl, rfl⟩

open RecordExamples in
example (root : PyStr → PyStr) : ∃ r1 r2, record.Valid ∧ record.trip root = .ok r1 ∧ r1.trip root = .ok r2 :=
  ⟨_, _, record_valid, rfl, rfl⟩

end Verif
