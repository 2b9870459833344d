import Verif.Spec.Records

/-! # Records: what arrives -/

namespace Verif

variable {V : Type}

/-! ## Values -/

namespace NoteVal

@[simp] theorem toStr_ofStr (x : Option PyStr) : (ofStr x : NoteVal V).toStr = .ok x := by cases x <;> rfl
@[simp] theorem toInt_ofInt (x : Option Int) : (ofInt x : NoteVal V).toInt = .ok x := by cases x <;> rfl
@[simp] theorem toBool_ofBool (x : Option Bool) : (ofBool x : NoteVal V).toBool = .ok x := by cases x <;> rfl
@[simp] theorem toList_ofList (x : Option (List V)) : (ofList x).toList = .ok x := by cases x <;> rfl
@[simp] theorem toDict_ofDict (x : Option (List (V × V))) : (ofDict x).toDict = .ok x := by cases x <;> rfl
@[simp] theorem toValue_ofValue (x : Option V) : (ofValue x).toValue = .ok x := by cases x <;> rfl
@[simp] theorem toInfo_ofInfo (x : Option (InvocationInfo V)) : (ofInfo x).toInfo = .ok x := by
  cases x <;> rfl

end NoteVal

/-! ## Invocation details -/

/-- The place of an invocation at the other end. -/
def placeArrived (root : PyStr → PyStr) (i : InvocationInfo V) : ScriptExtent × PyStr × PyStr :=
  match i.displayScriptPosition with
  | some e =>
    (⟨⟨e.start.file, e.start.line, e.start.column, some []⟩,
      ⟨e.start.file, e.stop.line, e.stop.column, some []⟩⟩, [], [])
  | none =>
    (lineExtent (i.scriptName.getD []) i.scriptLineNumber i.offsetInLine (i.line.getD []),
      i.scriptName.getD [], root (i.scriptName.getD []))

/-- A member of an enum of two at the other end. -/
def memberArrived : Option Nat → Except Err Nat
  | none => .error .valueError
  | some n => if n < 2 then .ok n else .error .valueError

/-- The command of an invocation at the other end. -/
def commandArrived : Option CommandInfo → Except Err (Option CommandInfo)
  | none => .ok none
  | some c =>
    match c.commandType.getD (some 32) with
    | none => .ok none
    | some t =>
      match memberArrived (c.visibility.getD (some 0)) with
      | .error e => .error e
      | .ok v =>
        .ok (some ⟨some (some t), some (c.name.getD (some [])), some (c.definition.getD (some [])),
          some (some v)⟩)

/-- An invocation info at the other end. -/
def infoArrived (root : PyStr → PyStr) (i : InvocationInfo V) : Except Err (InvocationInfo V) :=
  match commandArrived i.myCommand with
  | .error e => .error e
  | .ok c =>
    match memberArrived i.commandOrigin with
    | .error e => .error e
    | .ok n => .ok {
        boundParameters := some (i.boundParameters.getD [])
        commandOrigin := some n
        displayScriptPosition := some (placeArrived root i).1
        expectingInput := i.expectingInput
        historyId := i.historyId
        invocationName := i.invocationName
        line := some (i.line.getD [])
        myCommand := c
        offsetInLine := i.offsetInLine
        pipelineLength := i.pipelineLength
        pipelinePosition := i.pipelinePosition
        psCommandPath := some (placeArrived root i).2.1
        psScriptRoot := some (placeArrived root i).2.2
        scriptLineNumber := i.scriptLineNumber
        scriptName := i.scriptName
        unboundArguments := some (i.unboundArguments.getD []) }

theorem lookup_pre {α β : Type} [BEq α] (k : α) (pre l : List (α × β)) (h : pre.lookup k = none) :
    (pre ++ l).lookup k = l.lookup k := by
  rw [List.lookup_append, h]; rfl

theorem lookup_post {α β : Type} [BEq α] (k : α) (l post : List (α × β)) (v : β)
    (h : l.lookup k = some v) : (l ++ post).lookup k = some v := by
  rw [List.lookup_append, h]; rfl

/-- The names of the properties of invocations that the reader asks for. -/
def infoNames : List PyStr :=
  [txt! "InvocationInfo_BoundParameters", txt! "InvocationInfo_CommandOrigin",
   txt! "InvocationInfo_ExpectingInput", txt! "InvocationInfo_InvocationName", txt! "InvocationInfo_Line",
   txt! "InvocationInfo_OffsetInLine", txt! "InvocationInfo_HistoryId",
   txt! "InvocationInfo_PipelineLength", txt! "InvocationInfo_PipelinePosition",
   txt! "InvocationInfo_ScriptLineNumber", txt! "InvocationInfo_ScriptName",
   txt! "InvocationInfo_UnboundArguments", txt! "ScriptExtent_File",
   txt! "ScriptExtent_StartLineNumber", txt! "ScriptExtent_StartColumnNumber",
   txt! "ScriptExtent_EndLineNumber", txt! "ScriptExtent_EndColumnNumber", txt! "SerializeExtent",
   txt! "CommandInfo_CommandType", txt! "CommandInfo_Definition", txt! "CommandInfo_Name",
   txt! "CommandInfo_Visibility"]

/-- An object has, under the names of invocations, what another one has. -/
def SameNotes (names : List PyStr) (o q : Notes V) : Prop := ∀ k ∈ names, o.lookup k = q.lookup k

theorem SameNotes.get {names : List PyStr} {o q : Notes V} (h : SameNotes names o q) {k : PyStr}
    (hk : k ∈ names) : o.get k = q.get k := by
  unfold Notes.get; rw [h k hk]

theorem SameNotes.getD {names : List PyStr} {o q : Notes V} (h : SameNotes names o q) {k : PyStr}
    (hk : k ∈ names) : o.getD k = q.getD k := by
  unfold Notes.getD; rw [h k hk]

theorem readInfo_same (root : PyStr → PyStr) {o q : Notes V} (h : SameNotes infoNames o q) :
    readInfo root o = readInfo root q := by
  simp only [readInfo, readPosition, readExtent, readCommand,
    h.get (k := txt! "InvocationInfo_CommandOrigin") (by decide),
    h.get (k := txt! "InvocationInfo_ExpectingInput") (by decide),
    h.get (k := txt! "InvocationInfo_InvocationName") (by decide),
    h.get (k := txt! "InvocationInfo_OffsetInLine") (by decide),
    h.get (k := txt! "InvocationInfo_HistoryId") (by decide),
    h.get (k := txt! "InvocationInfo_PipelineLength") (by decide),
    h.get (k := txt! "InvocationInfo_PipelinePosition") (by decide),
    h.get (k := txt! "InvocationInfo_ScriptLineNumber") (by decide),
    h.get (k := txt! "InvocationInfo_ScriptName") (by decide),
    h.getD (k := txt! "InvocationInfo_UnboundArguments") (by decide),
    h.getD (k := txt! "InvocationInfo_BoundParameters") (by decide),
    h.getD (k := txt! "InvocationInfo_Line") (by decide),
    h.get (k := txt! "ScriptExtent_File") (by decide),
    h.get (k := txt! "ScriptExtent_StartLineNumber") (by decide),
    h.get (k := txt! "ScriptExtent_StartColumnNumber") (by decide),
    h.get (k := txt! "ScriptExtent_EndLineNumber") (by decide),
    h.get (k := txt! "ScriptExtent_EndColumnNumber") (by decide),
    h.get (k := txt! "SerializeExtent") (by decide),
    h.getD (k := txt! "CommandInfo_CommandType") (by decide),
    h.get (k := txt! "CommandInfo_Definition") (by decide),
    h.get (k := txt! "CommandInfo_Name") (by decide),
    h.get (k := txt! "CommandInfo_Visibility") (by decide)]

theorem toMember_ofEnum (n : Option Nat) : (NoteVal.ofEnum n : NoteVal V).toMember 2 = memberArrived n := by
  cases n <;> rfl

theorem readPosition_notes (root : PyStr → PyStr) (i : InvocationInfo V) (line : PyStr)
    (hl : line = i.line.getD []) :
    readPosition root (infoNotes i) line = .ok (placeArrived root i) := by
  subst hl
  obtain ⟨a, b, e, c, d, f, g, m, h, j, k, l, p, q, s, t, u⟩ := i
  cases e with
  | none =>
    have h1 : Notes.get (infoNotes (V := V) ⟨a, b, none, c, d, f, g, m, h, j, k, l, p, q, s, t, u⟩)
      (txt! "SerializeExtent") = .ok (.bool false) := rfl
    have h2 : Notes.get (infoNotes (V := V) ⟨a, b, none, c, d, f, g, m, h, j, k, l, p, q, s, t, u⟩)
      (txt! "InvocationInfo_ScriptName") = .ok (.ofStr t) := rfl
    have h3 : Notes.get (infoNotes (V := V) ⟨a, b, none, c, d, f, g, m, h, j, k, l, p, q, s, t, u⟩)
      (txt! "InvocationInfo_ScriptLineNumber") = .ok (.ofInt s) := rfl
    have h4 : Notes.get (infoNotes (V := V) ⟨a, b, none, c, d, f, g, m, h, j, k, l, p, q, s, t, u⟩)
      (txt! "InvocationInfo_OffsetInLine") = .ok (.ofInt h) := rfl
    simp [readPosition, h1, h2, h3, h4, bind, Except.bind, pure, Except.pure, NoteVal.truth, placeArrived]
  | some e =>
    have h1 : Notes.get (infoNotes (V := V) ⟨a, b, some e, c, d, f, g, m, h, j, k, l, p, q, s, t, u⟩)
      (txt! "SerializeExtent") = .ok (.bool true) := rfl
    have h2 : Notes.get (infoNotes (V := V) ⟨a, b, some e, c, d, f, g, m, h, j, k, l, p, q, s, t, u⟩)
      (txt! "ScriptExtent_File") = .ok (.ofStr e.start.file) := rfl
    have h3 : Notes.get (infoNotes (V := V) ⟨a, b, some e, c, d, f, g, m, h, j, k, l, p, q, s, t, u⟩)
      (txt! "ScriptExtent_StartLineNumber") = .ok (.ofInt e.start.line) := rfl
    have h4 : Notes.get (infoNotes (V := V) ⟨a, b, some e, c, d, f, g, m, h, j, k, l, p, q, s, t, u⟩)
      (txt! "ScriptExtent_StartColumnNumber") = .ok (.ofInt e.start.column) := rfl
    have h5 : Notes.get (infoNotes (V := V) ⟨a, b, some e, c, d, f, g, m, h, j, k, l, p, q, s, t, u⟩)
      (txt! "ScriptExtent_EndLineNumber") = .ok (.ofInt e.stop.line) := rfl
    have h6 : Notes.get (infoNotes (V := V) ⟨a, b, some e, c, d, f, g, m, h, j, k, l, p, q, s, t, u⟩)
      (txt! "ScriptExtent_EndColumnNumber") = .ok (.ofInt e.stop.column) := rfl
    simp [readPosition, readExtent, h1, h2, h3, h4, h5, h6, bind, Except.bind, pure, Except.pure,
      NoteVal.truth, placeArrived]

theorem readCommand_notes (i : InvocationInfo V) :
    readCommand (infoNotes i) = commandArrived i.myCommand := by
  obtain ⟨a, b, e, c, d, f, g, m, h, j, k, l, p, q, s, t, u⟩ := i
  cases m with
  | none =>
    have h1 : Notes.getD (infoNotes (V := V) ⟨a, b, e, c, d, f, g, none, h, j, k, l, p, q, s, t, u⟩)
      (txt! "CommandInfo_CommandType") = .nil := by cases e <;> rfl
    simp [readCommand, h1, commandArrived, NoteVal.isNone, pure, Except.pure]
  | some m =>
    obtain ⟨ty, nm, df, vs⟩ := m
    have h1 : Notes.getD (infoNotes (V := V) ⟨a, b, e, c, d, f, g, some ⟨ty, nm, df, vs⟩, h, j, k, l, p, q, s, t, u⟩)
      (txt! "CommandInfo_CommandType") = .ofEnum (ty.getD (some 32)) := by cases e <;> rfl
    have h2 : Notes.get (infoNotes (V := V) ⟨a, b, e, c, d, f, g, some ⟨ty, nm, df, vs⟩, h, j, k, l, p, q, s, t, u⟩)
      (txt! "CommandInfo_Name") = .ok (.ofStr (nm.getD (some []))) := by cases e <;> rfl
    have h3 : Notes.get (infoNotes (V := V) ⟨a, b, e, c, d, f, g, some ⟨ty, nm, df, vs⟩, h, j, k, l, p, q, s, t, u⟩)
      (txt! "CommandInfo_Definition") = .ok (.ofStr (df.getD (some []))) := by cases e <;> rfl
    have h4 : Notes.get (infoNotes (V := V) ⟨a, b, e, c, d, f, g, some ⟨ty, nm, df, vs⟩, h, j, k, l, p, q, s, t, u⟩)
      (txt! "CommandInfo_Visibility") = .ok (.ofEnum (vs.getD (some 0))) := by cases e <;> rfl
    simp only [readCommand, h1, h2, h3, h4, commandArrived]
    cases hty : ty.getD (some 32) with
    | none => rfl
    | some ty =>
      have he : (NoteVal.ofEnum (some ty) : NoteVal V) = .enum ty := rfl
      simp only [he, NoteVal.isNone, Bool.false_eq_true, ↓reduceIte, NoteVal.toFlag, bind,
        Except.bind, NoteVal.toStr_ofStr, toMember_ofEnum]
      cases memberArrived (vs.getD (some 0)) <;> rfl

theorem readInfo_notes (root : PyStr → PyStr) (i : InvocationInfo V) :
    readInfo root (infoNotes i) = infoArrived root i := by
  have hp := readPosition_notes root i _ rfl
  have hc := readCommand_notes i
  have h0 : (infoNotes i).getD (txt! "InvocationInfo_Line") = .ofStr i.line := rfl
  have h1 : (infoNotes i).getD (txt! "InvocationInfo_BoundParameters") = .ofDict i.boundParameters := rfl
  have h2 : (infoNotes i).get (txt! "InvocationInfo_CommandOrigin") = .ok (.ofEnum i.commandOrigin) := rfl
  have h3 : (infoNotes i).get (txt! "InvocationInfo_ExpectingInput") = .ok (.ofBool i.expectingInput) := rfl
  have h4 : (infoNotes i).get (txt! "InvocationInfo_HistoryId") = .ok (.ofInt i.historyId) := rfl
  have h5 : (infoNotes i).get (txt! "InvocationInfo_InvocationName") = .ok (.ofStr i.invocationName) := rfl
  have h6 : (infoNotes i).get (txt! "InvocationInfo_OffsetInLine") = .ok (.ofInt i.offsetInLine) := rfl
  have h7 : (infoNotes i).get (txt! "InvocationInfo_PipelineLength") = .ok (.ofInt i.pipelineLength) := rfl
  have h8 : (infoNotes i).get (txt! "InvocationInfo_PipelinePosition") = .ok (.ofInt i.pipelinePosition) := rfl
  have h9 : (infoNotes i).get (txt! "InvocationInfo_ScriptLineNumber") = .ok (.ofInt i.scriptLineNumber) := rfl
  have h10 : (infoNotes i).get (txt! "InvocationInfo_ScriptName") = .ok (.ofStr i.scriptName) := rfl
  have h11 : (infoNotes i).getD (txt! "InvocationInfo_UnboundArguments") = .ofList i.unboundArguments := rfl
  simp only [readInfo, h0, h1, h2, h3, h4, h5, h6, h7, h8, h9, h10, h11, NoteVal.toStr_ofStr,
    NoteVal.toInt_ofInt, NoteVal.toBool_ofBool, NoteVal.toDict_ofDict, NoteVal.toList_ofList,
    bind, Except.bind, hp, hc, toMember_ofEnum, infoArrived]
  cases commandArrived i.myCommand with
  | error e => rfl
  | ok c =>
    cases memberArrived i.commandOrigin <;> rfl

/-! ## Properties of records among others -/

theorem lookup_none_of_keys {l : Notes V} {ks : List PyStr} (h : l.map Prod.fst = ks) {k : PyStr}
    (hk : k ∉ ks) : l.lookup k = none := by
  subst h
  induction l with
  | nil => rfl
  | cons p l ih =>
    obtain ⟨a, b⟩ := p
    simp only [List.map_cons, List.mem_cons, not_or] at hk
    have : (k == a) = false := by simpa using hk.1
    rw [List.lookup_cons, this]
    exact ih hk.2

theorem sameNotes_around {names : List PyStr} {pre q post : Notes V} {ks ks' : List PyStr}
    (h : pre.map Prod.fst = ks) (h' : post.map Prod.fst = ks')
    (hd : ∀ k ∈ names, k ∉ ks) (hd' : ∀ k ∈ names, k ∉ ks') :
    SameNotes names (pre ++ q ++ post) q := by
  intro k hk
  rw [List.append_assoc, lookup_pre _ _ _ (lookup_none_of_keys h (hd k hk)), List.lookup_append,
    lookup_none_of_keys h' (hd' k hk)]
  cases q.lookup k <;> rfl

/-! ## Informational records -/

theorem informational_sent (root : PyStr → PyStr) (r : InformationalRecord V) (i : InvocationInfo V)
    (h : r.Sends i) : r.trip root =
      (infoArrived root i).map fun j => ⟨r.message, some j, r.pipelineIterationInfo, true⟩ := by
  obtain ⟨msg, info, it, s⟩ := r
  obtain ⟨rfl, rfl⟩ := h
  have hn : SameNotes infoNames (InformationalRecord.toRemoting ⟨msg, some i, it, true⟩) (infoNotes i) :=
    sameNotes_around
      (pre := [(txt! "InformationalRecord_Message", .ofStr msg),
        (txt! "InformationalRecord_SerializeInvocationInfo", .bool true)])
      (post := [(txt! "InformationalRecord_PipelineIterationInfo", .ofList it)])
      (ks := [txt! "InformationalRecord_Message", txt! "InformationalRecord_SerializeInvocationInfo"])
      (ks' := [txt! "InformationalRecord_PipelineIterationInfo"]) rfl rfl
      (by decide +kernel) (by decide +kernel)
  have hi := (readInfo_same root hn).trans (readInfo_notes root i)
  have h1 : (InformationalRecord.toRemoting (V := V) ⟨msg, some i, it, true⟩).get
    (txt! "InformationalRecord_SerializeInvocationInfo") = .ok (.bool true) := rfl
  have h2 : (InformationalRecord.toRemoting (V := V) ⟨msg, some i, it, true⟩).get
    (txt! "InformationalRecord_Message") = .ok (.ofStr msg) := rfl
  have h3 : (InformationalRecord.toRemoting (V := V) ⟨msg, some i, it, true⟩).get
    (txt! "InformationalRecord_PipelineIterationInfo") = .ok (.ofList it) := by
    obtain ⟨a, b, e, c, d, f, g, m, h, j, k, l, p, q, s, t, u⟩ := i
    cases e <;> cases m <;> rfl
  simp only [InformationalRecord.trip, InformationalRecord.fromRemoting, h1, h2, h3, hi, bind, Except.bind,
    NoteVal.truth, ↓reduceIte, NoteVal.toList_ofList, NoteVal.toStr_ofStr]
  cases infoArrived root i <;> rfl

theorem informational_unsent (root : PyStr → PyStr) (r : InformationalRecord V) (h : ∀ i, ¬ r.Sends i) :
    r.trip root = .ok ⟨r.message, none, none, false⟩ := by
  obtain ⟨msg, info, it, s⟩ := r
  cases info with
  | none => cases msg <;> cases s <;> rfl
  | some i =>
    cases s with
    | false => cases msg <;> rfl
    | true => exact absurd ⟨rfl, rfl⟩ (h i)

/-! ## Error records -/

/-- The details at the other end. -/
def detailsArrived : Option ErrorDetails → Option ErrorDetails
  | none => none
  | some d => readDetails d.message d.action

/-- The stack trace at the other end. -/
def traceArrived : Option PyStr → Option PyStr
  | none => none
  | some t => if t = [] then none else some t

/-- The invocation info that is sent. -/
def ErrorRecord.sentInfo (r : ErrorRecord V) : Option (InvocationInfo V) :=
  if r.serializeExtendedInfo then r.invocationInfo else none

/-- What arrives of the invocation info. -/
def infoOfError (root : PyStr → PyStr) : Option (InvocationInfo V) → Except Err (Option (InvocationInfo V))
  | none => .ok none
  | some i => (infoArrived root i).map some

/-- The record at the other end. -/
def errorArrived (r : ErrorRecord V) (e : RecordException V) (n : Nat) (shown : PyStr)
    (info : Option (InvocationInfo V)) : ErrorRecord V where
  exception := .exception { e with remoteInfo := some r.invocationInfo }
  categoryInfo := ⟨some n, r.categoryInfo.activity, r.categoryInfo.reason, r.categoryInfo.targetName,
    r.categoryInfo.targetType, some shown⟩
  targetObject := r.targetObject
  fullyQualifiedErrorId := r.fullyQualifiedErrorId
  invocationInfo := info
  errorDetails := detailsArrived r.errorDetails
  pipelineIterationInfo := if r.sentInfo.isSome then r.pipelineIterationInfo else none
  scriptStackTrace := traceArrived r.scriptStackTrace
  serializeExtendedInfo := r.sentInfo.isSome

/-- The ten properties every error record has. -/
def errorHead (r : ErrorRecord V) (n : Nat) (shown : PyStr) : Notes V :=
  [(txt! "Exception", .ofException r.exception),
   (txt! "TargetObject", .ofValue r.targetObject),
   (txt! "FullyQualifiedErrorId", .ofStr r.fullyQualifiedErrorId),
   (txt! "InvocationInfo", .ofInfo r.invocationInfo),
   (txt! "ErrorCategory_Category", .int n),
   (txt! "ErrorCategory_Activity", .ofStr r.categoryInfo.activity),
   (txt! "ErrorCategory_Reason", .ofStr r.categoryInfo.reason),
   (txt! "ErrorCategory_TargetName", .ofStr r.categoryInfo.targetName),
   (txt! "ErrorCategory_TargetType", .ofStr r.categoryInfo.targetType),
   (txt! "ErrorCategory_Message", .str shown)]

theorem toRemoting_eq (r : ErrorRecord V) (n : Nat) (shown : PyStr) (hn : r.categoryInfo.category = some n)
    (hs : r.categoryInfo.shown = .ok shown) :
    r.toRemoting = .ok (errorHead r n shown ++ detailsNotes r.errorDetails ++
      traceNotes r.scriptStackTrace ++ extendedNotes r) := by
  unfold ErrorRecord.toRemoting
  rw [hn, hs]
  rfl

theorem detailsNotes_keys (d : Option ErrorDetails) :
    (detailsNotes d : Notes V).map Prod.fst = [] ∨
    (detailsNotes d : Notes V).map Prod.fst =
      [txt! "ErrorDetails_Message", txt! "ErrorDetails_RecommendedAction"] := by
  cases d
  · exact .inl rfl
  · exact .inr rfl

theorem traceNotes_keys (t : Option PyStr) :
    (traceNotes t : Notes V).map Prod.fst = [] ∨
    (traceNotes t : Notes V).map Prod.fst = [txt! "ErrorDetails_ScriptStackTrace"] := by
  cases t with
  | none => exact .inl rfl
  | some t =>
    by_cases h : t = []
    · subst h; exact .inl rfl
    · refine .inr ?_
      simp only [traceNotes, h, ↓reduceIte, List.map_cons, List.map_nil]

theorem details_lookup_none (d : Option ErrorDetails) {k : PyStr}
    (h : k ∉ [txt! "ErrorDetails_Message", txt! "ErrorDetails_RecommendedAction"]) :
    (detailsNotes d : Notes V).lookup k = none := by
  rcases detailsNotes_keys (V := V) d with e | e
  · exact lookup_none_of_keys e (by simp)
  · exact lookup_none_of_keys e h

theorem trace_lookup_none (t : Option PyStr) {k : PyStr}
    (h : k ∉ [txt! "ErrorDetails_ScriptStackTrace"]) : (traceNotes t : Notes V).lookup k = none := by
  rcases traceNotes_keys (V := V) t with e | e
  · exact lookup_none_of_keys e (by simp)
  · exact lookup_none_of_keys e h

/-- The names of the head. -/
def headNames : List PyStr :=
  [txt! "Exception", txt! "TargetObject", txt! "FullyQualifiedErrorId", txt! "InvocationInfo",
   txt! "ErrorCategory_Category", txt! "ErrorCategory_Activity", txt! "ErrorCategory_Reason",
   txt! "ErrorCategory_TargetName", txt! "ErrorCategory_TargetType", txt! "ErrorCategory_Message"]

theorem errorHead_keys (r : ErrorRecord V) (n : Nat) (shown : PyStr) :
    (errorHead r n shown).map Prod.fst = headNames := rfl

/-- Names behind the head, the details and the trace are found in what follows. -/
theorem extended_lookup (r : ErrorRecord V) (n : Nat) (shown : PyStr) {k : PyStr} (h1 : k ∉ headNames)
    (h2 : k ∉ [txt! "ErrorDetails_Message", txt! "ErrorDetails_RecommendedAction"])
    (h3 : k ∉ [txt! "ErrorDetails_ScriptStackTrace"]) :
    (errorHead r n shown ++ detailsNotes r.errorDetails ++ traceNotes r.scriptStackTrace ++
      extendedNotes r).lookup k = (extendedNotes r).lookup k := by
  rw [List.append_assoc, List.append_assoc, lookup_pre _ _ _ (lookup_none_of_keys (errorHead_keys r n shown) h1),
    lookup_pre _ _ _ (details_lookup_none _ h2), lookup_pre _ _ _ (trace_lookup_none _ h3)]

/-- Names of the details. -/
theorem details_lookup (r : ErrorRecord V) (n : Nat) (shown : PyStr) {k : PyStr} (h1 : k ∉ headNames)
    (h3 : k ∉ [txt! "ErrorDetails_ScriptStackTrace"]) (h4 : (extendedNotes r).lookup k = none) :
    (errorHead r n shown ++ detailsNotes r.errorDetails ++ traceNotes r.scriptStackTrace ++
      extendedNotes r).lookup k = (detailsNotes r.errorDetails).lookup k := by
  rw [List.append_assoc, List.append_assoc, lookup_pre _ _ _ (lookup_none_of_keys (errorHead_keys r n shown) h1),
    List.lookup_append, lookup_pre _ _ _ (trace_lookup_none _ h3), h4]
  cases (detailsNotes r.errorDetails : Notes V).lookup k <;> rfl

/-- The name of the stack trace. -/
theorem trace_lookup (r : ErrorRecord V) (n : Nat) (shown : PyStr) {k : PyStr} (h1 : k ∉ headNames)
    (h2 : k ∉ [txt! "ErrorDetails_Message", txt! "ErrorDetails_RecommendedAction"])
    (h4 : (extendedNotes r).lookup k = none) :
    (errorHead r n shown ++ detailsNotes r.errorDetails ++ traceNotes r.scriptStackTrace ++
      extendedNotes r).lookup k = (traceNotes r.scriptStackTrace).lookup k := by
  rw [List.append_assoc, List.append_assoc, lookup_pre _ _ _ (lookup_none_of_keys (errorHead_keys r n shown) h1),
    lookup_pre _ _ _ (details_lookup_none _ h2), List.lookup_append, h4]
  cases (traceNotes r.scriptStackTrace : Notes V).lookup k <;> rfl

/-- All names of the properties of invocations. -/
def allInfoNames : List PyStr :=
  infoNames ++ [txt! "InvocationInfo_PipelineIterationInfo", txt! "InvocationInfo_PSScriptRoot",
    txt! "InvocationInfo_PSCommandPath", txt! "InvocationInfo_PositionMessage"]

theorem infoNotes_keys (i : InvocationInfo V) : ∀ k ∈ (infoNotes i).map Prod.fst, k ∈ allInfoNames := by
  obtain ⟨a, b, e, c, d, f, g, m, h, j, k, l, p, q, s, t, u⟩ := i
  have h1 : ∀ k ∈ ((infoNotes (V := Unit) {}).map Prod.fst), k ∈ allInfoNames := by decide +kernel
  have h2 : ∀ k ∈ ((infoNotes (V := Unit) { myCommand := some {} }).map Prod.fst), k ∈ allInfoNames := by
    decide +kernel
  have h3 : ∀ k ∈ ((infoNotes (V := Unit) { displayScriptPosition := some ⟨{}, {}⟩ }).map Prod.fst),
      k ∈ allInfoNames := by decide +kernel
  have h4 : ∀ k ∈ ((infoNotes (V := Unit)
      { displayScriptPosition := some ⟨{}, {}⟩, myCommand := some {} }).map Prod.fst),
      k ∈ allInfoNames := by decide +kernel
  cases e with
  | none =>
    cases m with
    | none => exact h1
    | some m => exact h2
  | some e =>
    cases m with
    | none => exact h3
    | some m => exact h4

theorem infoNotes_lookup_none (i : InvocationInfo V) {k : PyStr} (hk : k ∉ allInfoNames) :
    (infoNotes i).lookup k = none :=
  lookup_none_of_keys rfl fun h => hk (infoNotes_keys i k h)

theorem extendedNotes_sent (r : ErrorRecord V) (i : InvocationInfo V) (h : r.sentInfo = some i) :
    extendedNotes r = [(txt! "SerializeExtendedInfo", .bool true)] ++ infoNotes i ++
      [(txt! "PipelineIterationInfo", .ofList r.pipelineIterationInfo)] := by
  obtain ⟨a, b, c, d, e, f, g, t, s⟩ := r
  cases s with
  | false => cases h
  | true => cases e with
    | none => cases h
    | some e => cases h; rfl

theorem extendedNotes_unsent (r : ErrorRecord V) (h : r.sentInfo = none) :
    extendedNotes r = [(txt! "SerializeExtendedInfo", .bool false)] := by
  obtain ⟨a, b, c, d, e, f, g, t, s⟩ := r
  cases s with
  | false => rfl
  | true => cases e with
    | none => rfl
    | some e => cases h

theorem extended_lookup_none (r : ErrorRecord V) {k : PyStr}
    (hk : k ∉ [txt! "SerializeExtendedInfo", txt! "PipelineIterationInfo"] ++ allInfoNames) :
    (extendedNotes r).lookup k = none := by
  rw [List.mem_append, not_or] at hk
  cases h : r.sentInfo with
  | none =>
    rw [extendedNotes_unsent r h]
    exact lookup_none_of_keys rfl fun hm => hk.1 (by
      simp only [List.map_cons, List.map_nil, List.mem_singleton] at hm
      subst hm; decide)
  | some i =>
    rw [extendedNotes_sent r i h, List.append_assoc, lookup_pre, lookup_pre, lookup_none_of_keys rfl]
    · intro hm
      simp only [List.map_cons, List.map_nil, List.mem_singleton] at hm
      subst hm; exact hk.1 (by decide)
    · exact infoNotes_lookup_none i hk.2
    · refine lookup_none_of_keys rfl fun hm => ?_
      simp only [List.map_cons, List.map_nil, List.mem_singleton] at hm
      subst hm; exact hk.1 (by decide)

theorem get_of_lookup {o : Notes V} {k : PyStr} {v : NoteVal V} (h : o.lookup k = some v) :
    o.get k = .ok v := by unfold Notes.get; rw [h]

theorem getD_of_lookup {o : Notes V} {k : PyStr} {v : NoteVal V} (h : o.lookup k = some v) :
    o.getD k = v := by unfold Notes.getD; rw [h]; rfl

theorem fromRemoting_eq (root : PyStr → PyStr) (r : ErrorRecord V) (n : Nat) (shown : PyStr) (hn : n < 32) :
    ErrorRecord.fromRemoting root (errorHead r n shown ++ detailsNotes r.errorDetails ++
      traceNotes r.scriptStackTrace ++ extendedNotes r) =
    match r.exception with
    | .exception e => (infoOfError root r.sentInfo).map (errorArrived r e n shown)
    | _ => .error .valueError := by
  generalize ho : errorHead r n shown ++ detailsNotes r.errorDetails ++
      traceNotes r.scriptStackTrace ++ extendedNotes r = o
  have hh : ∀ k v, (errorHead r n shown).lookup k = some v → o.lookup k = some v := by
    intro k v h
    subst ho
    rw [List.append_assoc, List.append_assoc]
    exact lookup_post _ _ _ _ h
  have a1 := get_of_lookup (hh (txt! "ErrorCategory_Category") (.int n) rfl)
  have a2 := get_of_lookup (hh (txt! "ErrorCategory_Activity") (.ofStr r.categoryInfo.activity) rfl)
  have a3 := get_of_lookup (hh (txt! "ErrorCategory_Reason") (.ofStr r.categoryInfo.reason) rfl)
  have a4 := get_of_lookup (hh (txt! "ErrorCategory_TargetName") (.ofStr r.categoryInfo.targetName) rfl)
  have a5 := get_of_lookup (hh (txt! "ErrorCategory_TargetType") (.ofStr r.categoryInfo.targetType) rfl)
  have a6 := get_of_lookup (hh (txt! "ErrorCategory_Message") (.ofStr (some shown)) rfl)
  have b1 := getD_of_lookup (hh (txt! "InvocationInfo") (.ofInfo r.invocationInfo) rfl)
  have b2 := getD_of_lookup (hh (txt! "Exception") (.ofException r.exception) rfl)
  have b3 := getD_of_lookup (hh (txt! "TargetObject") (.ofValue r.targetObject) rfl)
  have b4 := getD_of_lookup (hh (txt! "FullyQualifiedErrorId") (.ofStr r.fullyQualifiedErrorId) rfl)
  have c1 : o.getD (txt! "ErrorDetails_Message") = .ofStr (r.errorDetails.bind (·.message)) := by
    subst ho
    unfold Notes.getD
    rw [details_lookup r n shown (by decide) (by decide) (extended_lookup_none r (by decide +kernel))]
    cases r.errorDetails <;> rfl
  have c2 : o.getD (txt! "ErrorDetails_RecommendedAction") = .ofStr (r.errorDetails.bind (·.action)) := by
    subst ho
    unfold Notes.getD
    rw [details_lookup r n shown (by decide) (by decide) (extended_lookup_none r (by decide +kernel))]
    cases r.errorDetails <;> rfl
  have c3 : o.getD (txt! "ErrorDetails_ScriptStackTrace") = .ofStr (traceArrived r.scriptStackTrace) := by
    subst ho
    unfold Notes.getD
    rw [trace_lookup r n shown (by decide) (by decide) (extended_lookup_none r (by decide +kernel))]
    cases r.scriptStackTrace with
    | none => rfl
    | some t =>
      by_cases h : t = []
      · subst h; rfl
      · simp only [traceNotes, traceArrived, h, ↓reduceIte]; rfl
  have d1 : o.get (txt! "SerializeExtendedInfo") = .ok (.bool r.sentInfo.isSome) := by
    subst ho
    unfold Notes.get
    rw [extended_lookup r n shown (by decide) (by decide) (by decide)]
    cases h : r.sentInfo with
    | none => rw [extendedNotes_unsent r h]; rfl
    | some i => rw [extendedNotes_sent r i h]; rfl
  have d2 : ∀ i, r.sentInfo = some i →
      o.getD (txt! "PipelineIterationInfo") = .ofList r.pipelineIterationInfo := by
    intro i h
    subst ho
    unfold Notes.getD
    rw [extended_lookup r n shown (by decide) (by decide) (by decide), extendedNotes_sent r i h,
      List.append_assoc, lookup_pre _ _ _ rfl, lookup_pre _ _ _ (infoNotes_lookup_none i (by decide +kernel))]
    rfl
  have d3 : ∀ i, r.sentInfo = some i → readInfo root o = infoArrived root i := by
    intro i h
    subst ho
    refine (readInfo_same root ?_).trans (readInfo_notes root i)
    intro k hk
    rw [extended_lookup r n shown
      ((by decide +kernel : ∀ k ∈ infoNames, k ∉ headNames) k hk)
      ((by decide +kernel : ∀ k ∈ infoNames,
        k ∉ [txt! "ErrorDetails_Message", txt! "ErrorDetails_RecommendedAction"]) k hk)
      ((by decide +kernel : ∀ k ∈ infoNames, k ∉ [txt! "ErrorDetails_ScriptStackTrace"]) k hk),
      extendedNotes_sent r i h]
    exact sameNotes_around (names := infoNames) (ks := [txt! "SerializeExtendedInfo"])
      (ks' := [txt! "PipelineIterationInfo"]) rfl rfl (by decide +kernel) (by decide +kernel) k hk
  have hm : (NoteVal.int (n : Int) : NoteVal V).toMember 32 = .ok n := by
    have : (0 : Int) ≤ n ∧ (n : Int) < (32 : Nat) := by omega
    simp only [NoteVal.toMember, this, and_self, ↓reduceIte, Int.toNat_natCast]
  have hd : readDetails (r.errorDetails.bind (·.message)) (r.errorDetails.bind (·.action)) =
      detailsArrived r.errorDetails := by
    cases r.errorDetails <;> rfl
  simp only [ErrorRecord.fromRemoting, a1, a2, a3, a4, a5, a6, b1, b2, b3, b4, c1, c2, c3, d1, hm, hd, bind,
    Except.bind, NoteVal.toStr_ofStr, NoteVal.toInfo_ofInfo, NoteVal.toValue_ofValue, NoteVal.truth]
  cases hx : r.exception with
  | none => rfl
  | bool b => rfl
  | exception e =>
    cases h : r.sentInfo with
    | none =>
      simp [noteRemoteInfo, NoteVal.ofException, pure, Except.pure, infoOfError, Except.map, errorArrived, h]
    | some i =>
      simp only [noteRemoteInfo, NoteVal.ofException, Option.isSome_some, ↓reduceIte, d2 i h, d3 i h,
        NoteVal.toList_ofList, infoOfError]
      cases infoArrived root i <;> simp [Except.map, pure, Except.pure, errorArrived, h]

/-! ## What arrives of invocation infos -/

theorem memberArrived_some {n : Nat} (h : n < 2) : memberArrived (some n) = .ok n := if_pos h

theorem memberArrived_ok {x : Option Nat} {n : Nat} (h : memberArrived x = .ok n) : x = some n ∧ n < 2 := by
  cases x with
  | none => cases h
  | some m =>
    by_cases hm : m < 2
    · rw [memberArrived_some hm] at h; cases h; exact ⟨rfl, hm⟩
    · rw [show memberArrived (some m) = .error .valueError from if_neg hm] at h; cases h

theorem commandArrived_untyped {c : CommandInfo} (h : c.commandType.getD (some 32) = none) :
    commandArrived (some c) = .ok none := by
  simp only [commandArrived, h]

theorem commandArrived_typed {c : CommandInfo} {t : Nat} (h : c.commandType.getD (some 32) = some t)
    {v : Nat} (hv : memberArrived (c.visibility.getD (some 0)) = .ok v) :
    commandArrived (some c) = .ok (some ⟨some (some t), some (c.name.getD (some [])),
      some (c.definition.getD (some [])), some (some v)⟩) := by
  simp only [commandArrived, h, hv]

theorem commandArrived_failed {c : CommandInfo} {t : Nat} (h : c.commandType.getD (some 32) = some t)
    {e : Err} (hv : memberArrived (c.visibility.getD (some 0)) = .error e) :
    commandArrived (some c) = .error e := by
  simp only [commandArrived, h, hv]

theorem commandArrived_inv {c : CommandInfo} {d : Option CommandInfo}
    (h : commandArrived (some c) = .ok d) :
    (c.commandType = some none ∧ d = none) ∨
    ∃ t v, c.commandType.getD (some 32) = some t ∧ c.visibility.getD (some 0) = some v ∧ v < 2 ∧
      d = some ⟨some (some t), some (c.name.getD (some [])), some (c.definition.getD (some [])),
        some (some v)⟩ := by
  cases ht : c.commandType.getD (some 32) with
  | none =>
    rw [commandArrived_untyped ht] at h
    cases h
    refine .inl ⟨?_, rfl⟩
    cases ht' : c.commandType with
    | none => rw [ht'] at ht; cases ht
    | some t => rw [ht'] at ht; exact congrArg some ht
  | some t =>
    cases hv : memberArrived (c.visibility.getD (some 0)) with
    | error e => rw [commandArrived_failed ht hv] at h; cases h
    | ok v =>
      rw [commandArrived_typed ht hv] at h
      cases h
      exact .inr ⟨t, v, rfl, (memberArrived_ok hv).1, (memberArrived_ok hv).2, rfl⟩

theorem commandArrived_ok {c : Option CommandInfo} (hv : ∀ d n, c = some d → d.visibility = some (some n) → n < 2)
    (h : ∀ d, c = some d → d.commandType ≠ some none → d.visibility ≠ some none) :
    ∃ d, commandArrived c = .ok d := by
  cases c with
  | none => exact ⟨_, rfl⟩
  | some c =>
    obtain ⟨ty, nm, df, vs⟩ := c
    cases ht : ty.getD (some 32) with
    | none => exact ⟨_, commandArrived_untyped ht⟩
    | some t =>
      have hne : ty ≠ some none := by rintro rfl; cases ht
      have h1 := h _ rfl hne
      cases vs with
      | none => exact ⟨_, commandArrived_typed ht (v := 0) rfl⟩
      | some vs =>
        cases vs with
        | none => exact absurd rfl h1
        | some v => exact ⟨_, commandArrived_typed ht (memberArrived_some (hv _ v rfl rfl))⟩

theorem infoArrived_iff (root : PyStr → PyStr) (i : InvocationInfo V) (hv : i.Valid) :
    (∃ j, infoArrived root i = .ok j) ↔ i.Complete := by
  constructor
  · rintro ⟨j, hj⟩
    unfold infoArrived at hj
    split at hj
    · cases hj
    · rename_i c hc
      split at hj
      · cases hj
      · rename_i n hn
        refine ⟨by rw [(memberArrived_ok hn).1]; nofun, ?_⟩
        intro d hd hty hvs
        rw [hd] at hc
        rcases commandArrived_inv hc with ⟨h1, _⟩ | ⟨t, v, _, h2, _⟩
        · exact hty h1
        · rw [hvs] at h2; cases h2
  · rintro ⟨h1, h2⟩
    obtain ⟨d, hd⟩ := commandArrived_ok (c := i.myCommand) hv.2 h2
    unfold infoArrived
    rw [hd]
    cases ho : i.commandOrigin with
    | none => exact absurd ho h1
    | some n =>
      simp only [memberArrived_some (hv.1 n ho)]
      exact ⟨_, rfl⟩

theorem infoArrived_keeps (root : PyStr → PyStr) (i j : InvocationInfo V) (h : infoArrived root i = .ok j) :
    i.Keeps j := by
  unfold infoArrived at h
  split at h
  · cases h
  · rename_i c hc
    split at h
    · cases h
    · rename_i n hn
      cases h
      refine ⟨⟨(memberArrived_ok hn).1.symm, rfl, rfl, rfl, rfl, rfl, rfl, rfl, rfl, rfl, rfl, rfl⟩, ?_, ?_, ?_⟩
      · intro e he
        refine ⟨_, rfl, ?_⟩
        unfold placeArrived
        rw [he]
        exact ⟨rfl, rfl, rfl, rfl, rfl⟩
      · intro d hd hty
        rw [hd] at hc
        rcases commandArrived_inv hc with ⟨h1, _⟩ | ⟨t, v, h1, h2, _, h3⟩
        · exact absurd h1 hty
        · exact ⟨_, h3, congrArg some h1.symm, rfl, rfl, congrArg some h2.symm⟩
      · intro hd
        rw [hd] at hc
        cases hc
        rfl

/-- The info that arrives can be sent and read again. -/
theorem infoArrived_valid (root : PyStr → PyStr) (i j : InvocationInfo V) (h : infoArrived root i = .ok j) :
    j.Valid ∧ j.Complete := by
  unfold infoArrived at h
  split at h
  · cases h
  · rename_i c hc
    split at h
    · cases h
    · rename_i n hn
      cases h
      have hcmd : ∀ d, c = some d → ∃ v, d.visibility = some (some v) ∧ v < 2 := by
        intro d hd
        cases hm : i.myCommand with
        | none => rw [hm] at hc; cases hc; cases hd
        | some e =>
          rw [hm] at hc
          rcases commandArrived_inv hc with ⟨_, h1⟩ | ⟨t, v, _, _, h2, h3⟩
          · rw [h1] at hd; cases hd
          · rw [h3] at hd; cases hd; exact ⟨v, rfl, h2⟩
      refine ⟨⟨fun m hm => ?_, fun d m hd hm => ?_⟩, by nofun, fun d hd _ hm => ?_⟩
      · cases hm; exact (memberArrived_ok hn).2
      · obtain ⟨v, h1, h2⟩ := hcmd d hd
        rw [h1] at hm; cases hm; exact h2
      · obtain ⟨v, h1, h2⟩ := hcmd d hd
        rw [h1] at hm; cases hm

theorem settled_of_arrived (root : PyStr → PyStr) (i j : InvocationInfo V) (h : infoArrived root i = .ok j)
    (hp : (placeArrived root i).2 = ([], []))
    (he : (placeArrived root i).1.stop.file = (placeArrived root i).1.start.file ∧
      (placeArrived root i).1.start.text = some [] ∧ (placeArrived root i).1.stop.text = some []) :
    j.Settled := by
  unfold infoArrived at h
  split at h
  · cases h
  · rename_i c hc
    split at h
    · cases h
    · rename_i n hn
      cases h
      refine ⟨rfl, ?_, ?_, by nofun, by nofun, by nofun, ⟨_, rfl, he⟩, ?_⟩
      · show some (placeArrived root i).2.1 = _; rw [hp]
      · show some (placeArrived root i).2.2 = _; rw [hp]
      · intro d hd
        cases hm : i.myCommand with
        | none => rw [hm] at hc; cases hc; cases hd
        | some e =>
          rw [hm] at hc
          rcases commandArrived_inv hc with ⟨_, h1⟩ | ⟨t, v, _, _, h2, h3⟩
          · rw [h1] at hd; cases hd
          · rw [h3] at hd; cases hd; exact ⟨⟨_, rfl⟩, by nofun, by nofun, ⟨_, rfl⟩⟩

theorem placeArrived_extent (root : PyStr → PyStr) (i : InvocationInfo V) {e : ScriptExtent}
    (h : i.displayScriptPosition = some e) : placeArrived root i =
    (⟨⟨e.start.file, e.start.line, e.start.column, some []⟩,
      ⟨e.start.file, e.stop.line, e.stop.column, some []⟩⟩, [], []) := by
  simp only [placeArrived, h]

theorem placeArrived_none (root : PyStr → PyStr) (i : InvocationInfo V)
    (h : i.displayScriptPosition = none) : placeArrived root i =
    (lineExtent (i.scriptName.getD []) i.scriptLineNumber i.offsetInLine (i.line.getD []),
      i.scriptName.getD [], root (i.scriptName.getD [])) := by
  simp only [placeArrived, h]

/-- The info that arrives is settled if it came with an extent. -/
theorem settled_of_extent (root : PyStr → PyStr) (i j : InvocationInfo V) (h : infoArrived root i = .ok j)
    (hd : i.displayScriptPosition ≠ none) : j.Settled := by
  cases he : i.displayScriptPosition with
  | none => exact absurd he hd
  | some e =>
    refine settled_of_arrived root i j h ?_ ?_ <;> rw [placeArrived_extent root i he]
    exact ⟨rfl, rfl, rfl⟩

/-- Where the place of an arrived info comes from. -/
theorem infoArrived_place (root : PyStr → PyStr) (i j : InvocationInfo V) (h : infoArrived root i = .ok j) :
    j.displayScriptPosition = some (placeArrived root i).1 ∧
    j.psCommandPath = some (placeArrived root i).2.1 ∧ j.psScriptRoot = some (placeArrived root i).2.2 ∧
    j.positionMessage = none := by
  unfold infoArrived at h
  split at h
  · cases h
  · split at h
    · cases h
    · cases h; exact ⟨rfl, rfl, rfl, rfl⟩

/-- Settled infos are those that arrive as they are. -/
theorem infoArrived_settled (root : PyStr → PyStr) (i : InvocationInfo V) (hv : i.Valid) (hc : i.Complete) :
    infoArrived root i = .ok i ↔ i.Settled := by
  constructor
  · intro h
    have hpos : i.positionMessage = none ∧ i.displayScriptPosition ≠ none := by
      unfold infoArrived at h
      split at h
      · cases h
      · split at h
        · cases h
        · have := Except.ok.inj h
          exact ⟨by rw [← this], by rw [← this]; nofun⟩
    exact settled_of_extent root i i h hpos.2
  · intro h
    · obtain ⟨a, b, e, c, d, f, g, m, p, j, k, l, x, q, s, t, u⟩ := i
      obtain ⟨h1, h2, h3, h4, h5, h6, ⟨e', h7, h8, h9, h10⟩, h11⟩ := h
      dsimp only at h1 h2 h3 h4 h5 h6 h7 h11
      subst h1 h2 h3 h7
      obtain ⟨⟨f1, l1, c1, t1⟩, ⟨f2, l2, c2, t2⟩⟩ := e'
      dsimp only at h8 h9 h10
      subst h8 h9 h10
      cases g with
      | none => exact absurd rfl h4
      | some g =>
      cases a with
      | none => exact absurd rfl h5
      | some a =>
      cases u with
      | none => exact absurd rfl h6
      | some u =>
      cases b with
      | none => exact absurd rfl hc.1
      | some b =>
      have hb := memberArrived_some (hv.1 b rfl)
      have hm : commandArrived m = .ok m := by
        cases m with
        | none => rfl
        | some m =>
          obtain ⟨ty, nm, df, vs⟩ := m
          obtain ⟨⟨t', q1⟩, q2, q3, ⟨v, q4⟩⟩ := h11 _ rfl
          dsimp only at q1 q2 q3 q4
          subst q1 q4
          cases nm with
          | none => exact absurd rfl q2
          | some nm =>
          cases df with
          | none => exact absurd rfl q3
          | some df =>
          have := hv.2 _ v rfl rfl
          simp only [commandArrived, Option.getD_some, memberArrived_some this]
      unfold infoArrived
      dsimp only
      rw [hm, hb]
      rfl

/-- An info that arrives twice is settled. -/
theorem infoArrived_twice (root : PyStr → PyStr) (i j : InvocationInfo V) (h : infoArrived root i = .ok j) :
    ∃ k, infoArrived root j = .ok k ∧ k.Settled ∧ infoArrived root k = .ok k := by
  obtain ⟨hv, hc⟩ := infoArrived_valid root i j h
  obtain ⟨k, hk⟩ := (infoArrived_iff root j hv).2 hc
  have hs := settled_of_extent root j k hk (by rw [(infoArrived_place root i j h).1]; nofun)
  obtain ⟨hv', hc'⟩ := infoArrived_valid root j k hk
  exact ⟨k, hk, hs, (infoArrived_settled root k hv' hc').2 hs⟩

/-! ## Sending -/

theorem text_iff (e : ScriptExtent) : (∃ t, e.text = .ok t) ↔ e.Measurable := by
  obtain ⟨⟨f1, l1, c1, t1⟩, ⟨f2, l2, c2, t2⟩⟩ := e
  unfold ScriptExtent.text ScriptExtent.Measurable
  cases c2 with
  | none => exact ⟨fun ⟨_, h⟩ => (by cases h), fun ⟨_, h, _⟩ => (by cases h)⟩
  | some stop =>
    by_cases h1 : stop < 1
    · simp only [h1, ↓reduceIte]
      refine ⟨fun _ => ⟨stop, rfl, fun h => absurd h (by omega)⟩, fun _ => ⟨_, rfl⟩⟩
    · simp only [h1, ↓reduceIte]
      have h2 : 1 ≤ stop := by omega
      by_cases hl : l1 = l2
      · simp only [hl, ↓reduceIte]
        cases t1 <;> cases c1 <;> simp [h2]
      · simp only [hl, ↓reduceIte]
        cases t1 <;> cases t2 <;> simp [h2, hl]

theorem infoSerializable_iff (i : Option (InvocationInfo V)) :
    infoSerializable i = .ok () ↔
      ∀ j e, i = some j → j.displayScriptPosition = some e → e.Measurable := by
  cases i with
  | none => exact ⟨fun _ _ _ h => (by cases h), fun _ => rfl⟩
  | some i =>
    cases he : i.displayScriptPosition with
    | none =>
      refine ⟨fun _ j e hj h => ?_, fun _ => by simp only [infoSerializable, he]⟩
      cases hj; rw [he] at h; cases h
    | some e =>
      simp only [infoSerializable, he]
      constructor
      · intro h j e' hj h'
        cases hj
        rw [he] at h'
        cases h'
        rw [← text_iff]
        cases ht : e.text with
        | error x => rw [ht] at h; cases h
        | ok t => exact ⟨t, rfl⟩
      · intro h
        obtain ⟨t, ht⟩ := (text_iff e).2 (h i e rfl he)
        rw [ht]; rfl

theorem shown_iff (r : ErrorRecord V) : (∃ t, r.shown = .ok t) ↔ r.Showable := by
  obtain ⟨x, b, c, d, e, f, g, t, s⟩ := r
  have hx : (∃ t, ExceptionSlot.shown x = .ok t) ↔ ∃ e m, x = .exception e ∧ e.message = some (some m) := by
    cases x with
    | none => exact ⟨fun ⟨_, h⟩ => (by cases h), fun ⟨_, _, h, _⟩ => (by cases h)⟩
    | bool _ => exact ⟨fun ⟨_, h⟩ => (by cases h), fun ⟨_, _, h, _⟩ => (by cases h)⟩
    | exception e =>
      obtain ⟨v, m, ri⟩ := e
      constructor
      · rintro ⟨t, h⟩
        cases m with
        | none => cases h
        | some m => cases m with
          | none => cases h
          | some m => exact ⟨_, m, rfl, rfl⟩
      · rintro ⟨e', m', h, hm⟩
        cases h
        dsimp only at hm
        subst hm
        exact ⟨m', rfl⟩
  unfold ErrorRecord.Showable
  cases f with
  | none =>
    refine hx.trans ⟨.inr, ?_⟩
    rintro (⟨d, h, _⟩ | h)
    · cases h
    · exact h
  | some d =>
    obtain ⟨m, a⟩ := d
    cases m with
    | none =>
      refine hx.trans ⟨.inr, ?_⟩
      rintro (⟨d, h, ⟨_, h', _⟩⟩ | h)
      · cases h; cases h'
      · exact h
    | some m =>
      by_cases hm : m = []
      · subst hm
        refine hx.trans ⟨.inr, ?_⟩
        rintro (⟨d, h, ⟨_, h', h''⟩⟩ | h)
        · cases h; cases h'; exact absurd rfl h''
        · exact h
      · have : ErrorRecord.shown (V := V) ⟨x, b, c, d, e, some ⟨some m, a⟩, g, t, s⟩ = .ok m := by
          simp only [ErrorRecord.shown, hm, ↓reduceIte]
        rw [this]
        exact ⟨fun _ => .inl ⟨_, rfl, m, rfl, hm⟩, fun _ => ⟨m, rfl⟩⟩

/-- The text of a category. -/
def categoryText (c : ErrorCategoryInfo) (n : Nat) : PyStr :=
  errorCategories.getD n [] ++ txt! " (" ++ c.targetName.getD [] ++ txt! ":" ++
    c.targetType.getD [] ++ txt! ") [" ++ c.activity.getD [] ++ txt! "], " ++ c.reason.getD []

theorem categoryShown (c : ErrorCategoryInfo) (n : Nat) (h : c.category = some n) :
    c.shown = .ok (categoryText c n) := by
  unfold ErrorCategoryInfo.shown
  rw [h]
  rfl

theorem send_ok (r : ErrorRecord V) (n : Nat) (hn : r.categoryInfo.category = some n) (hs : r.Showable)
    (hi : ∀ i e, r.invocationInfo = some i → i.displayScriptPosition = some e → e.Measurable) :
    r.send = .ok (errorHead r n (categoryText r.categoryInfo n) ++ detailsNotes r.errorDetails ++
      traceNotes r.scriptStackTrace ++ extendedNotes r) := by
  obtain ⟨t, ht⟩ := (shown_iff r).2 hs
  unfold ErrorRecord.send
  rw [toRemoting_eq r n _ hn (categoryShown _ n hn), ht, (infoSerializable_iff _).2 hi]
  rfl

theorem send_inv (r : ErrorRecord V) (o : Notes V) (h : r.send = .ok o) :
    ∃ n, r.categoryInfo.category = some n ∧ r.Showable ∧
      ∀ i e, r.invocationInfo = some i → i.displayScriptPosition = some e → e.Measurable := by
  cases hc : r.categoryInfo.category with
  | none =>
    have : r.toRemoting = .error .attributeError := by
      unfold ErrorRecord.toRemoting; rw [hc]
    unfold ErrorRecord.send at h
    rw [this] at h
    cases h
  | some n =>
    unfold ErrorRecord.send at h
    rw [toRemoting_eq r n _ hc (categoryShown _ n hc)] at h
    cases hs : r.shown with
    | error e => rw [hs] at h; cases h
    | ok t =>
      rw [hs] at h
      cases hi : infoSerializable r.invocationInfo with
      | error e => rw [hi] at h; cases h
      | ok u => exact ⟨n, rfl, (shown_iff r).1 ⟨t, hs⟩, (infoSerializable_iff _).1 hi⟩

/-- All that is needed for an error record to arrive, and what arrives. -/
theorem trip_ok (root : PyStr → PyStr) (r : ErrorRecord V) (n : Nat) (e : RecordException V)
    (info : Option (InvocationInfo V))
    (hn : r.categoryInfo.category = some n) (hlt : n < 32) (hs : r.Showable)
    (hi : ∀ i e, r.invocationInfo = some i → i.displayScriptPosition = some e → e.Measurable)
    (he : r.exception = .exception e) (hinfo : infoOfError root r.sentInfo = .ok info) :
    r.trip root = .ok (errorArrived r e n (categoryText r.categoryInfo n) info) := by
  unfold ErrorRecord.trip
  rw [send_ok r n hn hs hi]
  simp only
  rw [fromRemoting_eq root r n _ hlt, he]
  simp only
  rw [hinfo]
  rfl

theorem trip_inv (root : PyStr → PyStr) (r r' : ErrorRecord V) (hv : r.Valid) (h : r.trip root = .ok r') :
    ∃ n e info, r.categoryInfo.category = some n ∧ n < 32 ∧ r.Showable ∧
      (∀ i e, r.invocationInfo = some i → i.displayScriptPosition = some e → e.Measurable) ∧
      r.exception = .exception e ∧ infoOfError root r.sentInfo = .ok info ∧
      r' = errorArrived r e n (categoryText r.categoryInfo n) info := by
  unfold ErrorRecord.trip at h
  cases hsend : r.send with
  | error e => rw [hsend] at h; cases h
  | ok o =>
    obtain ⟨n, h1, h2, h3⟩ := send_inv r o hsend
    have hlt := hv.1 n h1
    rw [send_ok r n h1 h2 h3] at h
    simp only at h
    rw [fromRemoting_eq root r n _ hlt] at h
    cases he : r.exception with
    | none => rw [he] at h; cases h
    | bool b => rw [he] at h; cases h
    | exception e =>
      rw [he] at h
      simp only at h
      cases hi : infoOfError root r.sentInfo with
      | error x => rw [hi] at h; cases h
      | ok info =>
        rw [hi] at h
        exact ⟨n, e, info, h1, hlt, h2, h3, rfl, rfl, (Except.ok.inj h).symm⟩

/-! ## What a peer is sent -/

theorem infoNotes_holds (i : InvocationInfo V) : HoldsInfo (infoNotes i) i := by
  obtain ⟨a, b, e, c, d, f, g, m, h, j, k, l, p, q, s, t, u⟩ := i
  cases e <;> constructor
  all_goals first
    | rfl
    | (intro _ he; cases he; done)
    | (intro _ he; cases he; exact ⟨rfl, rfl, rfl, rfl, rfl⟩)

theorem HoldsInfo.of_same {o q : Notes V} {i : InvocationInfo V} (hs : SameNotes allInfoNames o q)
    (h : HoldsInfo q i) : HoldsInfo o i where
  bound := (hs _ (by decide)).trans h.bound
  origin := (hs _ (by decide)).trans h.origin
  expecting := (hs _ (by decide)).trans h.expecting
  name := (hs _ (by decide)).trans h.name
  line := (hs _ (by decide)).trans h.line
  offset := (hs _ (by decide)).trans h.offset
  history := (hs _ (by decide)).trans h.history
  length := (hs _ (by decide)).trans h.length
  place := (hs _ (by decide)).trans h.place
  root := (hs _ (by decide)).trans h.root
  path := (hs _ (by decide)).trans h.path
  message := (hs _ (by decide)).trans h.message
  lineNumber := (hs _ (by decide)).trans h.lineNumber
  script := (hs _ (by decide)).trans h.script
  unbound := (hs _ (by decide)).trans h.unbound
  flag := (hs _ (by decide)).trans h.flag
  extent := fun e he => by
    obtain ⟨h1, h2, h3, h4, h5⟩ := h.extent e he
    exact ⟨(hs _ (by decide)).trans h1, (hs _ (by decide)).trans h2, (hs _ (by decide)).trans h3,
      (hs _ (by decide)).trans h4, (hs _ (by decide)).trans h5⟩

theorem informational_holds (r : InformationalRecord V) (i : InvocationInfo V) (h : r.Sends i) :
    HoldsInfo r.toRemoting i := by
  obtain ⟨msg, info, it, s⟩ := r
  obtain ⟨rfl, rfl⟩ := h
  exact .of_same (sameNotes_around
      (pre := [(txt! "InformationalRecord_Message", .ofStr msg),
        (txt! "InformationalRecord_SerializeInvocationInfo", .bool true)])
      (post := [(txt! "InformationalRecord_PipelineIterationInfo", .ofList it)])
      (ks := [txt! "InformationalRecord_Message", txt! "InformationalRecord_SerializeInvocationInfo"])
      (ks' := [txt! "InformationalRecord_PipelineIterationInfo"]) rfl rfl
      (by decide +kernel) (by decide +kernel)) (infoNotes_holds i)

theorem error_holds (r : ErrorRecord V) (i : InvocationInfo V) (o : Notes V) (hi : r.sentInfo = some i)
    (h : r.toRemoting = .ok o) : HoldsInfo o i := by
  cases hc : r.categoryInfo.category with
  | none => unfold ErrorRecord.toRemoting at h; rw [hc] at h; cases h
  | some n =>
    cases hs : r.categoryInfo.shown with
    | error e => unfold ErrorRecord.toRemoting at h; rw [hc, hs] at h; cases h
    | ok shown =>
      rw [toRemoting_eq r n shown hc hs] at h
      cases h
      refine .of_same (fun k hk => ?_) (infoNotes_holds i)
      have hn : ∀ k ∈ allInfoNames, k ∉ headNames ∧
          k ∉ [txt! "ErrorDetails_Message", txt! "ErrorDetails_RecommendedAction"] ∧
          k ∉ [txt! "ErrorDetails_ScriptStackTrace"] := by decide +kernel
      obtain ⟨h1, h2, h3⟩ := hn k hk
      rw [extended_lookup r n shown h1 h2 h3, extendedNotes_sent r i hi]
      exact sameNotes_around (ks := [txt! "SerializeExtendedInfo"]) (ks' := [txt! "PipelineIterationInfo"]) rfl rfl
        (by decide +kernel) (by decide +kernel) k hk

end Verif
