import Verif.Spec.Events
import Verif.Proof.Wire
import Verif.Proof.SerializerCheck
import Verif.Proof.Crypto
import Verif.Proof.Ints

/-! # Lemmas about messages and events -/

namespace Verif

/-! ## The properties of a message -/

/-- The values of a shape. -/
def Shape.values : Shape → List PVal
  | endOfInput => []
  | value v => [v]
  | notes _ ps => ps.map Prod.snd

theorem bind_ok {α β : Type} {x : Except Err α} {f : α → Except Err β} {y : β} :
    (x >>= f) = .ok y ↔ ∃ a, x = .ok a ∧ f a = .ok y := by
  cases x with
  | error e =>
    constructor
    · intro h; cases h
    · rintro ⟨_, h, _⟩; cases h
  | ok a =>
    constructor
    · intro h; exact ⟨a, rfl, h⟩
    · rintro ⟨_, h, h'⟩; cases h; exact h'

theorem intNote_ok {k : IntKind} {v : Int} {p : PVal} : intNote k v = .ok p ↔ k.InRange v ∧ p = .prim (.int k v) := by
  rw [IntKind.inRange_iff]
  unfold intNote IntKind.new
  dsimp only
  by_cases h : v < k.minValue ∨ v > k.maxValue
  · rw [if_pos h]
    refine ⟨fun h => (by cases h), fun h' => ?_⟩
    omega
  · rw [if_neg h]
    constructor
    · intro e
      cases e
      exact ⟨by omega, rfl⟩
    · rintro ⟨_, rfl⟩
      rfl

theorem intNote?_ok {k : IntKind} {v : Option Int} {p : PVal} : intNote? k v = .ok p ↔
    (∀ n, v = some n → k.InRange n) ∧ p = match v with
      | none => .nil
      | some n => .prim (.int k n) := by
  cases v with
  | none =>
    constructor
    · intro h; cases h; exact ⟨by simp, rfl⟩
    · rintro ⟨_, rfl⟩; rfl
  | some n =>
    unfold intNote?
    dsimp only
    rw [intNote_ok]
    simp

/-- What a value of a shape is that is not an object of the caller. -/
def Own (E : TextEnv) (v : PVal) : Prop := v.IsPlain ∧ v.Ok E ∧ v.XmlOk E

theorem own_int (E : TextEnv) {k : IntKind} {v : Int} (h : k.InRange v) : Own E (.prim (.int k v)) := ⟨trivial, h, trivial⟩

theorem own_nil (E : TextEnv) : Own E .nil := ⟨trivial, trivial, trivial⟩

theorem own_bool (E : TextEnv) (b : Bool) : Own E (.bool b) := ⟨trivial, trivial, trivial⟩

theorem own_text (E : TextEnv) {l : List (Option PyStr)} (h : TextsOk l) {t : Option PyStr} (ht : t ∈ l) : Own E (textNote t) := by
  cases t with
  | none => exact own_nil E
  | some s => exact ⟨trivial, (h s ht).1, (h s ht).2⟩

theorem own_date (E : TextEnv) {t : Option DateFields} (h : TimeOk E t) : Own E (dateNote t) := by
  cases t with
  | none => exact own_nil E
  | some s => exact ⟨trivial, h s rfl⟩

theorem own_int? (E : TextEnv) {k : IntKind} {v : Option Int} {p : PVal} (h : intNote? k v = .ok p) : Own E p := by
  obtain ⟨h1, rfl⟩ := intNote?_ok.mp h
  cases v with
  | none => exact own_nil E
  | some n => exact own_int E (h1 n rfl)

theorem b64_low (b : Bytes) : ∀ c ∈ b64encode b, c < 0x5F00 := by
  intro c hc
  have := b64_text b c hc
  omega

theorem own_b64 (E : TextEnv) (b : Bytes) : Own E (.prim (.str .string (b64encode b))) :=
  ⟨trivial, textOk_low (b64_low b), escapable_ascii (asciiLine_b64 b)⟩

theorem own_empty (E : TextEnv) : Own E (.prim (.str .string [])) :=
  ⟨trivial, textOk_low (by simp), escapable_ascii (fun _ h => by simp at h)⟩

theorem own_limit (E : TextEnv) {name : PyStr} {v : Option Int} {ps : List (PyStr × PVal)} (h : limitNote name v = .ok ps) :
    ∀ q ∈ ps, q.1 = name ∧ Own E q.2 := by
  cases v with
  | none => cases h; simp
  | some n =>
    unfold limitNote at h
    cases e : intNote .psInt n with
    | error _ => simp only [e] at h; cases h
    | ok p =>
      simp only [e, Except.ok.injEq] at h
      obtain ⟨h1, rfl⟩ := intNote_ok.mp e
      subst h
      intro q hq
      split at hq
      · simp at hq
      · simp only [List.mem_singleton] at hq
        subst hq
        exact ⟨rfl, own_int E h1⟩

theorem mem_given {name : PyStr} {v : PVal} {q : PyStr × PVal} (h : q ∈ givenNote name v) : q = (name, v) := by
  unfold givenNote at h
  split at h
  · simp at h
  · simpa using h

/-- The values of a message are the objects of the caller, and values that come back. -/
theorem shape_values {E : TextEnv} {H : Heap} {l : Letter} {sh : Shape} (h : l.shape = .ok sh) (f : l.FieldsOk E H) :
    ∀ v ∈ sh.values, v ∈ l.objects ∨ Own E v := by
  cases l <;> simp only [Letter.shape, bind_ok, intNote_ok, Except.ok.injEq] at h
  case sessionCapability a b c t =>
    subst h
    intro v hv
    refine .inr ?_
    have hw : v ∈ [PVal.prim (.version a), .prim (.version b), .prim (.version c)] ∨ ∃ b, v = .prim (.bytes b) := by
      simp only [Shape.values, List.map_append, List.mem_append] at hv
      rcases hv with hv | hv
      · exact .inl hv
      · rcases t with _ | _ | ⟨t, ts⟩
        · simp at hv
        · simp at hv
        · simp only [List.map_cons, List.map_nil, List.mem_singleton] at hv
          exact .inr ⟨_, hv⟩
    rcases hw with hw | ⟨b, rfl⟩
    · simp only [List.mem_cons, List.not_mem_nil, or_false] at hw
      rcases hw with rfl | rfl | rfl
      · exact ⟨trivial, f a (by simp), trivial⟩
      · exact ⟨trivial, f b (by simp), trivial⟩
      · exact ⟨trivial, f c (by simp), trivial⟩
    · exact ⟨trivial, trivial, trivial⟩
  case initRunspacePool =>
    obtain ⟨_, ⟨h1, rfl⟩, _, ⟨h2, rfl⟩, rfl⟩ := h
    intro v hv
    simp only [Shape.values, List.map_cons, List.map_nil, List.mem_cons, List.not_mem_nil, or_false] at hv
    rcases hv with rfl | rfl | hv
    · exact .inr (own_int E h1)
    · exact .inr (own_int E h2)
    · exact .inl (by simpa [Letter.objects] using hv)
  case publicKey k =>
    subst h
    intro v hv
    simp only [Shape.values, List.map_cons, List.map_nil, List.mem_singleton] at hv
    subst hv
    exact .inr (own_b64 E k)
  case encryptedSessionKey k =>
    subst h
    intro v hv
    simp only [Shape.values, List.map_cons, List.map_nil, List.mem_singleton] at hv
    subst hv
    exact .inr (own_b64 E k)
  case publicKeyRequest =>
    subst h
    intro v hv
    simp only [Shape.values, List.mem_singleton] at hv
    subst hv
    exact .inr (own_empty E)
  case setMaxRunspaces =>
    obtain ⟨_, ⟨h1, rfl⟩, _, ⟨h2, rfl⟩, rfl⟩ := h
    intro v hv
    simp only [Shape.values, List.map_cons, List.map_nil, List.mem_cons, List.not_mem_nil, or_false] at hv
    rcases hv with rfl | rfl
    · exact .inr (own_int E h1)
    · exact .inr (own_int E h2)
  case setMinRunspaces =>
    obtain ⟨_, ⟨h1, rfl⟩, _, ⟨h2, rfl⟩, rfl⟩ := h
    intro v hv
    simp only [Shape.values, List.map_cons, List.map_nil, List.mem_cons, List.not_mem_nil, or_false] at hv
    rcases hv with rfl | rfl
    · exact .inr (own_int E h1)
    · exact .inr (own_int E h2)
  case runspaceAvailability r ci =>
    obtain ⟨_, ⟨h1, rfl⟩, rfl⟩ := h
    intro v hv
    simp only [Shape.values, List.map_cons, List.map_nil, List.mem_cons, List.not_mem_nil, or_false] at hv
    rcases hv with rfl | rfl
    · cases r with
      | bool b => exact .inr (own_bool E b)
      | int n => exact .inr ⟨trivial, f, trivial⟩
    · exact .inr (own_int E h1)
  case runspacePoolState =>
    obtain ⟨_, ⟨h1, rfl⟩, rfl⟩ := h
    intro v hv
    obtain ⟨q, hq, rfl⟩ := List.mem_map.mp hv
    rcases List.mem_cons.mp hq with rfl | hq
    · exact .inr (own_int E h1)
    · rw [mem_given hq]; exact .inl (by simp [Letter.objects])
  case createPipeline =>
    subst h
    intro v hv
    simp only [Shape.values, List.map_cons, List.map_nil, List.mem_cons, List.not_mem_nil, or_false] at hv
    rcases hv with rfl | rfl | rfl | rfl | rfl | rfl | rfl
    · exact .inr (own_bool E _)
    · exact .inl (by simp [Letter.objects])
    · exact .inl (by simp [Letter.objects])
    · exact .inr (own_bool E _)
    · exact .inl (by simp [Letter.objects])
    · exact .inl (by simp [Letter.objects])
    · exact .inr (own_bool E _)
  case getAvailableRunspaces =>
    obtain ⟨_, ⟨h1, rfl⟩, rfl⟩ := h
    intro v hv
    simp only [Shape.values, List.map_cons, List.map_nil, List.mem_singleton] at hv
    subst hv
    exact .inr (own_int E h1)
  case userEvent i s t e a m c r =>
    obtain ⟨_, h1, rfl⟩ := h
    intro v hv
    simp only [Shape.values, List.map_cons, List.map_nil, List.mem_cons, List.not_mem_nil, or_false] at hv
    rcases hv with rfl | rfl | rfl | rfl | rfl | rfl | rfl | rfl
    · exact .inr (own_int? E h1)
    · exact .inr (own_text E f.1 (by simp))
    · exact .inr (own_date E f.2.1)
    · exact .inl (by simp [Letter.objects])
    · exact .inl (by simp [Letter.objects])
    · exact .inl (by simp [Letter.objects])
    · exact .inr (own_text E f.1 (by simp))
    · cases r with
      | none => exact .inr (own_nil E)
      | some g => exact .inr ⟨trivial, f.2.2 g rfl, trivial⟩
  case applicationPrivateData =>
    subst h
    intro v hv
    exact .inl hv
  case getCommandMetadata =>
    subst h
    intro v hv
    exact .inl hv
  case runspacePoolHostCall =>
    obtain ⟨_, ⟨h1, rfl⟩, rfl⟩ := h
    intro v hv
    simp only [Shape.values, List.map_cons, List.map_nil, List.mem_cons, List.not_mem_nil, or_false] at hv
    rcases hv with rfl | hv
    · exact .inr (own_int E h1)
    · exact .inl (by simpa [Letter.objects] using hv)
  case runspacePoolHostResponse =>
    obtain ⟨_, ⟨h1, rfl⟩, rfl⟩ := h
    intro v hv
    obtain ⟨q, hq, rfl⟩ := List.mem_map.mp hv
    simp only [List.mem_append, List.mem_cons, List.not_mem_nil, or_false] at hq
    rcases hq with ((rfl | rfl) | hq) | hq
    · exact .inr (own_int E h1)
    · exact .inl (by simp [Letter.objects])
    · rw [mem_given hq]; exact .inl (by simp [Letter.objects])
    · rw [mem_given hq]; exact .inl (by simp [Letter.objects])
  case pipelineInput =>
    subst h
    intro v hv
    exact .inl hv
  case endOfPipelineInput =>
    subst h
    intro v hv
    simp [Shape.values] at hv
  case pipelineOutput =>
    subst h
    intro v hv
    exact .inl hv
  case record =>
    subst h
    intro v hv
    exact .inl hv
  case pipelineState =>
    obtain ⟨_, ⟨h1, rfl⟩, rfl⟩ := h
    intro v hv
    obtain ⟨q, hq, rfl⟩ := List.mem_map.mp hv
    rcases List.mem_cons.mp hq with rfl | hq
    · exact .inr (own_int E h1)
    · rw [mem_given hq]; exact .inl (by simp [Letter.objects])
  case progressRecord =>
    obtain ⟨_, h1, _, h2, _, h3, _, h4, rfl⟩ := h
    intro v hv
    simp only [Shape.values, List.map_cons, List.map_nil, List.mem_cons, List.not_mem_nil, or_false] at hv
    rcases hv with rfl | rfl | rfl | rfl | rfl | rfl | rfl | rfl
    · exact .inr (own_text E f (by simp))
    · exact .inr (own_int? E h1)
    · exact .inr (own_text E f (by simp))
    · exact .inr (own_text E f (by simp))
    · exact .inr (own_int? E h2)
    · exact .inr (own_int? E h3)
    · exact .inl (by simp [Letter.objects])
    · exact .inr (own_int? E h4)
  case informationRecord =>
    obtain ⟨_, h1, _, h2, _, h3, rfl⟩ := h
    intro v hv
    simp only [Shape.values, List.map_cons, List.map_nil, List.mem_cons, List.not_mem_nil, or_false] at hv
    rcases hv with rfl | rfl | rfl | rfl | rfl | rfl | rfl | rfl | rfl
    · exact .inl (by simp [Letter.objects])
    · exact .inr (own_text E f.1 (by simp))
    · exact .inr (own_date E f.2)
    · exact .inl (by simp [Letter.objects])
    · exact .inr (own_text E f.1 (by simp))
    · exact .inr (own_text E f.1 (by simp))
    · exact .inr (own_int? E h1)
    · exact .inr (own_int? E h2)
    · exact .inr (own_int? E h3)
  case pipelineHostCall =>
    obtain ⟨_, ⟨h1, rfl⟩, rfl⟩ := h
    intro v hv
    simp only [Shape.values, List.map_cons, List.map_nil, List.mem_cons, List.not_mem_nil, or_false] at hv
    rcases hv with rfl | hv
    · exact .inr (own_int E h1)
    · exact .inl (by simpa [Letter.objects] using hv)
  case pipelineHostResponse =>
    obtain ⟨_, ⟨h1, rfl⟩, rfl⟩ := h
    intro v hv
    obtain ⟨q, hq, rfl⟩ := List.mem_map.mp hv
    simp only [List.mem_append, List.mem_cons, List.not_mem_nil, or_false] at hq
    rcases hq with ((rfl | rfl) | hq) | hq
    · exact .inr (own_int E h1)
    · exact .inl (by simp [Letter.objects])
    · rw [mem_given hq]; exact .inl (by simp [Letter.objects])
    · rw [mem_given hq]; exact .inl (by simp [Letter.objects])
  case connectRunspacePool =>
    obtain ⟨p1, h1, p2, h2, rfl⟩ := h
    intro v hv
    refine .inr ?_
    split at hv
    · simp only [Shape.values, List.mem_singleton] at hv
      subst hv
      exact own_empty E
    · obtain ⟨q, hq, rfl⟩ := List.mem_map.mp hv
      rcases List.mem_append.mp hq with hq | hq
      · exact (own_limit E h1 q hq).2
      · exact (own_limit E h2 q hq).2
  case runspacePoolInitData =>
    obtain ⟨_, ⟨h1, rfl⟩, _, ⟨h2, rfl⟩, rfl⟩ := h
    intro v hv
    simp only [Shape.values, List.map_cons, List.map_nil, List.mem_cons, List.not_mem_nil, or_false] at hv
    rcases hv with rfl | rfl
    · exact .inr (own_int E h1)
    · exact .inr (own_int E h2)
  case resetRunspaceState =>
    obtain ⟨_, ⟨h1, rfl⟩, rfl⟩ := h
    intro v hv
    simp only [Shape.values, List.map_cons, List.map_nil, List.mem_singleton] at hv
    subst hv
    exact .inr (own_int E h1)

/-- The names of the properties of a message, all that can be there. -/
def Letter.names : Letter → List PyStr
  | sessionCapability .. => [txt! "PSVersion", txt! "protocolversion", txt! "SerializationVersion", txt! "TimeZone"]
  | initRunspacePool .. => [txt! "MinRunspaces", txt! "MaxRunspaces", txt! "PSThreadOptions", txt! "ApartmentState", txt! "HostInfo",
      txt! "ApplicationArguments"]
  | publicKey _ => [txt! "PublicKey"]
  | encryptedSessionKey _ => [txt! "EncryptedSessionKey"]
  | publicKeyRequest => []
  | setMaxRunspaces .. => [txt! "MaxRunspaces", txt! "ci"]
  | setMinRunspaces .. => [txt! "MinRunspaces", txt! "ci"]
  | runspaceAvailability .. => [txt! "SetMinMaxRunspacesResponse", txt! "ci"]
  | runspacePoolState .. => [txt! "RunspaceState", txt! "ExceptionAsErrorRecord"]
  | createPipeline .. => [txt! "NoInput", txt! "ApartmentState", txt! "RemoteStreamOptions", txt! "AddToHistory", txt! "HostInfo",
      txt! "PowerShell", txt! "IsNested"]
  | getAvailableRunspaces _ => [txt! "ci"]
  | userEvent .. => [txt! "PSEventArgs.EventIdentifier", txt! "PSEventArgs.SourceIdentifier", txt! "PSEventArgs.TimeGenerated",
      txt! "PSEventArgs.Sender", txt! "PSEventArgs.SourceArgs", txt! "PSEventArgs.MessageData", txt! "PSEventArgs.ComputerName",
      txt! "PSEventArgs.RunspaceId"]
  | applicationPrivateData _ => [txt! "ApplicationPrivateData"]
  | getCommandMetadata .. => [txt! "Name", txt! "CommandType", txt! "Namespace", txt! "ArgumentList"]
  | runspacePoolHostCall .. => [txt! "ci", txt! "mi", txt! "mp"]
  | runspacePoolHostResponse .. => [txt! "ci", txt! "mi", txt! "mr", txt! "me"]
  | pipelineInput _ => []
  | endOfPipelineInput => []
  | pipelineOutput _ => []
  | record .. => []
  | pipelineState .. => [txt! "PipelineState", txt! "ExceptionAsErrorRecord"]
  | progressRecord .. => [txt! "Activity", txt! "ActivityId", txt! "StatusDescription", txt! "CurrentOperation", txt! "ParentActivityId",
      txt! "PercentComplete", txt! "Type", txt! "SecondsRemaining"]
  | informationRecord .. => [txt! "MessageData", txt! "Source", txt! "TimeGenerated", txt! "Tags", txt! "User", txt! "Computer",
      txt! "ProcessId", txt! "NativeThreadId", txt! "ManagedThreadId"]
  | pipelineHostCall .. => [txt! "ci", txt! "mi", txt! "mp"]
  | pipelineHostResponse .. => [txt! "ci", txt! "mi", txt! "mr", txt! "me"]
  | connectRunspacePool .. => [txt! "MinRunspaces", txt! "MaxRunspaces"]
  | runspacePoolInitData .. => [txt! "MinRunspaces", txt! "MaxRunspaces"]
  | resetRunspaceState _ => [txt! "ci"]

theorem names_ok (l : Letter) : l.names.Nodup ∧ ∀ n ∈ l.names, ∀ c ∈ n, 32 ≤ c ∧ c ≤ 126 := by
  cases l <;> dsimp only [Letter.names] <;> decide +kernel

theorem given_names (n : PyStr) (v : PVal) : ((givenNote n v).map Prod.fst).Sublist [n] := by
  unfold givenNote
  split
  · exact List.nil_sublist _
  · exact List.Sublist.refl _

theorem limit_names {n : PyStr} {v : Option Int} {ps : List (PyStr × PVal)} (h : limitNote n v = .ok ps) :
    (ps.map Prod.fst).Sublist [n] := by
  cases v with
  | none => cases h; exact List.nil_sublist _
  | some v =>
    unfold limitNote at h
    cases e : intNote .psInt v with
    | error _ => simp only [e] at h; cases h
    | ok p =>
      simp only [e, Except.ok.injEq] at h
      subst h
      split
      · exact List.nil_sublist _
      · exact List.Sublist.refl _

theorem shape_names {l : Letter} {ts : List PyStr} {ps : List (PyStr × PVal)} (h : l.shape = .ok (.notes ts ps)) :
    (ps.map Prod.fst).Sublist l.names ∧ (ts = [] ∨ ts = objectTypes) := by
  cases l <;> simp only [Letter.shape, bind_ok, intNote_ok, Except.ok.injEq, Shape.notes.injEq, reduceCtorEq] at h
  case sessionCapability a b c t =>
    obtain ⟨rfl, rfl⟩ := h
    refine ⟨?_, .inr rfl⟩
    rcases t with _ | _ | ⟨t, ts⟩
    · exact .cons_cons _ (.cons_cons _ (.cons_cons _ (.cons _ .slnil)))
    · exact .cons_cons _ (.cons_cons _ (.cons_cons _ (.cons _ .slnil)))
    · exact List.Sublist.refl _
  case initRunspacePool => obtain ⟨_, _, _, _, rfl, rfl⟩ := h; exact ⟨List.Sublist.refl _, .inl rfl⟩
  case publicKey => obtain ⟨rfl, rfl⟩ := h; exact ⟨List.Sublist.refl _, .inl rfl⟩
  case encryptedSessionKey => obtain ⟨rfl, rfl⟩ := h; exact ⟨List.Sublist.refl _, .inl rfl⟩
  case setMaxRunspaces => obtain ⟨_, _, _, _, rfl, rfl⟩ := h; exact ⟨List.Sublist.refl _, .inl rfl⟩
  case setMinRunspaces => obtain ⟨_, _, _, _, rfl, rfl⟩ := h; exact ⟨List.Sublist.refl _, .inl rfl⟩
  case runspaceAvailability => obtain ⟨_, _, rfl, rfl⟩ := h; exact ⟨List.Sublist.refl _, .inl rfl⟩
  case runspacePoolState => obtain ⟨_, _, rfl, rfl⟩ := h; exact ⟨.cons_cons _ (given_names _ _), .inr rfl⟩
  case createPipeline => obtain ⟨rfl, rfl⟩ := h; exact ⟨List.Sublist.refl _, .inl rfl⟩
  case getAvailableRunspaces => obtain ⟨_, _, rfl, rfl⟩ := h; exact ⟨List.Sublist.refl _, .inl rfl⟩
  case userEvent => obtain ⟨_, _, rfl, rfl⟩ := h; exact ⟨List.Sublist.refl _, .inr rfl⟩
  case applicationPrivateData => obtain ⟨rfl, rfl⟩ := h; exact ⟨List.Sublist.refl _, .inl rfl⟩
  case getCommandMetadata => obtain ⟨rfl, rfl⟩ := h; exact ⟨List.Sublist.refl _, .inl rfl⟩
  case runspacePoolHostCall => obtain ⟨_, _, rfl, rfl⟩ := h; exact ⟨List.Sublist.refl _, .inl rfl⟩
  case runspacePoolHostResponse =>
    obtain ⟨_, _, rfl, rfl⟩ := h
    refine ⟨?_, .inr rfl⟩
    rw [List.map_append, List.map_append]
    exact .cons_cons _ (.cons_cons _ ((given_names _ _).append (given_names _ _)))
  case pipelineState => obtain ⟨_, _, rfl, rfl⟩ := h; exact ⟨.cons_cons _ (given_names _ _), .inr rfl⟩
  case progressRecord => obtain ⟨_, _, _, _, _, _, _, _, rfl, rfl⟩ := h; exact ⟨List.Sublist.refl _, .inl rfl⟩
  case informationRecord => obtain ⟨_, _, _, _, _, _, rfl, rfl⟩ := h; exact ⟨List.Sublist.refl _, .inl rfl⟩
  case pipelineHostCall => obtain ⟨_, _, rfl, rfl⟩ := h; exact ⟨List.Sublist.refl _, .inl rfl⟩
  case pipelineHostResponse =>
    obtain ⟨_, _, rfl, rfl⟩ := h
    refine ⟨?_, .inr rfl⟩
    rw [List.map_append, List.map_append]
    exact .cons_cons _ (.cons_cons _ ((given_names _ _).append (given_names _ _)))
  case connectRunspacePool =>
    obtain ⟨p1, h1, p2, h2, h⟩ := h
    split at h
    · cases h
    · simp only [Shape.notes.injEq] at h
      obtain ⟨rfl, rfl⟩ := h
      rw [List.map_append]
      exact ⟨(limit_names h1).append (limit_names h2), .inr rfl⟩
  case runspacePoolInitData => obtain ⟨_, _, _, _, rfl, rfl⟩ := h; exact ⟨List.Sublist.refl _, .inl rfl⟩
  case resetRunspaceState => obtain ⟨_, _, rfl, rfl⟩ := h; exact ⟨List.Sublist.refl _, .inl rfl⟩

/-- There is no class for the object of a message. -/
theorem shape_plain {L : Lib} (hL : L.NoObject) {ts : List PyStr} (ht : ts = [] ∨ ts = objectTypes) {k : Nat} {ps : List (PyStr × PVal)} :
    resultClass L { key := some k, types := ts, extended := ps } = none := by
  have hplain : L.reg.rehydrate ts = .plain (ts.map ((txt! "Deserialized.") ++ ·)) := by
    rcases ht with rfl | rfl
    · rfl
    · show (if (txt! "System.Object") = [] then Rehydrated.plain (objectTypes.map ((txt! "Deserialized.") ++ ·)) else
        match L.reg.types.get? (txt! "System.Object") with
        | some c => Rehydrated.instance_ c
        | none => .plain (objectTypes.map ((txt! "Deserialized.") ++ ·))) = _
      rw [if_neg (by decide), hL]
  unfold resultClass
  simp only [hplain]

/-! ## The graph of a message -/

theorem put_self (H : Heap) (a : Nat) (o : PObj) : H.put a o a = o := if_pos rfl

theorem put_other {H : Heap} {a b : Nat} {o : PObj} (h : b ≠ a) : H.put a o b = H b := if_neg h

/-- From the new object one comes to the caller's objects and to itself. -/
theorem reach_put {H : Heap} {a : Nat} {o : PObj} {roots : List PVal} (fresh : ∀ b, Reach H roots b → b ≠ a)
    (vals : ∀ b, PVal.ref b ∈ o.values → PVal.ref b ∈ roots) {b : Nat} (h : Reach (H.put a o) [.ref a] b) :
    b = a ∨ Reach H roots b := by
  induction h with
  | root h =>
    simp only [List.mem_singleton, PVal.ref.injEq] at h
    exact .inl h
  | step _ hb ih =>
    rcases ih with rfl | hr
    · rw [put_self] at hb
      exact .inr (.root (vals _ hb))
    · rw [put_other (fresh _ hr)] at hb
      exact .inr (.step hr hb)

theorem shape_sendable {E : TextEnv} {L : Lib} (hL : L.NoObject) {p : Post} (ok : p.Ok E L) {sh : Shape}
    (h : p.letter.shape = .ok sh) : Sendable E L p.letter.type (sh.outgoing p.heap p.addr p.key) := by
  have hv := shape_values h ok.fields
  cases sh with
  | endOfInput =>
    generalize p.letter = l at h
    cases l <;> simp only [Letter.shape, bind_ok, intNote_ok, Except.ok.injEq, reduceCtorEq, and_false, exists_false] at h
    · rfl
    · obtain ⟨_, _, _, _, h⟩ := h
      split at h <;> cases h
  | value v =>
    have hg : v ∈ p.letter.objects ∨ Own E v := hv v (by simp [Shape.values])
    have hr : ∀ {b}, Reach p.heap [v] b → Reach p.heap p.letter.objects b := by
      intro b hb
      induction hb with
      | root h =>
        simp only [List.mem_singleton] at h
        subst h
        exact hg.elim .root fun o => o.1.elim
      | step _ hb ih => exact .step ih hb
    refine ⟨?_, ?_, ⟨?_, ?_, ?_, ?_⟩, ⟨?_, ?_⟩⟩
    · rintro rfl
      have hf := ok.fields
      generalize p.letter = l at h hf
      cases l <;> simp only [Letter.shape, bind_ok, intNote_ok, Except.ok.injEq, reduceCtorEq, and_false, exists_false,
        Shape.value.injEq] at h
      · exact absurd h hf
      · rfl
      · obtain ⟨_, _, _, _, h⟩ := h
        split at h <;> cases h
      · exact absurd h hf
    · intro e
      generalize p.letter = l at h e
      cases l <;> simp only [Letter.type, reduceCtorEq] at e
      · cases h
      · rename_i k _
        cases k <;> cases e
    · intro w hw
      simp only [List.mem_singleton] at hw
      subst hw
      exact hg.elim (ok.graph.vals _) fun o => o.2.1
    · exact fun b hb => ok.graph.objs b (hr hb)
    · exact fun b c hb hc => ok.graph.keys b c (hr hb) (hr hc)
    · exact fun b c hb hc => ok.graph.types b c (hr hb) (hr hc)
    · intro w hw
      simp only [List.mem_singleton] at hw
      subst hw
      exact hg.elim (ok.xml.vals _) fun o => o.2.2
    · exact fun b hb => ok.xml.objs b (hr hb)
  | notes ts ps =>
    obtain ⟨hn, ht⟩ := shape_names h
    have hnames := names_ok p.letter
    have hascii : ∀ q ∈ ps, ∀ c ∈ q.1, 32 ≤ c ∧ c ≤ 126 := fun q hq =>
      hnames.2 q.1 (hn.subset (List.mem_map.mpr ⟨q, hq, rfl⟩))
    have hplain : L.reg.rehydrate ts = .plain (ts.map ((txt! "Deserialized.") ++ ·)) := by
      rcases ht with rfl | rfl
      · rfl
      · show (if (txt! "System.Object") = [] then Rehydrated.plain (objectTypes.map ((txt! "Deserialized.") ++ ·)) else
          match L.reg.types.get? (txt! "System.Object") with
          | some c => Rehydrated.instance_ c
          | none => .plain (objectTypes.map ((txt! "Deserialized.") ++ ·))) = _
        rw [if_neg (by decide), hL]
    have hvals : ∀ w ∈ ({ key := some p.key, types := ts, extended := ps } : PObj).values, w ∈ p.letter.objects ∨ Own E w := by
      intro w hw
      refine hv w ?_
      simpa [PObj.values, Shape.values] using hw
    have hreach : ∀ {b}, Reach (p.heap.put p.addr { key := some p.key, types := ts, extended := ps }) [.ref p.addr] b →
        b = p.addr ∨ Reach p.heap p.letter.objects b := fun hb => reach_put ok.addr (fun c hc => (hvals _ hc).elim id fun o => o.1.elim) hb
    have hhead : ∀ b, Reach p.heap p.letter.objects b → ts.head? = (p.heap b).types.head? → ts = (p.heap b).types := by
      intro b hb e
      rcases ht with rfl | rfl
      · cases e' : (p.heap b).types with
        | nil => rfl
        | cons x xs => rw [e'] at e; cases e
      · exact (ok.types b hb e.symm).symm
    refine ⟨?_, ?_, ⟨?_, ?_, ?_, ?_⟩, ⟨?_, ?_⟩⟩
    · intro e; cases e
    · intro e
      generalize p.letter = l at h e
      cases l <;> simp only [Letter.type, reduceCtorEq] at e
      · cases h
      · cases h
    · intro w hw
      simp only [List.mem_singleton] at hw
      subst hw
      trivial
    · intro b hb
      rcases hreach hb with rfl | hb
      · rw [put_self]
        exact {
          vals := fun w hw => (hvals w hw).elim (ok.graph.vals w) fun o => o.2.1
          own := fun q hq => by rcases hq with hq | hq <;> cases hq
          ext := fun q hq => by cases hq
          names := fun q hq => textOk_low fun c hc => by have := hascii q (by simpa using hq) c hc; omega
          adapted := List.nodup_nil
          extended := hn.nodup hnames.1
          string := fun t ht => by cases ht
          plain := fun hc => hc.elim
          keys := fun _ he => by cases he
          queue := fun _ he => by cases he
          cls := fun c hc => by simp only [hplain] at hc; cases hc
          declared := by
            unfold DeclaredOk
            rw [declared_none (shape_plain hL ht)]
            exact ⟨List.nodup_nil, List.nodup_nil, fun _ hq => by cases hq⟩ }
      · rw [put_other (ok.addr b hb)]
        exact ok.graph.objs b hb
    · intro b c hb hc hk e
      rcases hreach hb with rfl | hb
      · rcases hreach hc with rfl | hc
        · rfl
        · rw [put_self, put_other (ok.addr c hc)] at e
          exact absurd e.symm (ok.key c hc)
      · rw [put_other (ok.addr b hb)] at e hk
        rcases hreach hc with rfl | hc
        · rw [put_self] at e
          exact absurd e (ok.key b hb)
        · rw [put_other (ok.addr c hc)] at e
          exact ok.graph.keys b c hb hc hk e
    · intro b c hb hc e
      rcases hreach hb with rfl | hb
      · rw [put_self] at e ⊢
        rcases hreach hc with rfl | hc
        · rw [put_self]
        · rw [put_other (ok.addr c hc)] at e ⊢
          exact hhead c hc e
      · rw [put_other (ok.addr b hb)] at e ⊢
        rcases hreach hc with rfl | hc
        · rw [put_self] at e ⊢
          exact (hhead b hb e.symm).symm
        · rw [put_other (ok.addr c hc)] at e ⊢
          exact ok.graph.types b c hb hc e
    · intro w hw
      simp only [List.mem_singleton] at hw
      subst hw
      trivial
    · intro b hb
      rcases hreach hb with rfl | hb
      · rw [put_self]
        exact {
          vals := fun w hw => (hvals w hw).elim (ok.xml.vals w) fun o => o.2.2
          own := fun q hq => by rcases hq with hq | hq <;> cases hq
          names := fun q hq => escapable_ascii (hascii q (by simpa using hq))
          types := fun t h' => by
            rcases ht with rfl | rfl
            · cases h'
            · simp only [objectTypes, List.mem_singleton] at h'
              subst h'
              exact AsciiLine.xml (by unfold AsciiLine; decide)
          string := fun t ht => by cases ht }
      · rw [put_other (ok.addr b hb)]
        exact ok.xml.objs b hb

/-! ## Reading the properties -/

/-- A property of a list of properties. -/
def pick (es : List (PyStr × DVal)) (name : PyStr) : Except Err DVal :=
  match (es.filter (·.1 = name)).getLast? with
  | none => .error .attributeError
  | some q => .ok q.2

theorem shown_data (s : DState) (L : Lib) (d : DObj) : (s.shown L d).data = d.data := by
  unfold DState.shown
  split <;> rfl

theorem all2_nil_iff {α β : Type} {R : α → β → Prop} {bs : List β} : All2 R [] bs ↔ bs = [] := by
  constructor
  · intro h; cases h; rfl
  · rintro rfl; exact .nil

theorem props_cons {φ : Nat → Option Nat} {n : PyStr} {v : PVal} {ps : List (PyStr × PVal)} {es : List (PyStr × DVal)} :
    All2 (PMatch φ) ((n, v) :: ps) es ↔ ∃ d es', VMatch φ v d ∧ All2 (PMatch φ) ps es' ∧ es = (n, d) :: es' := by
  constructor
  · intro h
    cases h with
    | cons h t =>
      rename_i b bs
      obtain ⟨m, d⟩ := b
      obtain ⟨h1, h2⟩ := h
      dsimp only at h1 h2
      subst h1
      exact ⟨d, bs, h2, t, rfl⟩
  · rintro ⟨d, es', h1, h2, rfl⟩
    exact .cons ⟨rfl, h1⟩ h2

theorem notes_back {L : Lib} {H : Heap} {a k : Nat} {ts : List PyStr} {ps : List (PyStr × PVal)} {i : Incoming}
    (h : SameObject L ((Shape.notes ts ps).outgoing H a k) i)
    (hrc : resultClass L { key := some k, types := ts, extended := ps } = none) :
    ∃ b ds φ es, i = .object (.ref b) ds ∧ (∀ name, ds.attr L (.ref b) name = pick es name) ∧ All2 (PMatch φ) ps es ∧
      ∀ c x, φ c = some x → x ≠ a → ∃ o, ds.heap[c]? = some o ∧ OMatch L φ (H x) (ds.shown L o) := by
  obtain ⟨d, ds, φ, rfl, ⟨b, rfl, hb⟩, h3⟩ := h
  obtain ⟨o, ho, m⟩ := h3 b a hb
  rw [put_self] at m
  have mA := m.adapted
  have mE := m.extended
  rw [completed_none hrc] at mA mE
  refine ⟨b, ds, φ, (ds.shown L o).extended, rfl, fun name => ?_, mE, fun c x hc hx => ?_⟩
  · have ha : (ds.shown L o).adapted = [] := by
      cases hm : (ds.shown L o).adapted with
      | nil => rfl
      | cons x xs => rw [hm] at mA; cases mA
    unfold DState.attr pick
    simp only [ho, ha, List.nil_append]
    rfl
  · obtain ⟨o, h1, h2⟩ := h3 c x hc
    rw [put_other hx] at h2
    exact ⟨o, h1, h2⟩

theorem shows_int? {φ : Nat → Option Nat} {k : IntKind} {v : Option Int} {p : PVal} {d : DVal} (h : intNote? k v = .ok p)
    (m : VMatch φ p d) : ShowsInt? k v d := by
  obtain ⟨_, rfl⟩ := intNote?_ok.mp h
  cases v <;> exact m

theorem shows_text {φ : Nat → Option Nat} {v : Option PyStr} {d : DVal} (m : VMatch φ (textNote v) d) : ShowsText v d := by
  cases v <;> exact m

theorem shows_date {φ : Nat → Option Nat} {v : Option DateFields} {d : DVal} (m : VMatch φ (dateNote v) d) : ShowsDate v d := by
  cases v <;> exact m

theorem shows_guid {φ : Nat → Option Nat} {v : Option Nat} {d : DVal} (m : VMatch φ (guidNote v) d) : ShowsGuid v d := by
  cases v <;> exact m

theorem cast_int? {k : IntKind} {v : Option Int} {d : DVal} (h : ShowsInt? k v d) : castTo (isInt k) d = .ok d := by
  unfold ShowsInt? at h
  subst h
  cases v with
  | none => rfl
  | some v => simp [castTo, isInt]

theorem cast_text {v : Option PyStr} {d : DVal} (h : ShowsText v d) : castTo isString d = .ok d := by
  unfold ShowsText at h
  subst h
  cases v <;> rfl

theorem cast_date {v : Option DateFields} {d : DVal} (h : ShowsDate v d) : castTo isDate d = .ok d := by
  unfold ShowsDate at h
  subst h
  cases v <;> rfl

theorem cast_guid {v : Option Nat} {d : DVal} (h : ShowsGuid v d) : castTo isGuid d = .ok d := by
  unfold ShowsGuid at h
  subst h
  cases v <;> rfl

theorem poolState_of (st : PoolState) : PoolState.of (some st.number) = .ok st := by cases st <;> rfl

theorem pipeState_of (st : PipeState) : PipeState.of (some st.number) = .ok st := by cases st <;> rfl

theorem given_match {φ : Nat → Option Nat} {n : PyStr} {v : PVal} {es : List (PyStr × DVal)}
    (h : All2 (PMatch φ) (givenNote n v) es) :
    ∃ d, VMatch φ v d ∧ ((d = .nil ∧ es = []) ∨ es = [(n, d)]) := by
  unfold givenNote at h
  split at h
  · rename_i e
    subst e
    rw [all2_nil_iff] at h
    exact ⟨.nil, rfl, .inl ⟨rfl, h⟩⟩
  · simp only [props_cons, all2_nil_iff] at h
    obtain ⟨d, _, hd, rfl, rfl⟩ := h
    exact ⟨d, hd, .inr rfl⟩

theorem all2_append {α β : Type} {R : α → β → Prop} {as as' : List α} {bs : List β} (h : All2 R (as ++ as') bs) :
    ∃ b b', bs = b ++ b' ∧ All2 R as b ∧ All2 R as' b' := by
  induction as generalizing bs with
  | nil => exact ⟨[], bs, rfl, .nil, h⟩
  | cons a as ih =>
    cases h with
    | cons h t =>
      obtain ⟨b, b', rfl, h1, h2⟩ := ih t
      exact ⟨_ :: b, b', rfl, .cons h h1, h2⟩

/-- `mp or []` of a list that came back. -/
theorem params_back {L : Lib} {H : Heap} {φ : Nat → Option Nat} {ds : DState} {mp : PVal} {d : DVal} (hl : IsList H mp)
    (m : VMatch φ mp d)
    (ho : ∀ c x, φ c = some x → PVal.ref x = mp → ∃ o, ds.heap[c]? = some o ∧ OMatch L φ (H x) (ds.shown L o)) :
    ShowsParams φ H mp (ds.orList d) := by
  obtain ⟨a, k, items, rfl, hd⟩ := hl
  obtain ⟨b, rfl, hb⟩ := m
  obtain ⟨o, h1, h2⟩ := ho b a hb rfl
  have h3 := h2.data
  rw [hd, shown_data] at h3
  obtain ⟨l, hl, h4⟩ := h3
  have ht : ds.truth (.ref b) = decide (l ≠ []) := by
    obtain ⟨c, da, t, ts, e, f⟩ := o
    dsimp only at hl
    subst hl
    unfold DState.truth
    simp only [h1]
    cases l <;> rfl
  unfold DState.orList
  rw [ht]
  cases h4 with
  | nil => exact ⟨a, k, rfl, hd⟩
  | cons => exact ⟨b, rfl, hb⟩

theorem show_avail {L : Lib} {ds : DState} {b : Nat} {es : List (PyStr × DVal)} (ha : ∀ name, ds.attr L (.ref b) name = pick es name)
    {n : Int} {r ci : DVal} (he : es = [(txt! "SetMinMaxRunspacesResponse", r), (txt! "ci", ci)])
    (hr : (∃ k, r = .prim (.int k n))) :
    readEvent L .RunspaceAvailability (.object (.ref b) ds) = .ok (.getAvailability n ci) := by
  obtain ⟨k, rfl⟩ := hr
  subst he
  simp only [readEvent, ha]
  rfl

set_option maxHeartbeats 2000000 in
/-- The event of a message that came back. -/
theorem event_back {E : TextEnv} {L : Lib} (hL : L.NoObject) {p : Post} (ok : p.Ok E L) {sh : Shape} (h : p.letter.shape = .ok sh) {i : Incoming}
    (hi : SameObject L (sh.outgoing p.heap p.addr p.key) i) :
    ∃ e φ, readEvent L p.letter.type i = .ok e ∧ Shows φ p.heap p.letter e ∧
      ∀ d ds, i = .object d ds → ∀ b a, φ b = some a → a ≠ p.addr → ∃ o, ds.heap[b]? = some o ∧ OMatch L φ (p.heap a) (ds.shown L o) := by
  have fresh : ∀ b, PVal.ref b ∈ p.letter.objects → b ≠ p.addr := fun b hb => ok.addr b (.root hb)
  have hf := ok.fields
  generalize p.letter = l at h hf fresh
  cases sh with
  | endOfInput =>
    cases hi
    refine ⟨.endOfPipelineInput, fun _ => none, rfl, ?_, fun _ _ h => by cases h⟩
    cases l <;> simp only [Letter.shape, bind_ok, intNote_ok, Except.ok.injEq, reduceCtorEq, and_false, exists_false] at h
    · trivial
    · obtain ⟨_, _, _, _, h⟩ := h
      split at h <;> cases h
  | value v =>
    obtain ⟨d, ds, φ, rfl, m, ho⟩ := hi
    have ho' : ∀ d' ds', Incoming.object d ds = .object d' ds' → ∀ b a, φ b = some a → a ≠ p.addr →
        ∃ o, ds'.heap[b]? = some o ∧ OMatch L φ (p.heap a) (ds'.shown L o) := by
      rintro _ _ e b a hb -
      cases e
      exact ho b a hb
    cases l <;> simp only [Letter.shape, bind_ok, intNote_ok, Except.ok.injEq, reduceCtorEq, and_false, exists_false,
      Shape.value.injEq] at h
    case publicKeyRequest => exact ⟨_, φ, rfl, trivial, ho'⟩
    case pipelineInput => subst h; exact ⟨_, φ, rfl, m, ho'⟩
    case pipelineOutput => subst h; exact ⟨_, φ, rfl, m, ho'⟩
    case record k _ => subst h; cases k <;> exact ⟨_, φ, rfl, ⟨rfl, m⟩, ho'⟩
    case connectRunspacePool lo hi =>
      obtain ⟨p1, h1, p2, h2, h⟩ := h
      split at h
      · rename_i e
        simp only [Shape.value.injEq] at h
        subst h
        cases m
        obtain ⟨rfl, rfl⟩ := List.append_eq_nil_iff.mp e
        have none_of : ∀ {n : PyStr} {v : Option Int}, limitNote n v = .ok [] → v ≠ some 0 → v = none := by
          intro n v hv h0
          cases v with
          | none => rfl
          | some v =>
            unfold limitNote at hv
            cases e : intNote .psInt v with
            | error _ => simp only [e] at hv; cases hv
            | ok p =>
              simp only [e, Except.ok.injEq] at hv
              rw [if_neg (fun e => h0 (by rw [e]))] at hv
              cases hv
        rw [none_of h1 hf.1, none_of h2 hf.2]
        exact ⟨_, φ, rfl, ⟨rfl, rfl⟩, ho'⟩
      · cases h
  | notes ts ps =>
    obtain ⟨b, ds, φ, es, rfl, ha, m, ho⟩ := notes_back hi (shape_plain hL (shape_names h).2)
    have ho' : ∀ d' ds', Incoming.object (.ref b) ds = .object d' ds' → ∀ c a, φ c = some a → a ≠ p.addr →
        ∃ o, ds'.heap[c]? = some o ∧ OMatch L φ (p.heap a) (ds'.shown L o) := by
      intro _ _ e c a hc hne
      cases e
      exact ho c a hc hne
    cases l <;> simp only [Letter.shape, bind_ok, intNote_ok, Except.ok.injEq, reduceCtorEq, Shape.notes.injEq] at h
    case sessionCapability _ _ _ t =>
      obtain ⟨_, rfl⟩ := h
      obtain ⟨es1, es2, rfl, m1, m2⟩ := all2_append m
      simp only [props_cons, all2_nil_iff] at m1
      obtain ⟨d1, _, h1, ⟨d2, _, h2, ⟨d3, _, h3, rfl, rfl⟩, rfl⟩, rfl⟩ := m1
      refine ⟨.sessionCapability d1 d2 d3, φ, ?_, ⟨h1, h2, h3⟩, ho'⟩
      simp only [Letter.type, readEvent, ha]
      rcases t with _ | _ | ⟨t, ts⟩
      · rw [all2_nil_iff] at m2; subst m2; rfl
      · rw [all2_nil_iff] at m2; subst m2; rfl
      · simp only [props_cons, all2_nil_iff] at m2
        obtain ⟨d4, _, h4, rfl, rfl⟩ := m2
        rfl
    case initRunspacePool =>
      obtain ⟨_, ⟨_, rfl⟩, _, ⟨_, rfl⟩, _, rfl⟩ := h
      simp only [props_cons, all2_nil_iff] at m
      obtain ⟨d1, _, h1, ⟨d2, _, h2, ⟨d3, _, h3, ⟨d4, _, h4, ⟨d5, _, h5, ⟨d6, _, h6, rfl, rfl⟩, rfl⟩, rfl⟩, rfl⟩, rfl⟩, rfl⟩ := m
      refine ⟨.initRunspacePool d1 d2 d3 d4 d5 d6, φ, ?_, ⟨h1, h2, h3, h4, h5, h6⟩, ho'⟩
      simp only [Letter.type, readEvent, ha]
      rfl
    case publicKey k =>
      obtain ⟨_, rfl⟩ := h
      simp only [props_cons, all2_nil_iff] at m
      obtain ⟨d1, _, rfl, rfl, rfl⟩ := m
      refine ⟨.publicKey k, φ, ?_, rfl, ho'⟩
      simp only [Letter.type, readEvent, ha]
      show (do (.ok (EventView.publicKey (← b64decode (b64encode k))) : Except Err EventView)) = _
      rw [b64_roundtrip]
      rfl
    case encryptedSessionKey k =>
      obtain ⟨_, rfl⟩ := h
      simp only [props_cons, all2_nil_iff] at m
      obtain ⟨d1, _, rfl, rfl, rfl⟩ := m
      refine ⟨.encryptedSessionKey k, φ, ?_, rfl, ho'⟩
      simp only [Letter.type, readEvent, ha]
      show (do (.ok (EventView.encryptedSessionKey (← b64decode (b64encode k))) : Except Err EventView)) = _
      rw [b64_roundtrip]
      rfl
    case setMaxRunspaces =>
      obtain ⟨_, ⟨_, rfl⟩, _, ⟨_, rfl⟩, _, rfl⟩ := h
      simp only [props_cons, all2_nil_iff] at m
      obtain ⟨d1, _, h1, ⟨d2, _, h2, rfl, rfl⟩, rfl⟩ := m
      refine ⟨.setMaxRunspaces d1 d2, φ, ?_, ⟨h1, h2⟩, ho'⟩
      simp only [Letter.type, readEvent, ha]
      rfl
    case setMinRunspaces =>
      obtain ⟨_, ⟨_, rfl⟩, _, ⟨_, rfl⟩, _, rfl⟩ := h
      simp only [props_cons, all2_nil_iff] at m
      obtain ⟨d1, _, h1, ⟨d2, _, h2, rfl, rfl⟩, rfl⟩ := m
      refine ⟨.setMinRunspaces d1 d2, φ, ?_, ⟨h1, h2⟩, ho'⟩
      simp only [Letter.type, readEvent, ha]
      rfl
    case runspaceAvailability r ci =>
      obtain ⟨_, ⟨_, rfl⟩, _, rfl⟩ := h
      simp only [props_cons, all2_nil_iff] at m
      obtain ⟨d1, _, h1, ⟨d2, _, h2, rfl, rfl⟩, rfl⟩ := m
      cases r with
      | bool v =>
        cases h1
        refine ⟨.setAvailability (.bool v) d2, φ, ?_, ⟨rfl, h2⟩, ho'⟩
        simp only [Letter.type, readEvent, ha]
        rfl
      | int n =>
        refine ⟨.getAvailability n d2, φ, show_avail ha rfl ?_, ⟨rfl, h2⟩, ho'⟩
        have h1 : d1 = .prim (Prim.plainInt n).norm := h1
        unfold Prim.norm at h1
        dsimp only at h1
        by_cases hn : n < 2 ^ 31
        · rw [if_pos hn] at h1; exact ⟨_, h1⟩
        · rw [if_neg hn] at h1; exact ⟨_, h1⟩
    case runspacePoolState st r =>
      obtain ⟨_, ⟨_, rfl⟩, _, rfl⟩ := h
      rw [props_cons] at m
      obtain ⟨_, es', rfl, m, rfl⟩ := m
      obtain ⟨d, hd, hes⟩ := given_match m
      refine ⟨.runspacePoolState st d, φ, ?_, ⟨rfl, hd⟩, ho'⟩
      simp only [Letter.type, readEvent, ha, DState.attrOr]
      rcases hes with ⟨rfl, rfl⟩ | rfl
      · show (do (.ok (EventView.runspacePoolState (← PoolState.of (some st.number)) .nil) : Except Err EventView)) = _
        rw [poolState_of]
        rfl
      · show (do (.ok (EventView.runspacePoolState (← PoolState.of (some st.number)) d) : Except Err EventView)) = _
        rw [poolState_of]
        rfl
    case createPipeline =>
      obtain ⟨_, rfl⟩ := h
      simp only [props_cons, all2_nil_iff] at m
      obtain ⟨d1, _, h1, ⟨d2, _, h2, ⟨d3, _, h3, ⟨d4, _, h4, ⟨d5, _, h5, ⟨d6, _, h6, ⟨d7, _, h7, rfl, rfl⟩, rfl⟩, rfl⟩, rfl⟩, rfl⟩, rfl⟩,
        rfl⟩ := m
      refine ⟨.createPipeline d1 d2 d3 d4 d5 d6 d7, φ, ?_, ⟨h1, h2, h3, h4, h5, h6, h7⟩, ho'⟩
      simp only [Letter.type, readEvent, ha]
      rfl
    case getAvailableRunspaces =>
      obtain ⟨_, ⟨_, rfl⟩, _, rfl⟩ := h
      simp only [props_cons, all2_nil_iff] at m
      obtain ⟨d1, _, h1, rfl, rfl⟩ := m
      refine ⟨.getAvailableRunspaces d1, φ, ?_, h1, ho'⟩
      simp only [Letter.type, readEvent, ha]
      rfl
    case userEvent =>
      obtain ⟨_, hn, _, rfl⟩ := h
      simp only [props_cons, all2_nil_iff] at m
      obtain ⟨d1, _, h1, ⟨d2, _, h2, ⟨d3, _, h3, ⟨d4, _, h4, ⟨d5, _, h5, ⟨d6, _, h6, ⟨d7, _, h7, ⟨d8, _, h8, rfl, rfl⟩, rfl⟩, rfl⟩, rfl⟩, rfl⟩,
        rfl⟩, rfl⟩, rfl⟩ := m
      have g1 := shows_int? hn h1
      have g2 := shows_text h2
      have g3 := shows_date h3
      have g7 := shows_text h7
      have g8 := shows_guid h8
      refine ⟨.userEvent d1 d2 d3 d4 d5 d6 d7 d8, φ, ?_, ⟨g1, g2, g3, h4, h5, h6, g7, g8⟩, ho'⟩
      simp only [Letter.type, readEvent, ha]
      show (do (.ok (EventView.userEvent (← castTo (isInt .psInt) d1) (← castTo isString d2) (← castTo isDate d3) d4 d5 d6 (← castTo isString d7)
        (← castTo isGuid d8)) : Except Err EventView)) = _
      rw [cast_int? g1, cast_text g2, cast_date g3, cast_text g7, cast_guid g8]
      rfl
    case applicationPrivateData =>
      obtain ⟨_, rfl⟩ := h
      simp only [props_cons, all2_nil_iff] at m
      obtain ⟨d1, _, h1, rfl, rfl⟩ := m
      refine ⟨.applicationPrivateData d1, φ, ?_, h1, ho'⟩
      simp only [Letter.type, readEvent, ha]
      rfl
    case getCommandMetadata =>
      obtain ⟨_, rfl⟩ := h
      simp only [props_cons, all2_nil_iff] at m
      obtain ⟨d1, _, h1, ⟨d2, _, h2, ⟨d3, _, h3, ⟨d4, _, h4, rfl, rfl⟩, rfl⟩, rfl⟩, rfl⟩ := m
      refine ⟨.getCommandMetadata d1 d2 d3 d4, φ, ?_, ⟨h1, h2, h3, h4⟩, ho'⟩
      simp only [Letter.type, readEvent, ha]
      rfl
    case runspacePoolHostCall ci mi mp =>
      obtain ⟨_, ⟨_, rfl⟩, _, rfl⟩ := h
      simp only [props_cons, all2_nil_iff] at m
      obtain ⟨d1, _, h1, ⟨d2, _, h2, ⟨d3, _, h3, rfl, rfl⟩, rfl⟩, rfl⟩ := m
      refine ⟨.runspacePoolHostCall d1 d2 (ds.orList d3), φ, ?_, ⟨h1, h2, params_back (L := L) hf h3 fun c x hc e => ?_⟩, ho'⟩
      · simp only [Letter.type, readEvent, ha]
        rfl
      · exact ho c x hc (fresh x (by simp [Letter.objects, e]))
    case runspacePoolHostResponse =>
      obtain ⟨_, ⟨_, rfl⟩, _, rfl⟩ := h
      obtain ⟨es1, es3, rfl, m1, m3⟩ := all2_append m
      obtain ⟨es1, es2, rfl, m1, m2⟩ := all2_append m1
      simp only [props_cons, all2_nil_iff] at m1
      obtain ⟨d1, _, h1, ⟨d2, _, h2, rfl, rfl⟩, rfl⟩ := m1
      obtain ⟨d3, h3, he3⟩ := given_match m2
      obtain ⟨d4, h4, he4⟩ := given_match m3
      refine ⟨.runspacePoolHostResponse d1 d2 d3 d4, φ, ?_, ⟨h1, h2, h3, h4⟩, ho'⟩
      simp only [Letter.type, readEvent, ha, DState.attrOr]
      rcases he3 with ⟨rfl, rfl⟩ | rfl <;> rcases he4 with ⟨rfl, rfl⟩ | rfl <;> rfl
    case pipelineState st r =>
      obtain ⟨_, ⟨_, rfl⟩, _, rfl⟩ := h
      rw [props_cons] at m
      obtain ⟨_, es', rfl, m, rfl⟩ := m
      obtain ⟨d, hd, hes⟩ := given_match m
      refine ⟨.pipelineState st d, φ, ?_, ⟨rfl, hd⟩, ho'⟩
      simp only [Letter.type, readEvent, ha, DState.attrOr]
      rcases hes with ⟨rfl, rfl⟩ | rfl
      · show (do (.ok (EventView.pipelineState (← PipeState.of (some st.number)) .nil) : Except Err EventView)) = _
        rw [pipeState_of]
        rfl
      · show (do (.ok (EventView.pipelineState (← PipeState.of (some st.number)) d) : Except Err EventView)) = _
        rw [pipeState_of]
        rfl
    case progressRecord =>
      obtain ⟨_, n1, _, n2, _, n3, _, n4, _, rfl⟩ := h
      simp only [props_cons, all2_nil_iff] at m
      obtain ⟨d1, _, h1, ⟨d2, _, h2, ⟨d3, _, h3, ⟨d4, _, h4, ⟨d5, _, h5, ⟨d6, _, h6, ⟨d7, _, h7, ⟨d8, _, h8, rfl, rfl⟩, rfl⟩, rfl⟩, rfl⟩, rfl⟩,
        rfl⟩, rfl⟩, rfl⟩ := m
      have g1 := shows_text h1
      have g2 := shows_int? n1 h2
      have g3 := shows_text h3
      have g4 := shows_text h4
      have g5 := shows_int? n2 h5
      have g6 := shows_int? n3 h6
      have g8 := shows_int? n4 h8
      refine ⟨.progressRecord d1 d2 d3 d4 d5 d6 d7 d8, φ, ?_, ⟨g1, g2, g3, g4, g5, g6, h7, g8⟩, ho'⟩
      simp only [Letter.type, readEvent, ha]
      show (do (.ok (EventView.progressRecord (← castTo isString d1) (← castTo (isInt .psInt) d2) (← castTo isString d3) (← castTo isString d4)
        (← castTo (isInt .psInt) d5) (← castTo (isInt .psInt) d6) d7 (← castTo (isInt .psInt) d8)) : Except Err EventView)) = _
      rw [cast_text g1, cast_int? g2, cast_text g3, cast_text g4, cast_int? g5, cast_int? g6, cast_int? g8]
      rfl
    case informationRecord =>
      obtain ⟨_, n1, _, n2, _, n3, _, rfl⟩ := h
      simp only [props_cons, all2_nil_iff] at m
      obtain ⟨d1, _, h1, ⟨d2, _, h2, ⟨d3, _, h3, ⟨d4, _, h4, ⟨d5, _, h5, ⟨d6, _, h6, ⟨d7, _, h7, ⟨d8, _, h8, ⟨d9, _, h9, rfl, rfl⟩, rfl⟩, rfl⟩, rfl⟩,
        rfl⟩, rfl⟩, rfl⟩, rfl⟩, rfl⟩ := m
      refine ⟨.informationRecord d1 d2 d3 d4 d5 d6 d7 d8 d9, φ, ?_, ⟨h1, shows_text h2, shows_date h3, h4, shows_text h5, shows_text h6,
        shows_int? n1 h7, shows_int? n2 h8, shows_int? n3 h9⟩, ho'⟩
      simp only [Letter.type, readEvent, ha]
      rfl
    case pipelineHostCall ci mi mp =>
      obtain ⟨_, ⟨_, rfl⟩, _, rfl⟩ := h
      simp only [props_cons, all2_nil_iff] at m
      obtain ⟨d1, _, h1, ⟨d2, _, h2, ⟨d3, _, h3, rfl, rfl⟩, rfl⟩, rfl⟩ := m
      refine ⟨.pipelineHostCall d1 d2 (ds.orList d3), φ, ?_, ⟨h1, h2, params_back (L := L) hf h3 fun c x hc e => ?_⟩, ho'⟩
      · simp only [Letter.type, readEvent, ha]
        rfl
      · exact ho c x hc (fresh x (by simp [Letter.objects, e]))
    case pipelineHostResponse =>
      obtain ⟨_, ⟨_, rfl⟩, _, rfl⟩ := h
      obtain ⟨es1, es3, rfl, m1, m3⟩ := all2_append m
      obtain ⟨es1, es2, rfl, m1, m2⟩ := all2_append m1
      simp only [props_cons, all2_nil_iff] at m1
      obtain ⟨d1, _, h1, ⟨d2, _, h2, rfl, rfl⟩, rfl⟩ := m1
      obtain ⟨d3, h3, he3⟩ := given_match m2
      obtain ⟨d4, h4, he4⟩ := given_match m3
      refine ⟨.pipelineHostResponse d1 d2 d3 d4, φ, ?_, ⟨h1, h2, h3, h4⟩, ho'⟩
      simp only [Letter.type, readEvent, ha, DState.attrOr]
      rcases he3 with ⟨rfl, rfl⟩ | rfl <;> rcases he4 with ⟨rfl, rfl⟩ | rfl <;> rfl
    case connectRunspacePool lo hi =>
      obtain ⟨p1, n1, p2, n2, h⟩ := h
      split at h
      · cases h
      · simp only [Shape.notes.injEq] at h
        obtain ⟨_, rfl⟩ := h
        obtain ⟨es1, es2, rfl, m1, m2⟩ := all2_append m
        have limit : ∀ {n : PyStr} {v : Option Int} {ps : List (PyStr × PVal)} {es : List (PyStr × DVal)}, limitNote n v = .ok ps →
            v ≠ some 0 → All2 (PMatch φ) ps es → ∃ d, ShowsInt? .psInt v d ∧ ((d = .nil ∧ es = []) ∨ es = [(n, d)]) := by
          intro n v ps es hv h0 m
          cases v with
          | none =>
            cases hv
            rw [all2_nil_iff] at m
            exact ⟨.nil, rfl, .inl ⟨rfl, m⟩⟩
          | some v =>
            unfold limitNote at hv
            cases e : intNote .psInt v with
            | error _ => simp only [e] at hv; cases hv
            | ok q =>
              simp only [e, Except.ok.injEq] at hv
              rw [if_neg (fun e => h0 (by rw [e]))] at hv
              subst hv
              obtain ⟨_, rfl⟩ := intNote_ok.mp e
              simp only [props_cons, all2_nil_iff] at m
              obtain ⟨d, _, hd, rfl, rfl⟩ := m
              exact ⟨d, hd, .inr rfl⟩
        obtain ⟨d1, h1, he1⟩ := limit n1 hf.1 m1
        obtain ⟨d2, h2, he2⟩ := limit n2 hf.2 m2
        refine ⟨.connectRunspacePool d1 d2, φ, ?_, ⟨h1, h2⟩, ho'⟩
        simp only [Letter.type, readEvent, ha, DState.attrOr]
        rcases he1 with ⟨rfl, rfl⟩ | rfl <;> rcases he2 with ⟨rfl, rfl⟩ | rfl <;> rfl
    case runspacePoolInitData =>
      obtain ⟨_, ⟨_, rfl⟩, _, ⟨_, rfl⟩, _, rfl⟩ := h
      simp only [props_cons, all2_nil_iff] at m
      obtain ⟨d1, _, h1, ⟨d2, _, h2, rfl, rfl⟩, rfl⟩ := m
      refine ⟨.runspacePoolInitData d1 d2, φ, ?_, ⟨h1, h2⟩, ho'⟩
      simp only [Letter.type, readEvent, ha]
      rfl
    case resetRunspaceState =>
      obtain ⟨_, ⟨_, rfl⟩, _, rfl⟩ := h
      simp only [props_cons, all2_nil_iff] at m
      obtain ⟨d1, _, h1, rfl, rfl⟩ := m
      refine ⟨.resetRunspaceState d1, φ, ?_, h1, ho'⟩
      simp only [Letter.type, readEvent, ha]
      rfl

/-! ## Which messages are made -/

theorem intNote_error {k : IntKind} {v : Int} (h : ¬ k.InRange v) : intNote k v = .error .valueError := by
  rw [IntKind.inRange_iff] at h
  unfold intNote IntKind.new
  dsimp only
  rw [if_pos (by omega)]
  rfl

/-- The code takes its arguments exactly under a condition. -/
def Takes {α : Type} (P : Prop) (x : Except Err α) : Prop := (P ∧ ∃ a, x = .ok a) ∨ (¬ P ∧ x = .error .valueError)

theorem takes_ok {α : Type} {P : Prop} (h : P) (a : α) : Takes P (.ok a : Except Err α) := .inl ⟨h, a, rfl⟩

theorem takes_bind {α β : Type} {P Q : Prop} {x : Except Err α} {f : α → Except Err β} (hx : Takes P x) (hf : ∀ a, Takes Q (f a)) :
    Takes (P ∧ Q) (x >>= f) := by
  rcases hx with ⟨h, a, rfl⟩ | ⟨h, rfl⟩
  · rcases hf a with ⟨h', b, e⟩ | ⟨h', e⟩
    · exact .inl ⟨⟨h, h'⟩, b, e⟩
    · exact .inr ⟨fun q => h' q.2, e⟩
  · exact .inr ⟨fun q => h q.1, rfl⟩

theorem takes_last {α β : Type} {P : Prop} {x : Except Err α} {f : α → β} (hx : Takes P x) : Takes P (x >>= fun a => .ok (f a)) := by
  rcases hx with ⟨h, a, rfl⟩ | ⟨h, rfl⟩
  · exact .inl ⟨h, f a, rfl⟩
  · exact .inr ⟨h, rfl⟩

theorem takes_int (k : IntKind) (v : Int) : Takes (k.InRange v) (intNote k v) := by
  by_cases h : k.InRange v
  · exact .inl ⟨h, _, intNote_ok.mpr ⟨h, rfl⟩⟩
  · exact .inr ⟨h, intNote_error h⟩

theorem takes_int? (k : IntKind) (v : Option Int) : Takes (∀ n ∈ v.toList, k.InRange n) (intNote? k v) := by
  cases v with
  | none => exact .inl ⟨by simp, _, rfl⟩
  | some v =>
    rcases takes_int k v with ⟨h, p, e⟩ | ⟨h, e⟩
    · exact .inl ⟨by simpa using h, p, e⟩
    · exact .inr ⟨by simpa using h, e⟩

theorem takes_limit (n : PyStr) (v : Option Int) : Takes (∀ n ∈ v.toList, IntKind.psInt.InRange n) (limitNote n v) := by
  cases v with
  | none => exact .inl ⟨by simp, _, rfl⟩
  | some v =>
    unfold limitNote
    rcases takes_int .psInt v with ⟨h, p, e⟩ | ⟨h, e⟩
    · exact .inl ⟨by simpa using h, by simp only [e]; exact ⟨_, rfl⟩⟩
    · exact .inr ⟨by simpa using h, by simp only [e]⟩

theorem takes_true {α : Type} {P Q : Prop} {x : Except Err α} (h : Takes P x) (e : Q ↔ P) : Takes Q x := by
  unfold Takes at *
  rwa [e]

theorem takes_and {α : Type} {P Q R : Prop} {x : Except Err α} (h : Takes (P ∧ Q ∧ R) x) : Takes ((P ∧ Q) ∧ R) x :=
  takes_true h and_assoc

theorem poolState_range (st : PoolState) : IntKind.psInt.InRange st.number := by
  rw [IntKind.inRange_iff]; cases st <;> decide

theorem pipeState_range (st : PipeState) : IntKind.psInt.InRange st.number := by
  rw [IntKind.inRange_iff]; cases st <;> decide

/-! ## Histories -/

/-- The message on the link. -/
def MailOf (p : Post) (m : Mail Outgoing) : Prop :=
  ∃ sh, p.letter.shape = .ok sh ∧ m = ⟨p.letter.type, p.pid, sh.outgoing p.heap p.addr p.key⟩

theorem mails_append (as bs : List WireOp) : mails (as ++ bs) = mails as ++ mails bs := by
  induction as with
  | nil => rfl
  | cons a as ih => cases a <;> simp [mails, ih]

theorem mails_of {ops : List LetterOp} (h : ∀ p ∈ posts ops, ∃ sh, p.letter.shape = .ok sh) :
    All2 MailOf (posts ops) (mails (ops.flatMap LetterOp.wire)) := by
  induction ops with
  | nil => exact .nil
  | cons op ops ih =>
    rw [List.flatMap_cons, mails_append]
    cases op with
    | post p =>
      obtain ⟨sh, e⟩ := h p (by simp [posts])
      have hw : LetterOp.wire (.post p) = [.send p.letter.type (sh.outgoing p.heap p.addr p.key) p.pid p.stream] := by
        simp only [LetterOp.wire, e]
      rw [hw]
      exact .cons ⟨sh, e, rfl⟩ (ih fun q hq => h q (by simp [posts, hq]))
    | flush a => exact ih h
    | deliver => exact ih h
    | poll => exact ih h

theorem wires_length (ops : List LetterOp) : (ops.flatMap LetterOp.wire).length ≤ ops.length := by
  induction ops with
  | nil => exact Nat.le_refl _
  | cons op ops ih =>
    rw [List.flatMap_cons, List.length_append, List.length_cons]
    have : (LetterOp.wire op).length ≤ 1 := by
      cases op with
      | post p => simp only [LetterOp.wire]; split <;> simp
      | _ => simp [LetterOp.wire]
    omega

theorem mem_posts {ops : List LetterOp} {p : Post} : p ∈ posts ops ↔ LetterOp.post p ∈ ops := by
  induction ops with
  | nil => simp [posts]
  | cons op ops ih => cases op <;> simp [posts, ih]

theorem All2.take {α β : Type} {R : α → β → Prop} {as : List α} {bs : List β} (h : All2 R as bs) (n : Nat) :
    All2 R (as.take n) (bs.take n) := by
  induction h generalizing n with
  | nil => simp only [List.take_nil]; exact .nil
  | cons h _ ih =>
    cases n with
    | zero => exact .nil
    | succ n => exact .cons h (ih n)

theorem All2.comp {α β γ : Type} {R : α → β → Prop} {S : β → γ → Prop} {T : α → γ → Prop} {as : List α} {bs : List β} {cs : List γ}
    (h : All2 R as bs) (h' : All2 S bs cs) (hT : ∀ a ∈ as, ∀ b c, R a b → S b c → T a c) : All2 T as cs := by
  induction h generalizing cs with
  | nil => cases h'; exact .nil
  | cons h t ih =>
    cases h' with
    | cons h' t' =>
      exact .cons (hT _ List.mem_cons_self _ _ h h') (ih t' fun a ha => hT a (List.mem_cons_of_mem _ ha))

theorem event_of {E : TextEnv} {L : Lib} (hL : L.NoObject) {p : Post} (ok : p.Ok E L) {m : Mail Outgoing} {i : Mail (Except Err Incoming)}
    (hm : MailOf p m) (ha : Arrives L m i) : EventOf L p i := by
  obtain ⟨sh, e, rfl⟩ := hm
  obtain ⟨h1, h2, x, hx, hs⟩ := ha
  obtain ⟨ev, φ, he, hsh, ho⟩ := event_back hL ok e hs
  exact ⟨h1, h2, x, ev, φ, hx, by rw [h1]; exact he, hsh, ho⟩

theorem wires_legal {E : TextEnv} {L : Lib} (hL : L.NoObject) {n : Nat} {ops : List LetterOp} (hp : ∀ p ∈ posts ops, p.Ok E L)
    (hs : ∀ p ∈ posts ops, ∀ sh, p.letter.shape = .ok sh → ∃ t d,
      messageData E n p.letter.type (sh.outgoing p.heap p.addr p.key) = .ok (t, d) ∧ d.length + 40 < 2 ^ 32)
    (ha : ∀ a, LetterOp.flush (some a) ∈ ops → 22 ≤ a) : ∀ op ∈ ops.flatMap LetterOp.wire, op.Legal E L n := by
  intro op hop
  obtain ⟨o, ho, hw⟩ := List.mem_flatMap.mp hop
  cases o with
  | post p =>
    have hm := mem_posts.mpr ho
    simp only [LetterOp.wire] at hw
    cases e : p.letter.shape with
    | error x => rw [e] at hw; simp at hw
    | ok sh =>
      rw [e] at hw
      simp only [List.mem_singleton] at hw
      subst hw
      refine ⟨shape_sendable hL (hp p hm) e, ?_, (hp p hm).pid⟩
      intro t' d' h'
      obtain ⟨t, d, h1, h2⟩ := hs p hm sh e
      rw [h1] at h'
      cases h'
      exact h2
  | flush a =>
    simp only [LetterOp.wire, List.mem_singleton] at hw
    subst hw
    cases a with
    | none => trivial
    | some a => exact ha a ho
  | deliver => simp only [LetterOp.wire, List.mem_singleton] at hw; subst hw; trivial
  | poll => simp only [LetterOp.wire, List.mem_singleton] at hw; subst hw; trivial

end Verif
