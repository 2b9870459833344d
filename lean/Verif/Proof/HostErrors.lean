import Verif.Spec.HostErrors
import Verif.Proof.Written

/-! # Lemmas on the errors of host responses (C79) -/

namespace Verif

theorem loose_class {L : Lib} {o : PObj} (hd : o.data = .none) (ht : ∀ t, o.types.head? = some t → L.reg.types.get? t = none) :
    resultClass L o = none := by
  have hre : ∃ l, L.reg.rehydrate o.types = .plain l := by
    cases h : o.types with
    | nil => exact ⟨_, rfl⟩
    | cons t ts =>
      unfold Registry.rehydrate
      by_cases e : t = []
      · exact ⟨_, by simp only [if_pos e]; rfl⟩
      · exact ⟨_, by simp only [if_neg e, ht t (by rw [h]; rfl)]; rfl⟩
  obtain ⟨l, hre⟩ := hre
  unfold resultClass
  rw [hd, hre]

theorem loose_completed {L : Lib} {o : PObj} (hd : o.data = .none) (ht : ∀ t, o.types.head? = some t → L.reg.types.get? t = none) :
    L.completed o = o := by
  have hD : L.declared o = {} := by
    unfold Lib.declared
    rw [loose_class hd ht]
  unfold Lib.completed
  rw [hD]
  show ({ o with adapted := arranged .nil [] o.adapted, extended := arranged .nil [] o.extended } : PObj) = o
  rw [arranged_nil, arranged_nil]

theorem loose_object {E : TextEnv} {L : Lib} {φ : Nat → Option Nat} {H : Heap} {s : DState} {roots : List PVal}
    {val : Nat → PVal} {valInfo : InvocationInfo Nat → PVal} {o : Notes Nat} {v : PVal} {d : DVal}
    (ok : ∀ a, Reach H roots a → (H a).Ok E L)
    (ho : ∀ a, Reach H roots a → ∀ b, φ b = some a → ∃ o, s.heap[b]? = some o ∧ OMatch L φ (H a) (s.shown L o))
    (hv : VMatch φ v d) (hr : ∀ a, v = .ref a → Reach H roots a) (h : IsLooseRecord L H val valInfo o v) :
    HasNotes (seenView L s φ val valInfo) o d ∧ s.truth d = true ∧
      ∃ b x, d = .ref b ∧ s.heap[b]? = some x ∧ (s.shown L x).cls = none := by
  obtain ⟨a, rfl, hd, ht, ha, hn⟩ := h
  have hreach := hr a rfl
  have sent : ∀ name, (H.completed L).attr (.ref a) name =
      match ((H a).extended.filter (·.1 = name)).getLast? with
      | none => .error .attributeError
      | some q => .ok q.2 := by
    intro name
    simp only [Heap.attr]
    rw [show H.completed L a = H a from loose_completed hd ht, ha, List.nil_append]
    rfl
  refine ⟨⟨?_, ?_⟩, ?_⟩
  · intro name n hl
    obtain ⟨w, hf, hw⟩ := notes_lookup hn (ok a hreach).extended hl
    have hs := sent name
    rw [hf] at hs
    rcases attr_match hv ho hr name with ⟨q1, q2⟩ | ⟨x, y, q1, q2, q3, q4⟩
    · rw [q1] at hs
      cases hs
    · rw [q1] at hs
      simp only [List.getLast?_singleton, Except.ok.injEq] at hs
      subst hs
      exact ⟨y, q2, note_arrives ho hw q3 q4⟩
  · intro name hl
    have hs := sent name
    rw [notes_lookup_none hn hl] at hs
    rcases attr_match hv ho hr name with ⟨q1, q2⟩ | ⟨x, y, q1, q2, q3, q4⟩
    · exact q2
    · rw [q1] at hs; cases hs
  · obtain ⟨b, rfl, hb⟩ := hv
    obtain ⟨x, h1, m⟩ := ho a hreach b hb
    have hx : x.data = .none := by
      have := m.data
      rw [hd] at this
      have e : (s.shown L x).data = x.data := by
        unfold DState.shown
        cases L.enumClass x <;> rfl
      rw [← e]
      exact this
    refine ⟨?_, b, x, rfl, h1, m.cls.trans (loose_class hd ht)⟩
    simp only [DState.truth, h1]
    obtain ⟨⟩ := x
    cases hx
    rfl

/-- The event of the response to a failed call: its class is that of the message, and the value under `me` stands for the one that was
sent. -/
theorem failed_event {E : TextEnv} {L : Lib} {p : Post} {i : Mail (Except Err Incoming)} {pipeline : Bool} {v : PVal} (ok : p.Ok E L)
    (hl : p.letter.FailedCall pipeline v) (he : EventOf L p i) :
    i.type = p.letter.type ∧ i.pid = p.pid ∧ ∃ x ds e φ d, i.object = .ok (.object x ds) ∧ readEvent L i.type (.object x ds) = .ok e ∧
      e.error L ds = some (if pipeline then pipelineHostError L ds d else poolHostError d) ∧ VMatch φ v d ∧ v ∈ p.letter.objects ∧
      (∀ a, Reach p.heap p.letter.objects a → ∀ b, φ b = some a →
        ∃ o, ds.heap[b]? = some o ∧ OMatch L φ (p.heap a) (ds.shown L o)) ∧
      ∀ b a, φ b = some a → a ≠ p.addr → ∃ y, ds.heap[b]? = some y ∧ OMatch L φ (p.heap a) (ds.shown L y) := by
  obtain ⟨h1, h2, x, e, φ, hx, hr, hs, ho⟩ := he
  cases x with
  | endOfInput =>
    have : e = .endOfPipelineInput := by cases hr; rfl
    subst this
    exfalso
    generalize p.letter = l at hs hl
    cases l <;> first | exact hs | exact hl
  | object x ds =>
    have hd : ∃ d, e.error L ds = some (if pipeline then pipelineHostError L ds d else poolHostError d) ∧ VMatch φ v d ∧
        v ∈ p.letter.objects := by
      generalize p.letter = l at hs hl
      cases l <;> simp only [Letter.FailedCall] at hl
      case runspacePoolHostResponse =>
        obtain ⟨rfl, rfl⟩ := hl
        cases e <;> simp only [Shows] at hs
        exact ⟨_, rfl, hs.2.2.2, by simp [Letter.objects]⟩
      case pipelineHostResponse =>
        obtain ⟨rfl, rfl⟩ := hl
        cases e <;> simp only [Shows] at hs
        exact ⟨_, rfl, hs.2.2.2, by simp [Letter.objects]⟩
    obtain ⟨d, q1, q2, q3⟩ := hd
    exact ⟨h1, h2, x, ds, e, φ, d, hx, hr, q1, q2, q3, fun a ha b hb => ho x ds rfl b a hb (ok.addr a ha), ho x ds rfl⟩

/-! ## The names of the properties -/

theorem lookup_absent {V : Type} (nm : PyStr) : ∀ {l : Notes V}, (∀ x ∈ l.map Prod.fst, x ≠ nm) → l.lookup nm = none
  | [], _ => rfl
  | (m, x) :: l, h => by
    rw [List.lookup_cons, show (nm == m) = false from beq_eq_false_iff_ne.mpr (Ne.symm (h m List.mem_cons_self))]
    exact lookup_absent nm fun y hy => h y (List.mem_cons_of_mem _ hy)

theorem info_absent (i : InvocationInfo Nat) : ∀ x ∈ (infoNotes i).map Prod.fst, x ≠ txt! "CategoryInfo" := by
  unfold infoNotes
  simp only [List.map_append, List.mem_append]
  rintro x ((h | h) | h)
  · revert x
    simp only [List.map_cons, List.map_nil]
    decide +kernel
  · cases hd : i.displayScriptPosition with
    | none =>
      rw [hd] at h
      revert x
      simp only [List.map_cons, List.map_nil]
      decide +kernel
    | some e =>
      rw [hd] at h
      revert x
      simp only [extentNotes, List.map_cons, List.map_nil, List.map_append]
      decide +kernel
  · cases hd : i.myCommand with
    | none => rw [hd] at h; cases h
    | some c =>
      rw [hd] at h
      revert x
      simp only [commandNotes, List.map_cons, List.map_nil]
      decide +kernel

theorem send_category {r : ErrorRecord Nat} {o : Notes Nat} (h : r.send = .ok o) : o.lookup (txt! "CategoryInfo") = none := by
  obtain ⟨n, hn, hs, hi⟩ := send_inv r o h
  rw [send_ok r n hn hs hi] at h
  cases h
  apply lookup_absent
  simp only [List.map_append, List.mem_append]
  rintro x (((h | h) | h) | h)
  · revert x
    simp only [errorHead, List.map_cons, List.map_nil]
    decide +kernel
  · cases hd : r.errorDetails with
    | none => rw [hd] at h; cases h
    | some d =>
      rw [hd] at h
      revert x
      simp only [detailsNotes, List.map_cons, List.map_nil]
      decide +kernel
  · unfold traceNotes at h
    split at h
    · cases h
    · split at h
      · cases h
      · revert x
        simp only [List.map_cons, List.map_nil]
        decide +kernel
  · unfold extendedNotes at h
    split at h
    · simp only [List.map_append, List.mem_append] at h
      rcases h with (h | h) | h
      · revert x
        simp only [List.map_cons, List.map_nil]
        decide +kernel
      · exact info_absent _ x h
      · revert x
        simp only [List.map_cons, List.map_nil]
        decide +kernel
    · revert x
      simp only [List.map_cons, List.map_nil]
      decide +kernel

theorem made_loose {L : Lib} {s : DState} {d : DVal} (ht : s.truth d = true)
    (hc : ∃ b x, d = .ref b ∧ s.heap[b]? = some x ∧ (s.shown L x).cls = none) : pipelineHostError L s d = .made d := by
  obtain ⟨b, x, rfl, hx, hc⟩ := hc
  unfold pipelineHostError DState.isErrorRecord
  simp only [ht, hx, hc]
  rfl

theorem value_record {L : Lib} {s : DState} {w : View DVal} {o : Notes Nat} {d : DVal} (h : IsReadRecord L s w .error o d) :
    pipelineHostError L s d = .value d := by
  obtain ⟨⟨b, x, rfl, hx, hc⟩, _⟩ := h
  have : s.isErrorRecord L (.ref b) = true := by
    unfold DState.isErrorRecord
    simp only [hx, hc]
    rfl
  unfold pipelineHostError
  rw [this]
  simp

end Verif
