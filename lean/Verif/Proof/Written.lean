import Verif.Spec.Written
import Verif.Props.Contents
import Verif.Props.Records

/-! # Lemmas on records in messages (C77) -/

namespace Verif

/-! ## Properties by name -/

theorem last_match {φ : Nat → Option Nat} (name : PyStr) {ps : List (PyStr × PVal)} {es : List (PyStr × DVal)} (h : All2 (PMatch φ) ps es) :
    ((ps.filter (·.1 = name)).getLast? = none ∧ (es.filter (·.1 = name)).getLast? = none) ∨
    ∃ p e, (ps.filter (·.1 = name)).getLast? = some p ∧ (es.filter (·.1 = name)).getLast? = some e ∧ VMatch φ p.2 e.2 ∧ p ∈ ps := by
  induction h with
  | nil => exact .inl ⟨rfl, rfl⟩
  | @cons p e ps es h _ ih =>
    rw [List.filter_cons, List.filter_cons]
    by_cases hn : p.1 = name
    · rw [if_pos (decide_eq_true hn), if_pos (decide_eq_true (h.1 ▸ hn)), List.getLast?_cons, List.getLast?_cons]
      rcases ih with ⟨h1, h2⟩ | ⟨q, f, h1, h2, h3, h4⟩
      · rw [h1, h2]
        exact .inr ⟨p, e, rfl, rfl, h.2, List.mem_cons_self⟩
      · rw [h1, h2]
        exact .inr ⟨q, f, rfl, rfl, h3, List.mem_cons_of_mem _ h4⟩
    · rw [if_neg (by simpa using hn), if_neg (by rw [← h.1]; simpa using hn)]
      rcases ih with h' | ⟨q, f, h1, h2, h3, h4⟩
      · exact .inl h'
      · exact .inr ⟨q, f, h1, h2, h3, List.mem_cons_of_mem _ h4⟩

theorem attr_match {L : Lib} {φ : Nat → Option Nat} {H : Heap} {s : DState} {roots : List PVal} {v : PVal} {d : DVal} (hv : VMatch φ v d)
    (ho : ∀ a, Reach H roots a → ∀ b, φ b = some a → ∃ o, s.heap[b]? = some o ∧ OMatch L φ (H a) (s.shown L o))
    (hr : ∀ a, v = .ref a → Reach H roots a) (name : PyStr) :
    ((H.completed L).attr v name = .error .attributeError ∧ s.attr L d name = .error .attributeError) ∨
    ∃ x y, (H.completed L).attr v name = .ok x ∧ s.attr L d name = .ok y ∧ VMatch φ x y ∧ ∀ a, x = .ref a → Reach H roots a := by
  cases v with
  | nil => cases hv; exact .inl ⟨rfl, rfl⟩
  | bool b => cases hv; exact .inl ⟨rfl, rfl⟩
  | prim p => cases hv; exact .inl ⟨rfl, rfl⟩
  | ref a =>
    obtain ⟨b, rfl, hb⟩ := hv
    obtain ⟨o, h1, m⟩ := ho a (hr a rfl) b hb
    rcases last_match name (m.adapted.append m.extended) with ⟨h2, h3⟩ | ⟨p, e, h2, h3, h4, h5⟩
    · left
      simp only [Heap.attr, DState.attr, h1]
      rw [show (H.completed L a).adapted ++ (H.completed L a).extended = (L.completed (H a)).adapted ++ (L.completed (H a)).extended from rfl,
        h2, h3]
      exact ⟨rfl, rfl⟩
    · right
      refine ⟨p.2, e.2, ?_, ?_, h4, fun c hc => .step (hr a rfl) ?_⟩
      · simp only [Heap.attr]
        rw [show (H.completed L a).adapted ++ (H.completed L a).extended = (L.completed (H a)).adapted ++ (L.completed (H a)).extended from rfl,
          h2]
      · simp only [DState.attr, h1]
        rw [h3]
      · unfold PObj.values
        rw [← hc]
        rcases List.mem_append.mp h5 with h5 | h5
        · exact List.mem_append_left _ (List.mem_append_left _ (List.mem_map.mpr ⟨p, arranged_ref h5 hc, rfl⟩))
        · exact List.mem_append_left _ (List.mem_append_right _ (List.mem_map.mpr ⟨p, arranged_ref h5 hc, rfl⟩))

/-! ## Notes that arrive -/

theorem leaf_list {φ : Nat → Option Nat} {val : Nat → PVal} : ∀ {l : List Nat} {vs : List PVal} {ds : List DVal},
    All2 (fun i v => v = val i) l vs → All2 (VMatch φ) vs ds → All2 (fun i d => VMatch φ (val i) d) l ds
  | _, _, _, .nil, .nil => .nil
  | _, _, _, .cons h t, .cons h' t' => .cons (h ▸ h') (leaf_list t t')

theorem leaf_dict {φ : Nat → Option Nat} {val : Nat → PVal} : ∀ {l : List (Nat × Nat)} {vs : List (PVal × PVal)} {ds : List (DVal × DVal)},
    All2 (fun p q => q.1 = val p.1 ∧ q.2 = val p.2) l vs → All2 (EMatch φ) vs ds →
    All2 (fun p d => VMatch φ (val p.1) d.1 ∧ VMatch φ (val p.2) d.2) l ds
  | _, _, _, .nil, .nil => .nil
  | _, _, _, .cons h t, .cons h' t' => .cons ⟨h.1 ▸ h'.1, h.2 ▸ h'.2⟩ (leaf_dict t t')

theorem note_arrives {L : Lib} {φ : Nat → Option Nat} {H : Heap} {s : DState} {roots : List PVal} {val : Nat → PVal}
    {valInfo : InvocationInfo Nat → PVal} {n : NoteVal Nat} {v : PVal} {d : DVal}
    (ho : ∀ a, Reach H roots a → ∀ b, φ b = some a → ∃ o, s.heap[b]? = some o ∧ OMatch L φ (H a) (s.shown L o))
    (hn : (sentView L H val valInfo).IsNote n v) (hv : VMatch φ v d) (hr : ∀ a, v = .ref a → Reach H roots a) :
    (seenView L s φ val valInfo).IsNote n d := by
  have lm : ∀ {v : PVal} {d : DVal}, VMatch φ v d → (∀ a, v = .ref a → Reach H roots a) →
      NodeMatch φ ((H.completed L).look v) (s.look L d) :=
    fun hv hr => look_match hv fun a e b hb => ho a (hr a e) b hb
  have h := lm hv hr
  cases n with
  | nil => rw [show (H.completed L).look v = _ from hn] at h; exact h
  | bool b => rw [show (H.completed L).look v = _ from hn] at h; exact h
  | int b => rw [show (H.completed L).look v = _ from hn] at h; exact h
  | enum b => rw [show (H.completed L).look v = _ from hn] at h; exact h
  | str b => rw [show (H.completed L).look v = _ from hn] at h; exact h
  | list l =>
    obtain ⟨vs, h1, h2⟩ := hn
    rw [show (H.completed L).look v = _ from h1] at h
    obtain ⟨ds, h3, h4⟩ := h
    exact ⟨ds, h3, leaf_list h2 h4⟩
  | dict l =>
    obtain ⟨vs, h1, h2⟩ := hn
    rw [show (H.completed L).look v = _ from h1] at h
    obtain ⟨ds, h3, h4⟩ := h
    exact ⟨ds, h3, leaf_dict h2 h4⟩
  | value i =>
    have : v = val i := hn
    subst this
    exact hv
  | info i =>
    have : v = valInfo i := hn
    subst this
    exact hv
  | exception e =>
    obtain ⟨h1, h2⟩ := hn
    have : v = val e.value := h1
    refine ⟨by show VMatch φ (val e.value) d; rw [← this]; exact hv, ?_⟩
    rcases attr_match hv ho hr (txt! "Message") with ⟨q1, q2⟩ | ⟨x, y, q1, q2, q3, q4⟩
    · cases hm : e.message with
      | none => exact q2
      | some m =>
        rw [hm] at h2
        cases m with
        | none => obtain ⟨x, hx, _⟩ := h2; rw [show (H.completed L).attr v _ = _ from hx] at q1; cases q1
        | some t => obtain ⟨x, hx, _⟩ := h2; rw [show (H.completed L).attr v _ = _ from hx] at q1; cases q1
    · cases hm : e.message with
      | none =>
        rw [hm] at h2
        rw [show (H.completed L).attr v _ = _ from h2] at q1
        cases q1
      | some m =>
        rw [hm] at h2
        have hl := lm q3 q4
        cases m with
        | none =>
          obtain ⟨x', hx, hx'⟩ := h2
          rw [show (H.completed L).attr v _ = _ from hx] at q1
          cases q1
          rw [show (H.completed L).look x = _ from hx'] at hl
          exact ⟨y, q2, hl⟩
        | some t =>
          obtain ⟨x', hx, hx'⟩ := h2
          rw [show (H.completed L).attr v _ = _ from hx] at q1
          cases q1
          rw [show (H.completed L).look x = _ from hx'] at hl
          exact ⟨y, q2, hl⟩

/-! ## The object of a record -/

theorem kind_name (k : RecordClass) : k.typeName ≠ [] := by cases k <;> decide

theorem record_class {L : Lib} (hR : L.HasRecords) {k : RecordClass} {o : PObj} (hd : o.data = .none)
    (ht : o.types.head? = some k.typeName) : resultClass L o = some k.cls := by
  have hre : L.reg.rehydrate o.types = .instance_ k.cls := by
    cases h : o.types with
    | nil => rw [h] at ht; cases ht
    | cons t ts =>
      rw [h] at ht
      simp only [List.head?_cons, Option.some.injEq] at ht
      subst ht
      unfold Registry.rehydrate
      simp only [if_neg (kind_name k), (hR k).1]
  unfold resultClass
  rw [hd, hre]

theorem record_completed {L : Lib} (hR : L.HasRecords) {k : RecordClass} {o : PObj} (hd : o.data = .none)
    (ht : o.types.head? = some k.typeName) (ha : o.adapted = []) :
    (L.completed o).adapted = (L.info k.cls).adapted.map (fun n => (n, PVal.nil)) ∧ (L.completed o).extended = o.extended := by
  have hD : L.declared o = L.info k.cls := by
    unfold Lib.declared
    rw [record_class hR hd ht]
  unfold Lib.completed
  rw [hD]
  dsimp only
  rw [(hR k).2, arranged_nil, ha]
  refine ⟨?_, rfl⟩
  unfold arranged
  simp

theorem notes_lookup {w : View PVal} {name : PyStr} {n : NoteVal Nat} : ∀ {o : Notes Nat} {ps : List (PyStr × PVal)},
    All2 (fun n q => q.1 = n.1 ∧ w.IsNote n.2 q.2) o ps → (ps.map Prod.fst).Nodup → o.lookup name = some n →
    ∃ v, ps.filter (·.1 = name) = [(name, v)] ∧ w.IsNote n v
  | _, _, .nil, _, h => by cases h
  | (m, x) :: o, (m', v) :: ps, .cons hh t, hn, h => by
    obtain ⟨h1, h2⟩ := hh
    dsimp only at h1 h2
    subst h1
    rw [List.map_cons, List.nodup_cons] at hn
    rw [List.lookup_cons] at h
    by_cases e : name = m'
    · subst e
      rw [beq_self_eq_true] at h
      cases h
      refine ⟨v, ?_, h2⟩
      rw [List.filter_cons, if_pos (by simp)]
      congr 1
      rw [List.filter_eq_nil_iff]
      intro q hq hqn
      exact hn.1 (List.mem_map.mpr ⟨q, hq, by simpa using hqn⟩)
    · rw [show (name == m') = false from beq_eq_false_iff_ne.mpr e] at h
      obtain ⟨v', h3, h4⟩ := notes_lookup t hn.2 h
      refine ⟨v', ?_, h4⟩
      rw [List.filter_cons, if_neg (by simpa using fun q => e q.symm)]
      exact h3

theorem notes_lookup_none {w : View PVal} {name : PyStr} : ∀ {o : Notes Nat} {ps : List (PyStr × PVal)},
    All2 (fun n q => q.1 = n.1 ∧ w.IsNote n.2 q.2) o ps → o.lookup name = none → ps.filter (·.1 = name) = []
  | _, _, .nil, _ => rfl
  | (m, x) :: o, (m', v) :: ps, .cons hh t, h => by
    obtain ⟨h1, h2⟩ := hh
    dsimp only at h1 h2
    subst h1
    rw [List.lookup_cons] at h
    by_cases e : name = m'
    · subst e
      rw [beq_self_eq_true] at h
      cases h
    · rw [show (name == m') = false from beq_eq_false_iff_ne.mpr e] at h
      rw [List.filter_cons, if_neg (by simpa using fun q => e q.symm)]
      exact notes_lookup_none t h

theorem declared_last (name : PyStr) (l : List PyStr) :
    ((l.map fun n => (n, PVal.nil)).filter (·.1 = name)).getLast? = if name ∈ l then some (name, .nil) else none := by
  induction l with
  | nil => rfl
  | cons n l ih =>
    rw [List.map_cons, List.filter_cons]
    by_cases e : n = name
    · subst e
      rw [if_pos (by simp), List.getLast?_cons, ih, if_pos List.mem_cons_self]
      split <;> rfl
    · rw [if_neg (by simpa using e), ih]
      by_cases h : name ∈ l
      · rw [if_pos h, if_pos (List.mem_cons_of_mem _ h)]
      · rw [if_neg h, if_neg (by simp [h, Ne.symm e])]

theorem record_object {E : TextEnv} {L : Lib} (hR : L.HasRecords) {φ : Nat → Option Nat} {H : Heap} {s : DState} {roots : List PVal}
    {val : Nat → PVal} {valInfo : InvocationInfo Nat → PVal} {k : RecordClass} {o : Notes Nat} {v : PVal} {d : DVal}
    (ok : ∀ a, Reach H roots a → (H a).Ok E L)
    (ho : ∀ a, Reach H roots a → ∀ b, φ b = some a → ∃ o, s.heap[b]? = some o ∧ OMatch L φ (H a) (s.shown L o))
    (hv : VMatch φ v d) (hr : ∀ a, v = .ref a → Reach H roots a) (h : IsRecordObject L H val valInfo k o v) :
    IsReadRecord L s (seenView L s φ val valInfo) k o d := by
  obtain ⟨a, rfl, hd, ht, ha, hn⟩ := h
  have hreach := hr a rfl
  obtain ⟨cA, cE⟩ := record_completed hR hd ht ha
  have sent : ∀ name, (H.completed L).attr (.ref a) name =
      match (((L.info k.cls).adapted.map (fun n => (n, PVal.nil))).filter (·.1 = name) ++ (H a).extended.filter (·.1 = name)).getLast? with
      | none => .error .attributeError
      | some q => .ok q.2 := by
    intro name
    simp only [Heap.attr]
    rw [show (H.completed L a).adapted = _ from cA, show (H.completed L a).extended = _ from cE, List.filter_append]
    rfl
  refine ⟨?_, ?_, ?_⟩
  · obtain ⟨b, rfl, hb⟩ := hv
    obtain ⟨x, h1, m⟩ := ho a hreach b hb
    exact ⟨b, x, rfl, h1, m.cls.trans (record_class hR hd ht)⟩
  · intro name n hl
    obtain ⟨w, hf, hw⟩ := notes_lookup hn (ok a hreach).extended hl
    have hs := sent name
    rw [hf, List.getLast?_append] at hs
    rcases attr_match hv ho hr name with ⟨q1, q2⟩ | ⟨x, y, q1, q2, q3, q4⟩
    · rw [q1] at hs
      cases hs
    · rw [q1] at hs
      simp only [List.getLast?_singleton, Option.some_or, Except.ok.injEq] at hs
      subst hs
      exact ⟨y, q2, note_arrives ho hw q3 q4⟩
  · intro name hl
    have hs := sent name
    rw [notes_lookup_none hn hl, List.append_nil, declared_last] at hs
    show s.attr L d name = _
    rcases attr_match hv ho hr name with ⟨q1, q2⟩ | ⟨x, y, q1, q2, q3, q4⟩
    · rw [q1] at hs
      rw [q2]
      by_cases hm : name ∈ (L.info k.cls).adapted
      · rw [if_pos hm] at hs; cases hs
      · rw [if_neg hm]
    · rw [q1] at hs
      rw [q2]
      by_cases hm : name ∈ (L.info k.cls).adapted
      · rw [if_pos hm] at hs ⊢
        cases hs
        cases q3
        rfl
      · rw [if_neg hm] at hs; cases hs

/-! ## The record in the event -/

theorem informational_read {root : PyStr → PyStr} {r : InformationalRecord Nat} (h : r.Ready) : r.ReadFrom root r.toRemoting := by
  by_cases hs : ∃ i, r.Sends i
  · obtain ⟨i, hs⟩ := hs
    obtain ⟨r', j, h1, h2, h3, _, h4, h5⟩ := C66_partial root r i hs (h i hs).1 (h i hs).2
    refine ⟨r', h1, h2, fun i' hs' => ?_, fun hno => absurd hs (hno i)⟩
    obtain rfl : i' = i := by
      have := hs'.2
      rw [hs.2] at this
      cases this
      rfl
    exact ⟨h3, j, h4, h5⟩
  · have hno : ∀ i, ¬ r.Sends i := fun i hi => hs ⟨i, hi⟩
    obtain ⟨r', h1, h2, h3, h4, _⟩ := C66_unsent root r hno
    exact ⟨r', h1, h2, fun i hi => absurd hi (hno i), fun _ => ⟨h3, h4⟩⟩

theorem written_read {root : PyStr → PyStr} {r : Written} {o : Notes Nat} (h : r.Ready) (hn : r.notes = .ok o) : r.ReadFrom root o := by
  cases r with
  | error r =>
    obtain ⟨h1, h2, h3, h4⟩ := h
    have hs : r.send = .ok o := hn
    obtain ⟨r', q1, q2, ⟨shown, q3, _, q4⟩, q5, q6, q7⟩ := C65_partial root r h1 ⟨o, hs⟩ h2 h3 h4
    unfold ErrorRecord.trip at q1
    rw [hs] at q1
    exact ⟨r', q1, q2, ⟨shown, q3, q4⟩, q5, fun i hi => ⟨(q6 i hi).2.1, (q6 i hi).2.2⟩, fun hno => ⟨(q7 hno).2.2, (q7 hno).2.1⟩⟩
  | debug r => cases hn; exact informational_read h
  | verbose r => cases hn; exact informational_read h
  | warning r => cases hn; exact informational_read h

theorem record_arrives {E : TextEnv} {L : Lib} (hR : L.HasRecords) {root : PyStr → PyStr} {val : Nat → PVal}
    {valInfo : InvocationInfo Nat → PVal} {r : Written} {p : Post} {i : Mail (Except Err Incoming)} (ok : p.Ok E L) (hv : r.Ready)
    (hc : r.Sent L p.heap val valInfo p.letter) (he : EventOf L p i) : RecordArrives L root val valInfo r p i := by
  obtain ⟨h1, h2, x, e, φ, hx, hr, hs, ho⟩ := he
  obtain ⟨o, v, hn, hl, hobj⟩ := hc
  cases x with
  | endOfInput =>
    have : e = .endOfPipelineInput := by cases hr; rfl
    subst this
    exfalso
    generalize p.letter = l at hs hl
    cases l <;> first | exact hs | exact hl
  | object x ds =>
    have hob : ∀ a, Reach p.heap p.letter.objects a → ∀ b, φ b = some a →
        ∃ o, ds.heap[b]? = some o ∧ OMatch L φ (p.heap a) (ds.shown L o) :=
      fun a ha b hb => ho x ds rfl b a hb (ok.addr a ha)
    have hd : ∃ d, e.Carries r.kind d ∧ VMatch φ v d ∧ v ∈ p.letter.objects := by
      generalize p.letter = l at hs hl
      cases l <;> simp only [Letter.Carries] at hl
      case record =>
        obtain ⟨rfl, rfl⟩ := hl
        cases e <;> simp only [Shows] at hs
        exact ⟨_, ⟨hs.1, rfl⟩, hs.2, by simp [Letter.objects]⟩
      case runspacePoolState =>
        obtain ⟨hk, rfl⟩ := hl
        cases e <;> simp only [Shows] at hs
        exact ⟨_, ⟨hk, rfl⟩, hs.2, by simp [Letter.objects]⟩
      case pipelineState =>
        obtain ⟨hk, rfl⟩ := hl
        cases e <;> simp only [Shows] at hs
        exact ⟨_, ⟨hk, rfl⟩, hs.2, by simp [Letter.objects]⟩
      case runspacePoolHostResponse =>
        obtain ⟨hk, rfl⟩ := hl
        cases e <;> simp only [Shows] at hs
        exact ⟨_, ⟨hk, rfl⟩, hs.2.2.2, by simp [Letter.objects]⟩
      case pipelineHostResponse =>
        obtain ⟨hk, rfl⟩ := hl
        cases e <;> simp only [Shows] at hs
        exact ⟨_, ⟨hk, rfl⟩, hs.2.2.2, by simp [Letter.objects]⟩
    obtain ⟨d, hcar, hm, hmem⟩ := hd
    exact ⟨h1, h2, x, ds, e, φ, o, d, hx, hr, hcar,
      record_object hR ok.graph.objs hob hm (fun a e => .root (e ▸ hmem)) hobj, written_read hv hn, ho x ds rfl⟩

end Verif
