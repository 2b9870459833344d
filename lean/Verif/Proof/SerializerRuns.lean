import Verif.Spec.Serializer
import Verif.Proof.Transport

/-! # Serializing ends, lemmas -/

namespace Verif

/-- Reference ids are below the next one. -/
def SState.Wf (s : SState) : Prop := ∀ k r, s.objRef.get? k = some r → r < s.nextId

/-- How many of the keys have no reference id yet. -/
def SState.left (ks : List Nat) (s : SState) : Nat := (ks.filter fun k => s.objRef.get? k = none).length

/-- The depth that is enough for a value. -/
def enough (H : Heap) (rank : Nat → Nat) (R u : Nat) : PVal → Nat
  | .ref a => if (H a).key = none then u * (R + 2) + rank a + 2 else u * (R + 2) + 1
  | _ => 1

theorem enough_mono {H : Heap} {rank : Nat → Nat} {R u u' : Nat} (h : u ≤ u') (v : PVal) :
    enough H rank R u v ≤ enough H rank R u' v := by
  have := Nat.mul_le_mul_right (R + 2) h
  cases v with
  | ref a => simp only [enough]; split <;> omega
  | _ => exact Nat.le_refl _

/-- `f` serializes these values. -/
def Runs (H : Heap) (rank : Nat → Nat) (R : Nat) (ks : List Nat) (n : Nat)
    (f : PVal → SState → Except Err (Xml × SState)) (vs : List PVal) : Prop :=
  ∀ v ∈ vs, ∀ s : SState, s.Wf → enough H rank R (s.left ks) v ≤ n →
    ∃ x s', f v s = .ok (x, s') ∧ s'.Wf ∧ s'.left ks ≤ s.left ks

section
variable {H : Heap} {rank : Nat → Nat} {R : Nat} {ks : List Nat} {n : Nat}
  {f : PVal → SState → Except Err (Xml × SState)}

theorem runs_items : ∀ (vs : List PVal), Runs H rank R ks n f vs → ∀ s : SState, s.Wf →
    (∀ v ∈ vs, enough H rank R (s.left ks) v ≤ n) →
    ∃ xs s', serItems f vs s = .ok (xs, s') ∧ s'.Wf ∧ s'.left ks ≤ s.left ks := by
  intro vs
  induction vs with
  | nil => intro _ s hs _; exact ⟨[], s, rfl, hs, Nat.le_refl _⟩
  | cons v vs ih =>
    intro hr s hs he
    obtain ⟨x, s1, h1, w1, l1⟩ := hr v (by simp) s hs (he v (by simp))
    obtain ⟨xs, s2, h2, w2, l2⟩ := ih (fun w hw => hr w (by simp [hw])) s1 w1
      (fun w hw => Nat.le_trans (enough_mono l1 w) (he w (by simp [hw])))
    exact ⟨x :: xs, s2, by simp only [serItems, h1, h2], w2, by omega⟩

theorem runs_props : ∀ (ps : List (PyStr × PVal)), Runs H rank R ks n f (ps.map Prod.snd) → ∀ s : SState, s.Wf →
    (∀ v ∈ ps.map Prod.snd, enough H rank R (s.left ks) v ≤ n) →
    ∃ xs s', serProps f ps s = .ok (xs, s') ∧ s'.Wf ∧ s'.left ks ≤ s.left ks := by
  intro ps
  induction ps with
  | nil => intro _ s hs _; exact ⟨[], s, rfl, hs, Nat.le_refl _⟩
  | cons p ps ih =>
    obtain ⟨m, v⟩ := p
    intro hr s hs he
    obtain ⟨x, s1, h1, w1, l1⟩ := hr v (by simp) s hs (he v (by simp))
    obtain ⟨xs, s2, h2, w2, l2⟩ := ih (fun w hw => hr w (List.mem_cons_of_mem _ hw)) s1 w1
      (fun w hw => Nat.le_trans (enough_mono l1 w) (he w (List.mem_cons_of_mem _ hw)))
    exact ⟨x.setName (serializeString m) :: xs, s2, by simp only [serProps, h1, h2], w2, by omega⟩

theorem runs_group (tag : Tag) (ps : List (PyStr × PVal)) (hr : Runs H rank R ks n f (ps.map Prod.snd)) (s : SState)
    (hs : s.Wf) (he : ∀ v ∈ ps.map Prod.snd, enough H rank R (s.left ks) v ≤ n) :
    ∃ xs s', serGroup f tag ps s = .ok (xs, s') ∧ s'.Wf ∧ s'.left ks ≤ s.left ks := by
  unfold serGroup
  split
  · exact ⟨[], s, rfl, hs, Nat.le_refl _⟩
  · obtain ⟨xs, s', h, w, l⟩ := runs_props ps hr s hs he
    exact ⟨_, s', by rw [h], w, l⟩

theorem runs_entries : ∀ (es : List (PVal × PVal)), Runs H rank R ks n f (es.map Prod.fst ++ es.map Prod.snd) →
    ∀ s : SState, s.Wf →
    (∀ v ∈ es.map Prod.fst ++ es.map Prod.snd, enough H rank R (s.left ks) v ≤ n) →
    ∃ xs s', serEntries f es s = .ok (xs, s') ∧ s'.Wf ∧ s'.left ks ≤ s.left ks := by
  intro es
  induction es with
  | nil => intro _ s hs _; exact ⟨[], s, rfl, hs, Nat.le_refl _⟩
  | cons e es ih =>
    obtain ⟨k, v⟩ := e
    intro hr s hs he
    obtain ⟨xk, s1, h1, w1, l1⟩ := hr k (by simp) s hs (he k (by simp))
    obtain ⟨xv, s2, h2, w2, l2⟩ := hr v (by simp) s1 w1
      (Nat.le_trans (enough_mono l1 v) (he v (by simp)))
    have sub : ∀ w ∈ es.map Prod.fst ++ es.map Prod.snd,
        w ∈ ((k, v) :: es).map Prod.fst ++ ((k, v) :: es).map Prod.snd := by
      intro w hw
      simp only [List.map_cons, List.cons_append, List.mem_cons, List.mem_append] at hw ⊢
      rcases hw with h | h <;> simp [h]
    obtain ⟨xs, s3, h3, w3, l3⟩ := ih (fun w hw => hr w (sub w hw)) s2 w2
      (fun w hw => Nat.le_trans (enough_mono (by omega) w) (he w (sub w hw)))
    exact ⟨_, s3, by simp only [serEntries, h1, h2, h3]; rfl, w3, by omega⟩

theorem serTypes_keeps (types : List PyStr) (s : SState) :
    (serTypes types s).2.objRef = s.objRef ∧ (serTypes types s).2.nextId = s.nextId := by
  unfold serTypes
  split
  · exact ⟨rfl, rfl⟩
  · split <;> exact ⟨rfl, rfl⟩

theorem keep_wf {s s' : SState} (h : s'.objRef = s.objRef ∧ s'.nextId = s.nextId) :
    (s.Wf → s'.Wf) ∧ s'.left ks = s.left ks := by
  constructor
  · intro w k r hk; rw [h.1] at hk; rw [h.2]; exact w k r hk
  · unfold SState.left; rw [h.1]

theorem runs_content (a : Nat) (o : PObj) (hr : Runs H rank R ks n f o.values) (s : SState)
    (hs : s.Wf) (he : ∀ v ∈ o.values, enough H rank R (s.left ks) v ≤ n) :
    ∃ xs s', serContent f a o s = .ok (xs, s') ∧ s'.Wf ∧ s'.left ks ≤ s.left ks := by
  unfold serContent
  cases hd : o.data with
  | none => exact ⟨_, s, rfl, hs, Nat.le_refl _⟩
  | ext p => exact ⟨_, s, rfl, hs, Nat.le_refl _⟩
  | enum p => exact ⟨_, s, rfl, hs, Nat.le_refl _⟩
  | list k items =>
    have sub : ∀ v ∈ items, v ∈ o.values := fun v hv => by simp [PObj.values, hd, hv]
    obtain ⟨xs, s', h, w, l⟩ := runs_items items (fun v hv => hr v (sub v hv)) s hs (fun v hv => he v (sub v hv))
    exact ⟨_, s', by dsimp only; rw [h], w, l⟩
  | queue items =>
    have sub : ∀ v ∈ (if s.drained.contains a then [] else items), v ∈ o.values := fun v hv => by
      split at hv
      · cases hv
      · simp [PObj.values, hd, hv]
    have kw := keep_wf (ks := ks) (s := s) (s' := { s with drained := a :: s.drained }) ⟨rfl, rfl⟩
    obtain ⟨xs, s', h, w, l⟩ := runs_items (if s.drained.contains a then [] else items) (fun v hv => hr v (sub v hv))
      { s with drained := a :: s.drained } (kw.1 hs) (fun v hv => by rw [kw.2]; exact he v (sub v hv))
    exact ⟨_, s', by dsimp only; rw [h], w, by rw [kw.2] at l; exact l⟩
  | dict es =>
    have sub : ∀ v ∈ es.map Prod.fst ++ es.map Prod.snd, v ∈ o.values := fun v hv => by
      unfold PObj.values; rw [hd]; exact List.mem_append_right _ hv
    obtain ⟨xs, s', h, w, l⟩ := runs_entries es (fun v hv => hr v (sub v hv)) s hs (fun v hv => he v (sub v hv))
    exact ⟨_, s', by dsimp only; rw [h], w, l⟩

theorem runs_body (E : TextEnv) (a r : Nat) (o : PObj) (hr : Runs H rank R ks n f o.values) (s : SState)
    (hs : s.Wf) (he : ∀ v ∈ o.values, enough H rank R (s.left ks) v ≤ n) :
    ∃ x s', serBody E f a r o s = .ok (x, s') ∧ s'.Wf ∧ s'.left ks ≤ s.left ks := by
  have kw := keep_wf (ks := ks) (serTypes_keeps (writtenTypes o) s)
  have subA : ∀ v ∈ o.adapted.map Prod.snd, v ∈ o.values := fun v hv => by
    unfold PObj.values; simp only [List.mem_append]; exact .inl (.inl hv)
  have subE : ∀ v ∈ o.extended.map Prod.snd, v ∈ o.values := fun v hv => by
    unfold PObj.values; simp only [List.mem_append]; exact .inl (.inr hv)
  obtain ⟨ps, s1, h1, w1, l1⟩ := runs_group .Props o.adapted (fun v hv => hr v (subA v hv)) _ (kw.1 hs)
    (fun v hv => by rw [kw.2]; exact he v (subA v hv))
  rw [kw.2] at l1
  obtain ⟨ms, s2, h2, w2, l2⟩ := runs_group .MS o.extended (fun v hv => hr v (subE v hv)) s1 w1
    (fun v hv => Nat.le_trans (enough_mono l1 v) (he v (subE v hv)))
  obtain ⟨c, s3, h3, w3, l3⟩ := runs_content a o hr s2 w2
    (fun v hv => Nat.le_trans (enough_mono (by omega) v) (he v hv))
  exact ⟨_, s3, by unfold serBody; rw [h1]; dsimp only; rw [h2]; dsimp only; rw [h3], w3, by omega⟩

end

theorem left_set {ks : List Nat} {s : SState} {k r m : Nat} (hk : k ∈ ks) (hn : s.objRef.get? k = none) :
    SState.left ks { s with objRef := s.objRef.set k r, nextId := m } < s.left ks := by
  unfold SState.left
  have key : ∀ l : List Nat, (l.filter fun j => (s.objRef.set k r).get? j = none).length ≤
      (l.filter fun j => s.objRef.get? j = none).length ∧
      (k ∈ l → (l.filter fun j => (s.objRef.set k r).get? j = none).length <
        (l.filter fun j => s.objRef.get? j = none).length) := by
    intro l
    induction l with
    | nil => exact ⟨Nat.le_refl _, fun h => by cases h⟩
    | cons j l ih =>
      by_cases hj : j = k
      · subst hj
        have e1 : ((s.objRef.set j r).get? j = none) = False := by rw [Dict.get?_set_self]; simp
        simp only [List.filter_cons, e1, hn, decide_false, decide_true, Bool.false_eq_true, ↓reduceIte,
          List.length_cons]
        exact ⟨by have := ih.1; omega, fun _ => by have := ih.1; omega⟩
      · have e1 : (s.objRef.set k r).get? j = s.objRef.get? j := Dict.get?_set_ne _ _ (Ne.symm hj)
        simp only [List.filter_cons, e1]
        refine ⟨?_, fun h => ?_⟩
        · split
          · simp only [List.length_cons]; have := ih.1; omega
          · exact ih.1
        · have hl : k ∈ l := by
            rcases List.mem_cons.mp h with h | h
            · exact absurd h.symm hj
            · exact h
          split
          · simp only [List.length_cons]; have := ih.2 hl; omega
          · exact ih.2 hl
  exact (key ks).2 hk

/-- Ranks that go down along every edge to an object that has no reference id. -/
structure Ranked (H : Heap) (S : Nat → Prop) (rank : Nat → Nat) (R : Nat) (ks : List Nat) : Prop where
  down : ∀ a b, S a → PVal.ref b ∈ (H a).values → (H b).key = none → rank b < rank a
  bound : ∀ a, S a → rank a ≤ R
  keys : ∀ a k, S a → (H a).key = some k → k ∈ ks
  closed : ∀ a b, S a → PVal.ref b ∈ (H a).values → S b

theorem ser_runs (E : TextEnv) {H : Heap} {S : Nat → Prop} {rank : Nat → Nat} {R : Nat} {ks : List Nat}
    (h : Ranked H S rank R ks) : ∀ (n : Nat) (vs : List PVal), (∀ a, PVal.ref a ∈ vs → S a) →
    Runs H rank R ks n (ser E H n) vs := by
  intro n
  induction n with
  | zero =>
    intro vs _ v _ s _ he
    cases v with
    | ref a => simp only [enough] at he; split at he <;> omega
    | _ => simp [enough] at he
  | succ n ih =>
    intro vs hS v hv s hs he
    cases v with
    | nil => exact ⟨_, s, rfl, hs, Nat.le_refl _⟩
    | bool b => exact ⟨_, s, rfl, hs, Nat.le_refl _⟩
    | prim p => exact ⟨_, s, rfl, hs, Nat.le_refl _⟩
    | ref a =>
      have ha := hS a hv
      have kids : Runs H rank R ks n (ser E H n) (H a).values := ih _ fun b hb => h.closed a b ha hb
      show ∃ x s', serObj E (ser E H n) a (H a) s = .ok (x, s') ∧ _
      unfold serObj
      cases hb : bareExt (H a) with
      | some p => exact ⟨_, s, rfl, hs, Nat.le_refl _⟩
      | none =>
        dsimp only
        have ra := h.bound a ha
        cases hk : (H a).key with
        | none =>
          have hle : s.left ks * (R + 2) + rank a + 2 ≤ n + 1 := by
            simp only [enough] at he; rw [if_pos hk] at he; exact he
          have kw : (s.Wf → SState.Wf { s with nextId := s.nextId + 1 }) ∧
              SState.left ks { s with nextId := s.nextId + 1 } = s.left ks :=
            ⟨fun w k r hr => Nat.lt_succ_of_lt (w k r hr), rfl⟩
          obtain ⟨x, s', h1, w1, l1⟩ := runs_body E a s.nextId (H a) kids { s with nextId := s.nextId + 1 } (kw.1 hs)
            (fun v hv => by
              rw [kw.2]
              cases v with
              | ref b =>
                simp only [enough]
                split
                · have := h.down a b ha hv (by assumption); omega
                · omega
              | _ => simp only [enough]; omega)
          refine ⟨x, s', ?_, w1, l1⟩
          simp only [getRefId, Bool.false_eq_true, ↓reduceIte]
          exact h1
        | some k =>
          have hle : s.left ks * (R + 2) + 1 ≤ n + 1 := by
            simp only [enough] at he; rw [if_neg (by rw [hk]; simp)] at he; exact he
          cases hg : s.objRef.get? k with
          | some r =>
            have hlt := hs k r hg
            have e : getRefId (some k) s = (r, true, s) := by
              simp only [getRefId, hg]
              rw [if_neg (by omega : ¬ s.nextId = r)]
            refine ⟨.node .Ref { refId := some (natStr r) } [] [], s, ?_, hs, Nat.le_refl _⟩
            rw [e]
            rfl
          | none =>
            have hl := left_set (r := s.nextId) (m := s.nextId + 1) (h.keys a k ha hk) hg
            have wf : SState.Wf { s with objRef := s.objRef.set k s.nextId, nextId := s.nextId + 1 } := by
              intro j r hr
              by_cases hj : j = k
              · subst hj
                have hr : (s.objRef.set j s.nextId).get? j = some r := hr
                rw [Dict.get?_set_self] at hr
                cases hr; exact Nat.lt_succ_self _
              · have hr : (s.objRef.set k s.nextId).get? j = some r := hr
                rw [Dict.get?_set_ne _ _ (Ne.symm hj)] at hr
                exact Nat.lt_succ_of_lt (hs j r hr)
            have hmul := Nat.mul_le_mul_right (R + 2) (Nat.succ_le_of_lt hl)
            rw [Nat.succ_mul] at hmul
            obtain ⟨x, s', h1, w1, l1⟩ := runs_body E a s.nextId (H a) kids
              { s with objRef := s.objRef.set k s.nextId, nextId := s.nextId + 1 } wf
              (fun v hv => by
                cases v with
                | ref b =>
                  simp only [enough]
                  split
                  · have := h.down a b ha hv (by assumption); omega
                  · omega
                | _ => simp only [enough]; omega)
            refine ⟨x, s', ?_, w1, by omega⟩
            simp only [getRefId, hg, Bool.false_eq_true, ↓reduceIte]
            exact h1

end Verif
