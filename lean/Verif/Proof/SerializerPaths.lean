import Verif.Spec.Serializer
import Verif.Proof.SerializerSim

/-! # Positions in matching graphs, and the queues that are emptied: lemmas -/

namespace Verif

theorem All2.get {α β : Type} {R : α → β → Prop} {as : List α} {bs : List β} (h : All2 R as bs) (i : Nat) :
    (as[i]? = none ∧ bs[i]? = none) ∨ ∃ a b, as[i]? = some a ∧ bs[i]? = some b ∧ R a b := by
  induction h generalizing i with
  | nil => exact .inl ⟨by simp, by simp⟩
  | cons h t ih =>
    cases i with
    | zero => exact .inr ⟨_, _, rfl, rfl, h⟩
    | succ i => simpa using ih i

/-- What is at two positions: nothing, or values that match. -/
def Both (φ : Nat → Option Nat) (v : Option PVal) (d : Option DVal) : Prop :=
  (v = none ∧ d = none) ∨ ∃ v' d', v = some v' ∧ d = some d' ∧ VMatch φ v' d'

theorem both_get {φ : Nat → Option Nat} {l : List PVal} {m : List DVal} (h : All2 (VMatch φ) l m) (i : Nat) :
    Both φ l[i]? m[i]? := h.get i

theorem both_prop {φ : Nat → Option Nat} {l : List (PyStr × PVal)} {m : List (PyStr × DVal)}
    (h : All2 (PMatch φ) l m) (i : Nat) : Both φ (l[i]?.map Prod.snd) (m[i]?.map Prod.snd) := by
  rcases h.get i with ⟨h1, h2⟩ | ⟨a, b, h1, h2, h3⟩
  · exact .inl (by simp [h1, h2])
  · exact .inr ⟨a.2, b.2, by simp [h1], by simp [h2], h3.2⟩

theorem both_key {φ : Nat → Option Nat} {l : List (PVal × PVal)} {m : List (DVal × DVal)}
    (h : All2 (EMatch φ) l m) (i : Nat) : Both φ (l[i]?.map Prod.fst) (m[i]?.map Prod.fst) := by
  rcases h.get i with ⟨h1, h2⟩ | ⟨a, b, h1, h2, h3⟩
  · exact .inl (by simp [h1, h2])
  · exact .inr ⟨a.1, b.1, by simp [h1], by simp [h2], h3.1⟩

theorem both_value {φ : Nat → Option Nat} {l : List (PVal × PVal)} {m : List (DVal × DVal)}
    (h : All2 (EMatch φ) l m) (i : Nat) : Both φ (l[i]?.map Prod.snd) (m[i]?.map Prod.snd) := by
  rcases h.get i with ⟨h1, h2⟩ | ⟨a, b, h1, h2, h3⟩
  · exact .inl (by simp [h1, h2])
  · exact .inr ⟨a.2, b.2, by simp [h1], by simp [h2], h3.2⟩

theorem at_match {L : Lib} {φ : Nat → Option Nat} {o : PObj} {d : DObj} (h : OMatch L φ o d) (p : Sel) :
    Both φ ((L.completed o).at p) (d.at p) := by
  have none' : Both φ none none := .inl ⟨rfl, rfl⟩
  have hd := h.data
  cases p with
  | adapted i => exact both_prop h.adapted i
  | extended i => exact both_prop h.extended i
  | item i =>
    show Both φ (o.at (.item i)) _
    unfold PObj.at DObj.at
    cases ho : o.data <;> rw [ho] at hd <;> simp only [DataMatch] at hd
    · rw [hd]; exact none'
    · rw [hd]; exact none'
    · rw [hd]; exact none'
    · obtain ⟨l, hl, hm⟩ := hd; rw [hl]; exact both_get hm i
    · obtain ⟨l, hl, hm⟩ := hd; rw [hl]; exact both_get hm i
    · obtain ⟨l, hl, hm⟩ := hd; rw [hl]; exact none'
  | key i =>
    show Both φ (o.at (.key i)) _
    unfold PObj.at DObj.at
    cases ho : o.data <;> rw [ho] at hd <;> simp only [DataMatch] at hd
    · rw [hd]; exact none'
    · rw [hd]; exact none'
    · rw [hd]; exact none'
    · obtain ⟨l, hl, hm⟩ := hd; rw [hl]; exact none'
    · obtain ⟨l, hl, hm⟩ := hd; rw [hl]; exact none'
    · obtain ⟨l, hl, hm⟩ := hd; rw [hl]; exact both_key hm i
  | value i =>
    show Both φ (o.at (.value i)) _
    unfold PObj.at DObj.at
    cases ho : o.data <;> rw [ho] at hd <;> simp only [DataMatch] at hd
    · rw [hd]; exact none'
    · rw [hd]; exact none'
    · rw [hd]; exact none'
    · obtain ⟨l, hl, hm⟩ := hd; rw [hl]; exact none'
    · obtain ⟨l, hl, hm⟩ := hd; rw [hl]; exact none'
    · obtain ⟨l, hl, hm⟩ := hd; rw [hl]; exact both_value hm i

theorem arranged_eq {ps : List (PyStr × PVal)} {declared : List PyStr} (hn : (ps.map Prod.fst).Nodup)
    (h : declared <+: ps.map Prod.fst) : arranged .nil declared ps = ps := by
  obtain ⟨rest, h⟩ := h
  induction declared generalizing ps with
  | nil =>
    unfold arranged
    simp
  | cons n ns ih =>
    cases ps with
    | nil => cases h
    | cons p ps =>
      obtain ⟨k, v⟩ := p
      rw [List.map_cons, List.cons_append, List.cons.injEq] at h
      obtain ⟨rfl, h⟩ := h
      rw [List.map_cons, List.nodup_cons] at hn
      have hns : n ∉ ns := fun hm => hn.1 (by rw [← h]; exact List.mem_append_left _ hm)
      have := ih hn.2 h
      unfold arranged at this ⊢
      rw [List.map_cons, List.filter_cons, List.cons_append]
      simp only [List.lookup_cons, beq_self_eq_true, Option.getD_some, List.contains_cons, Bool.true_or, Bool.not_true,
        Bool.false_eq_true, ↓reduceIte]
      congr 1
      refine Eq.trans ?_ this
      congr 1
      · apply List.map_congr_left
        intro m hm
        have : (m == n) = false := beq_false_of_ne (fun e => hns (e ▸ hm))
        rw [this]
      · apply List.filter_congr
        intro q hq
        have : (q.1 == n) = false := beq_false_of_ne (fun e => hn.1 (by
          show n ∈ _
          rw [← e]; exact List.mem_map_of_mem hq))
        rw [this, Bool.false_or]

/-- Objects that have the declared properties first and in their order are left as they are. -/
theorem completed_eq {E : TextEnv} {L : Lib} {o : PObj} (ok : o.Ok E L)
    (hA : (L.declared o).adapted <+: o.adapted.map Prod.fst)
    (hE : (L.declared o).extended <+: o.extended.map Prod.fst) : L.completed o = o := by
  unfold Lib.completed
  rw [arranged_eq ok.adapted hA, arranged_eq ok.extended hE]

theorem path_match {L : Lib} {H : Heap} {heap : List DObj} {φ : Nat → Option Nat}
    (h : ∀ b a, φ b = some a → ∃ d, heap[b]? = some d ∧ OMatch L φ (H a) d) :
    ∀ (ps : List Sel) (v : PVal) (d : DVal), VMatch φ v d →
      Both φ (v.at (H.completed L) ps) (d.at heap ps) := by
  intro ps
  induction ps with
  | nil => intro v d m; exact .inr ⟨v, d, by cases v <;> rfl, by cases d <;> rfl, m⟩
  | cons p ps ih =>
    intro v d m
    cases v with
    | nil => cases m; exact .inl ⟨rfl, rfl⟩
    | bool b => cases m; exact .inl ⟨rfl, rfl⟩
    | prim q => cases m; exact .inl ⟨rfl, rfl⟩
    | ref a =>
      obtain ⟨b, rfl, e⟩ := m
      obtain ⟨d, hd, om⟩ := h b a e
      simp only [PVal.at, DVal.at, hd, Heap.completed]
      rcases at_match om p with ⟨h1, h2⟩ | ⟨v', d', h1, h2, h3⟩
      · rw [h1, h2]; exact .inl ⟨rfl, rfl⟩
      · rw [h1, h2]; exact ih v' d' h3

/-! ## Queues -/

/-- `f` empties only queues it can reach. -/
def Drains (H : Heap) (f : PVal → SState → Except Err (Xml × SState)) (v : PVal) : Prop :=
  ∀ s x s', f v s = .ok (x, s') → ∀ a ∈ s'.drained, a ∈ s.drained ∨ Reach H [v] a ∧ ∃ l, (H a).data = .queue l

section
variable {H : Heap} {f : PVal → SState → Except Err (Xml × SState)}

/-- From some values to the queues emptied. -/
def DrainsTo (H : Heap) (s s' : SState) (vs : List PVal) : Prop :=
  ∀ a ∈ s'.drained, a ∈ s.drained ∨ Reach H vs a ∧ ∃ l, (H a).data = .queue l

theorem Reach.mono {vs ws : List PVal} (h : ∀ a, PVal.ref a ∈ vs → PVal.ref a ∈ ws) {a : Nat} (r : Reach H vs a) :
    Reach H ws a := by
  induction r with
  | root e => exact .root (h _ e)
  | step _ hb ih => exact .step ih hb

theorem DrainsTo.mono {s s' : SState} {vs ws : List PVal} (d : DrainsTo H s s' vs)
    (h : ∀ a, PVal.ref a ∈ vs → PVal.ref a ∈ ws) : DrainsTo H s s' ws := fun a ha =>
  (d a ha).imp id fun ⟨r, l⟩ => ⟨r.mono h, l⟩

theorem DrainsTo.trans {s s' s'' : SState} {vs : List PVal} (d : DrainsTo H s s' vs) (d' : DrainsTo H s' s'' vs) :
    DrainsTo H s s'' vs := fun a ha => by
  rcases d' a ha with h | h
  · exact d a h
  · exact .inr h

theorem DrainsTo.refl {s s' : SState} {vs : List PVal} (h : s'.drained = s.drained) : DrainsTo H s s' vs :=
  fun a ha => .inl (by rw [← h]; exact ha)

theorem drains_items : ∀ (vs : List PVal), (∀ v ∈ vs, Drains H f v) → ∀ s xs s', serItems f vs s = .ok (xs, s') →
    DrainsTo H s s' vs := by
  intro vs
  induction vs with
  | nil => intro _ s xs s' h; cases h; exact .refl rfl
  | cons v vs ih =>
    intro hd s xs s' h
    simp only [serItems] at h
    split at h
    · cases h
    · rename_i x s1 h1
      split at h
      · cases h
      · rename_i xs' s2 h2
        cases h
        have d1 : DrainsTo H s s1 [v] := hd v (by simp) s x s1 h1
        have d2 := ih (fun w hw => hd w (by simp [hw])) s1 xs' s' h2
        exact (d1.mono (by simp; intro a h; simp [h])).trans (d2.mono (by simp; intro a h; exact .inr h))

theorem drains_props : ∀ (ps : List (PyStr × PVal)), (∀ v ∈ ps.map Prod.snd, Drains H f v) → ∀ s xs s',
    serProps f ps s = .ok (xs, s') → DrainsTo H s s' (ps.map Prod.snd) := by
  intro ps
  induction ps with
  | nil => intro _ s xs s' h; cases h; exact .refl rfl
  | cons p ps ih =>
    obtain ⟨n, v⟩ := p
    intro hd s xs s' h
    simp only [serProps] at h
    split at h
    · cases h
    · rename_i x s1 h1
      split at h
      · cases h
      · rename_i xs' s2 h2
        cases h
        have d1 : DrainsTo H s s1 [v] := hd v (by simp) s x s1 h1
        have d2 := ih (fun w hw => hd w (List.mem_cons_of_mem _ hw)) s1 xs' s' h2
        exact (d1.mono (fun a h => by simp at h; simp [h])).trans (d2.mono fun a h => List.mem_cons_of_mem _ h)

theorem drains_group (tag : Tag) (ps : List (PyStr × PVal)) (hd : ∀ v ∈ ps.map Prod.snd, Drains H f v) {s : SState}
    {xs : List Xml} {s' : SState} (h : serGroup f tag ps s = .ok (xs, s')) : DrainsTo H s s' (ps.map Prod.snd) := by
  unfold serGroup at h
  split at h
  · cases h; exact .refl rfl
  · split at h
    · cases h
    · rename_i h1
      cases h
      exact drains_props ps hd _ _ _ h1

theorem drains_entries : ∀ (es : List (PVal × PVal)),
    (∀ v ∈ es.map Prod.fst ++ es.map Prod.snd, Drains H f v) → ∀ s xs s',
    serEntries f es s = .ok (xs, s') → DrainsTo H s s' (es.map Prod.fst ++ es.map Prod.snd) := by
  intro es
  induction es with
  | nil => intro _ s xs s' h; cases h; exact .refl rfl
  | cons e es ih =>
    obtain ⟨k, v⟩ := e
    intro hd s xs s' h
    simp only [serEntries] at h
    split at h
    · cases h
    · rename_i x s1 h1
      split at h
      · cases h
      · rename_i x2 s2 h2
        split at h
        · cases h
        · rename_i xs' s3 h3
          cases h
          have sub : ∀ w ∈ es.map Prod.fst ++ es.map Prod.snd,
              w ∈ ((k, v) :: es).map Prod.fst ++ ((k, v) :: es).map Prod.snd := by
            intro w hw
            simp only [List.map_cons, List.cons_append, List.mem_cons, List.mem_append] at hw ⊢
            rcases hw with h | h <;> simp [h]
          have d1 : DrainsTo H s s1 [k] := hd k (by simp) s x s1 h1
          have d2 : DrainsTo H s1 s2 [v] := hd v (by simp) s1 x2 s2 h2
          have d3 := ih (fun w hw => hd w (sub w hw)) s2 xs' s' h3
          exact ((d1.mono (fun a h => by simp at h; simp [h])).trans (d2.mono fun a h => by simp at h; simp [h])).trans
            (d3.mono fun a h => sub _ h)

theorem drains_content (a : Nat) (o : PObj) (ho : ∀ l, o.data = .queue l → (H a).data = .queue l)
    (hd : ∀ v ∈ o.values, Drains H f v) {s : SState} {xs : List Xml} {s' : SState}
    (h : serContent f a o s = .ok (xs, s')) : ∀ b ∈ s'.drained, b ∈ s.drained ∨
      (b = a ∨ Reach H o.values b) ∧ ∃ l, (H b).data = .queue l := by
  have lift : DrainsTo H s s' o.values → ∀ b ∈ s'.drained, b ∈ s.drained ∨
      (b = a ∨ Reach H o.values b) ∧ ∃ l, (H b).data = .queue l :=
    fun d b hb => (d b hb).imp id fun ⟨r, l⟩ => ⟨.inr r, l⟩
  unfold serContent at h
  cases hdat : o.data with
  | none => rw [hdat] at h; cases h; exact lift (.refl rfl)
  | ext p => rw [hdat] at h; cases h; exact lift (.refl rfl)
  | enum p => rw [hdat] at h; cases h; exact lift (.refl rfl)
  | list k items =>
    have sub : ∀ v ∈ items, v ∈ o.values := fun v hv => by simp [PObj.values, hdat, hv]
    rw [hdat] at h
    dsimp only at h
    split at h
    · cases h
    · rename_i h1
      cases h
      exact lift ((drains_items items (fun v hv => hd v (sub v hv)) _ _ _ h1).mono fun a h => sub _ h)
  | queue items =>
    rw [hdat] at h
    dsimp only at h
    split at h
    · cases h
    · rename_i h1
      cases h
      have sub : ∀ v ∈ (if s.drained.contains a then [] else items), v ∈ o.values := fun v hv => by
        split at hv
        · cases hv
        · simp [PObj.values, hdat, hv]
      have d := (drains_items _ (fun v hv => hd v (sub v hv)) _ _ _ h1).mono fun a h => sub _ h
      intro b hb
      rcases d b hb with h2 | ⟨r, l⟩
      · rcases List.mem_cons.mp h2 with h3 | h3
        · exact .inr ⟨.inl h3, items, by rw [h3]; exact ho items hdat⟩
        · exact .inl h3
      · exact .inr ⟨.inr r, l⟩
  | dict es =>
    have sub : ∀ v ∈ es.map Prod.fst ++ es.map Prod.snd, v ∈ o.values := fun v hv => by
      unfold PObj.values; rw [hdat]; exact List.mem_append_right _ hv
    rw [hdat] at h
    dsimp only at h
    split at h
    · cases h
    · rename_i h1
      cases h
      exact lift ((drains_entries es (fun v hv => hd v (sub v hv)) _ _ _ h1).mono fun a h => sub _ h)

theorem serTypes_drained (types : List PyStr) (s : SState) : (serTypes types s).2.drained = s.drained := by
  unfold serTypes
  split
  · rfl
  · split <;> rfl

theorem refId_keeps_drained (k : Option Nat) (s : SState) : (getRefId k s).2.2.drained = s.drained := by
  unfold getRefId
  split
  · rfl
  · split
    · split <;> rfl
    · rfl

end

theorem ser_drains (E : TextEnv) (H : Heap) : ∀ n v, Drains H (ser E H n) v := by
  intro n
  induction n with
  | zero => intro v s x s' h; cases h
  | succ n ih =>
    intro v s x s' h
    cases v with
    | nil => cases h; intro a ha; exact .inl ha
    | bool b => cases h; intro a ha; exact .inl ha
    | prim p => cases h; intro a ha; exact .inl ha
    | ref a =>
      change serObj E (ser E H n) a (H a) s = .ok (x, s') at h
      unfold serObj at h
      split at h
      · cases h; intro a ha; exact .inl ha
      · split at h
        · cases h; intro b hb; exact .inl (by rw [refId_keeps_drained] at hb; exact hb)
        · unfold serBody at h
          split at h
          · cases h
          · rename_i ps s1 h1
            split at h
            · cases h
            · rename_i ms s2 h2
              split at h
              · cases h
              · rename_i c s3 h3
                cases h
                have subA : ∀ v ∈ (H a).adapted.map Prod.snd, v ∈ (H a).values := fun v hv => by
                  unfold PObj.values; simp only [List.mem_append]; exact .inl (.inl hv)
                have subE : ∀ v ∈ (H a).extended.map Prod.snd, v ∈ (H a).values := fun v hv => by
                  unfold PObj.values; simp only [List.mem_append]; exact .inl (.inr hv)
                have d1 := (drains_group .Props (H a).adapted (fun v _ => ih v) h1).mono (ws := (H a).values)
                  fun b h => subA _ h
                have d2 := (drains_group .MS (H a).extended (fun v _ => ih v) h2).mono (ws := (H a).values)
                  fun b h => subE _ h
                have d12 := d1.trans d2
                have up : ∀ b, Reach H (H a).values b → Reach H [.ref a] b := by
                  intro b r
                  induction r with
                  | root e => exact .step (.root (by simp)) e
                  | step _ hb ih => exact .step ih hb
                intro b hb
                rcases drains_content a (H a) (fun l e => e) (fun v _ => ih v) h3 b hb with h4 | ⟨h4, l⟩
                · rcases d12 b h4 with h5 | ⟨r, l⟩
                  · rw [serTypes_drained, refId_keeps_drained] at h5
                    exact .inl h5
                  · exact .inr ⟨up b r, l⟩
                · rcases h4 with rfl | r
                  · exact .inr ⟨.root (by simp), l⟩
                  · exact .inr ⟨up b r, l⟩

end Verif
