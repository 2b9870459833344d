import Verif.Proof.ReadingTree

/-! # Reading dicts and lists of any values: what is read later leaves them alone -/

namespace Verif

/-- The first `N` objects keep their class and, queues aside, their data. -/
structure Kept (L : Lib) (N : Nat) (s s' : DState) : Prop where
  grows : s.heap.length ≤ s'.heap.length
  same : ∀ b d, b < N → s.heap[b]? = some d → ∃ d', s'.heap[b]? = some d' ∧ d'.cls = d.cls ∧
    ((∀ c, d.cls = some c → (L.info c).kind.isQueue = false) → d'.data = d.data)

theorem Kept.refl (L : Lib) (N : Nat) (s : DState) : Kept L N s s := ⟨Nat.le_refl _, fun _ d _ h => ⟨d, h, rfl, fun _ => rfl⟩⟩

theorem Kept.trans {L : Lib} {N : Nat} {s t u : DState} (h : Kept L N s t) (k : Kept L N t u) : Kept L N s u := by
  refine ⟨Nat.le_trans h.grows k.grows, ?_⟩
  intro b d hb hd
  obtain ⟨d1, h1, h2, h3⟩ := h.same b d hb hd
  obtain ⟨d2, k1, k2, k3⟩ := k.same b d1 hb h1
  refine ⟨d2, k1, k2.trans h2, fun hq => ?_⟩
  rw [k3 (by rw [h2]; exact hq), h3 hq]

theorem Kept.less {L : Lib} {N M : Nat} {s t : DState} (h : Kept L N s t) (hm : M ≤ N) : Kept L M s t :=
  ⟨h.grows, fun b d hb hd => h.same b d (Nat.lt_of_lt_of_le hb hm) hd⟩

theorem Kept.heap {L : Lib} {N : Nat} {s t : DState} (h : t.heap = s.heap) : Kept L N s t := by
  refine ⟨by rw [h]; exact Nat.le_refl _, ?_⟩
  intro b d _ hd
  exact ⟨d, by rw [h]; exact hd, rfl, fun _ => rfl⟩

theorem Kept.alloc {L : Lib} {N : Nat} (s : DState) (d : DObj) : Kept L N s (s.alloc d) := by
  refine ⟨by simp [DState.alloc], ?_⟩
  intro b e _ he
  refine ⟨e, ?_, rfl, fun _ => rfl⟩
  have : b < s.heap.length := (List.getElem?_eq_some_iff.mp he).1
  unfold DState.alloc
  dsimp only
  rw [List.getElem?_append_left this, he]

theorem Kept.register {L : Lib} {N : Nat} {s t : DState} (h : Kept L N s t) (r : Option PyStr) (v : DVal) :
    Kept L N s (t.register r v) := h.trans (.heap (register_heap t r v))

/-- A change of an object that is new, or that is a queue, or that leaves the data alone. -/
theorem Kept.update {L : Lib} {N : Nat} (s : DState) (b : Nat) (f : DObj → DObj) (hc : ∀ d, (f d).cls = d.cls)
    (h : N ≤ b ∨ (∀ d, (f d).data = d.data) ∨ ∀ d, s.heap[b]? = some d → ∃ c, d.cls = some c ∧ (L.info c).kind.isQueue = true) :
    Kept L N s (s.update b f) := by
  refine ⟨by simp [DState.update], ?_⟩
  intro i d hi hd
  unfold DState.update
  dsimp only
  rw [List.getElem?_modify, hd]
  by_cases hib : b = i
  · subst hib
    refine ⟨f d, by simp, hc d, fun hq => ?_⟩
    rcases h with h | h | h
    · omega
    · exact h d
    · obtain ⟨c, hc, hk⟩ := h d hd
      rw [hq c hc] at hk
      cases hk
  · exact ⟨d, by simp [hib], rfl, fun _ => rfl⟩

theorem Kept.edit {L : Lib} {N : Nat} (s : DState) (b : Nat) (f : DObj → DObj) (hc : ∀ d, (f d).cls = d.cls)
    (hd : ∀ d, (f d).data = d.data) : Kept L N s (s.edit L b f) := by
  unfold DState.edit
  split
  · exact .refl _ _ _
  · split
    · exact .heap rfl
    · exact .update s b f hc (.inr (.inl hd))

/-- A reader that keeps the objects there are. -/
def Keeps (L : Lib) (g : Xml → DState → Except Err (DVal × DState)) : Prop :=
  ∀ x s v s', g x s = .ok (v, s') → Kept L s.heap.length s s'

variable {L : Lib} {g : Xml → DState → Except Err (DVal × DState)}

theorem readItems_kept (hg : Keeps L g) {N b : Nat} : ∀ (xs : List Xml) (s s' : DState), N ≤ s.heap.length →
    (N ≤ b ∨ ∀ d, s.heap[b]? = some d → ∃ c, d.cls = some c ∧ (L.info c).kind.isQueue = true) →
    readItems g b xs s = .ok s' → Kept L N s s'
  | [], s, s', _, _, h => by cases h; exact .refl _ _ _
  | x :: xs, s, s', hN, hb, h => by
    rw [readItems] at h
    split at h
    · cases h
    next v s1 h1 =>
      have k1 := (hg x s v s1 h1).less hN
      have hb1 : N ≤ b ∨ ∀ d, s1.heap[b]? = some d → ∃ c, d.cls = some c ∧ (L.info c).kind.isQueue = true := by
        rcases hb with hb | hb
        · exact .inl hb
        · by_cases hbN : N ≤ b
          · exact .inl hbN
          · refine .inr fun d hd => ?_
            have hlt : b < s.heap.length := by omega
            obtain ⟨d', h1, h2, _⟩ := k1.same b _ (by omega) (List.getElem?_eq_getElem hlt)
            rw [hd] at h1
            cases h1
            rw [h2]
            exact hb _ (List.getElem?_eq_getElem hlt)
      have k2 : Kept L N s1 (s1.update b fun d => { d with data := d.data.push v }) :=
        .update s1 b _ (fun _ => rfl) (hb1.imp_right .inr)
      refine (k1.trans k2).trans (readItems_kept hg xs _ s' ?_ ?_ h)
      · exact Nat.le_trans hN (k1.trans k2).grows
      · rcases hb1 with hb1 | hb1
        · exact .inl hb1
        · refine .inr fun d hd => ?_
          unfold DState.update at hd
          dsimp only at hd
          rw [List.getElem?_modify] at hd
          cases he : s1.heap[b]? with
          | none => rw [he] at hd; simp at hd
          | some e =>
            rw [he] at hd
            simp at hd
            subst hd
            exact hb1 e he

theorem readEntries_kept (hg : Keeps L g) {N b : Nat} (hb : N ≤ b) : ∀ (xs : List Xml) (s s' : DState), N ≤ s.heap.length →
    readEntries g b xs s = .ok s' → Kept L N s s'
  | [], s, s', _, h => by cases h; exact .refl _ _ _
  | x :: xs, s, s', hN, h => by
    rw [readEntries] at h
    split at h
    · cases h
    split at h
    · cases h
    split at h
    · cases h
    next v s1 h1 =>
    split at h
    · cases h
    next k s2 h2 =>
    split at h
    · cases h
    next hh _ =>
    have k1 := (hg _ s v s1 h1).less hN
    have k2 := (hg _ s1 k s2 h2).less (Nat.le_trans hN k1.grows)
    have k3 : Kept L N s2 (s2.update b fun d => { d with data := d.data.put s2 hh k v }) :=
      .update s2 b _ (fun _ => rfl) (.inl hb)
    have k := (k1.trans k2).trans k3
    exact k.trans (readEntries_kept hg hb xs _ s' (Nat.le_trans hN k.grows) h)

theorem readProps_kept (hg : Keeps L g) {put : PyStr → DVal → DObj → DObj} (hc : ∀ n v d, (put n v d).cls = d.cls)
    (hd : ∀ n v d, (put n v d).data = d.data) {N b : Nat} : ∀ (xs : List Xml) (s s' : DState), N ≤ s.heap.length →
    readProps L g put b xs s = .ok s' → Kept L N s s'
  | [], s, s', _, h => by cases h; exact .refl _ _ _
  | x :: xs, s, s', hN, h => by
    rw [readProps] at h
    split at h
    · cases h
    split at h
    · cases h
    next n _ =>
    split at h
    · cases h
    next v s1 h1 =>
    have k1 := ((hg _ s v s1 h1).less hN).trans (Kept.edit s1 b (put n v) (hc n v) (hd n v))
    exact k1.trans (readProps_kept hg hc hd xs _ s' (Nat.le_trans hN k1.grows) h)

theorem renew_kept {N : Nat} (r : Option PyStr) (c : PyStr) (s : DState) : Kept L N s (renew L r c s) :=
  (Kept.alloc s _).register r _

theorem readChild_kept (hg : Keeps L g) {types : List PyStr} {r : Option PyStr} {x : Xml} {c c' : Cur} {s s' : DState}
    {N : Nat} (hN : N ≤ s.heap.length) (h : readChild L g types r x c s = .ok (c', s')) : Kept L N s s' := by
  have list : ∀ k, readList L g k r x c s = .ok (c', s') → Kept L N s s' := by
    intro k h
    unfold readList at h
    split at h
    · cases h
    next q _ =>
    split at h
    · cases h
    next s1 h1 =>
    cases h
    have k1 := renew_kept (L := L) (N := N) r ((q.map Prod.snd).getD k.cls) s
    exact k1.trans (readItems_kept hg _ _ _ (Nat.le_trans hN k1.grows) (.inl hN) h1)
  unfold readChild at h
  split at h
  · cases h; exact .refl _ _ _
  · cases h; exact .refl _ _ _
  · split at h
    · cases h
    · cases h; exact .refl _ _ _
  · unfold readDict at h
    split at h
    · cases h
    next q _ =>
    split at h
    · cases h
    next s1 h1 =>
    cases h
    have k1 := renew_kept (L := L) (N := N) r ((q.map Prod.snd).getD (txt! "PSDict")) s
    exact k1.trans (readEntries_kept hg hN _ _ _ (Nat.le_trans hN k1.grows) h1)
  · unfold readQueue at h
    split at h
    · cases h
    next b cls hcc =>
      split at h
      · cases h
      next s1 h1 =>
      cases h
      refine readItems_kept hg _ _ _ hN (.inr ?_) h1
      intro d hd
      unfold currentClass at hcc
      split at hcc
      · cases hcc
      next b' _ =>
      split at hcc
      · cases hcc
      next d' hd' =>
      split at hcc
      · cases hcc
      next cl hcl =>
      split at hcc
      next ht =>
        cases hcc
        rw [hd] at hd'
        cases hd'
        exact ⟨_, hcl, ht⟩
      · cases hcc
    · split at h
      · cases h
      next s1 h1 =>
      cases h
      have k1 := renew_kept (L := L) (N := N) r (txt! "PSQueue") s
      exact k1.trans (readItems_kept hg _ _ _ (Nat.le_trans hN k1.grows) (.inl hN) h1)
  · exact list _ h
  · exact list _ h
  · exact list _ h
  · cases h; exact .refl _ _ _
  · cases h; exact .refl _ _ _
  · unfold readSub at h
    split at h
    · cases h
    next v s1 h1 =>
    have k1 := (hg _ s v s1 h1).less hN
    split at h
    · split at h
      · cases h
        exact k1.trans ((Kept.alloc s1 _).register r _)
      · cases h
    · split at h
      · cases h
      · dsimp only at h
        split at h
        · cases h
          exact k1.trans ((Kept.alloc s1 _).register r _)
        · cases h
          refine k1.trans (Kept.register ?_ r _)
          split
          · exact .refl _ _ _
          · exact .edit s1 _ _ (fun _ => rfl) fun _ => rfl
        · cases h

theorem readChildren_kept (hg : Keeps L g) {types : List PyStr} {r : Option PyStr} {N : Nat} :
    ∀ (xs : List Xml) (c c' : Cur) (s s' : DState), N ≤ s.heap.length →
      readChildren L g types r xs c s = .ok (c', s') → Kept L N s s'
  | [], c, c', s, s', _, h => by cases h; exact .refl _ _ _
  | x :: xs, c, c', s, s', hN, h => by
    rw [readChildren] at h
    split at h
    · cases h
    next c1 s1 h1 =>
    have k1 := readChild_kept hg hN h1
    exact k1.trans (readChildren_kept hg xs c1 c' s1 s' (Nat.le_trans hN k1.grows) h)

theorem readTypes_heap {kids : List Xml} {s s' : DState} {ts : List PyStr} (h : readTypes kids s = .ok (ts, s')) :
    s'.heap = s.heap := by
  unfold readTypes at h
  split at h
  · split at h
    · cases h; rfl
    · split at h
      · cases h
      · cases h; rfl
  · split at h
    · cases h; rfl
    · split at h
      · cases h
      · split at h
        · cases h
        · cases h; rfl

theorem readFinish_kept (hg : Keeps L g) {names : List PyStr} {c : Cur} {s s' : DState} {v : DVal} {N : Nat}
    (hN : N ≤ s.heap.length) (h : readFinish L g names c s = .ok (v, s')) : Kept L N s s' := by
  unfold readFinish at h
  split at h
  · cases h
  next b _ =>
  split at h
  · cases h
  next s1 h1 =>
  split at h
  · cases h
  next s2 h2 =>
  cases h
  have k0 : Kept L N s (s.edit L b (dress names c.toStr)) := .edit s _ _ (fun _ => rfl) fun _ => rfl
  have k1 := k0.trans (readProps_kept (put := putAdapted) hg (fun _ _ _ => rfl) (fun _ _ _ => rfl) _ _ _ (Nat.le_trans hN k0.grows) h1)
  exact k1.trans (readProps_kept (put := putExtended) hg (fun _ _ _ => rfl) (fun _ _ _ => rfl) _ _ _ (Nat.le_trans hN k1.grows) h2)

theorem readObj_kept (hg : Keeps L g) : Keeps L (readObj L g) := by
  intro x s v s' h
  unfold readObj at h
  split at h
  · cases h
  next types s1 h1 =>
  split at h
  · cases h
  next c s2 h2 =>
  have k1 : Kept L s.heap.length s s1 := .heap (readTypes_heap h1)
  have k2 : Kept L s.heap.length s1 (readStart L types x.attrs.refId s1).2 := by
    unfold readStart
    split
    · exact (Kept.alloc s1 _).register _ _
    · exact .refl _ _ _
  have k3 := (k1.trans k2).trans (readChildren_kept hg _ _ _ _ _ (k1.trans k2).grows h2)
  exact k3.trans (readFinish_kept hg k3.grows h)

theorem deser_keeps (E : TextEnv) (L : Lib) : ∀ n, Keeps L (deser E L n)
  | 0 => by intro x s v s' h; cases h
  | n + 1 => by
    intro x s v s' h
    rw [deser] at h
    split at h
    · split at h
      · cases h
      · split at h
        · cases h
        · cases h; exact .refl _ _ _
    · cases h; exact .refl _ _ _
    · cases h; exact .refl _ _ _
    · cases hd : deserializeString x.text with
      | error e => rw [hd] at h; cases h
      | ok t => rw [hd] at h; cases h; exact .refl _ _ _
    · exact readObj_kept (deser_keeps E L n) x s v s' h
    · split at h
      · cases h; exact .refl _ _ _
      · cases h
      · cases h

end Verif
