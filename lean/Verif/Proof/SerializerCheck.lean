import Verif.Spec.Serializer
import Verif.Proof.Ints

/-! # A check that a finite graph meets the conditions, for examples -/

namespace Verif

/-- Texts of characters below U+5F00 survive escaping. -/
theorem textOk_low {s : PyStr} (h : ∀ c ∈ s, c < 0x5F00) : TextOk s := by
  refine ⟨fun c hc => by have := h c hc; omega, ?_, ?_, ?_⟩
  · rintro ⟨c, hc, h1, _⟩; have := h c hc; omega
  · rintro ⟨pre, u, v, post, rfl, ⟨h1, _⟩, _⟩
    have := h u (by simp); omega
  · rintro ⟨pre, a, h₁, h₂, h₃, h₄, z, post, rfl, _⟩
    have := h 0x5F00 (by simp); omega

def lowText (s : PyStr) : Bool := s.all (· < 0x5F00)

theorem lowText_ok {s : PyStr} (h : lowText s = true) : TextOk s :=
  textOk_low fun c hc => of_decide_eq_true (List.all_eq_true.mp h c hc)

/-- The units of a double as 53 bits and a shift. -/
def PyFloat.check : PyFloat → Bool
  | .finite _ u => (List.range 2046).any fun e => u % 2 ^ e = 0 && u / 2 ^ e < 2 ^ 53
  | _ => true

theorem PyFloat.check_ok {x : PyFloat} (h : x.check = true) : x.Ok := by
  cases x with
  | finite neg u =>
    obtain ⟨e, he, h⟩ := List.any_eq_true.mp h
    simp only [Bool.and_eq_true, decide_eq_true_eq] at h
    have := List.mem_range.mp he
    exact ⟨u / 2 ^ e, e, h.2, by omega, by rw [Nat.mul_comm]; exact (Nat.mul_div_cancel' (Nat.dvd_of_mod_eq_zero h.1)).symm⟩
  | _ => trivial

def Prim.check : Prim → Bool
  | .int k v => k.minValue ≤ v ∧ v ≤ k.maxValue
  | .plainInt v => -(2 ^ 31) ≤ v ∧ v < 2 ^ 63
  | .char c => 0 ≤ c ∧ c ≤ 65535
  | .str _ s => lowText s
  | .bytes _ => true
  | .guid n => n < 2 ^ 128
  | .decimal _ => true
  | .float _ x => x.check
  | .secure _ => true
  | .progress r => lowText r.activity && r.activity ≠ [] && lowText r.status && r.status ≠ [] &&
      (match r.operation with
      | none => true
      | some t => lowText t && t ≠ []) &&
      [r.activityId, r.parentId, r.percent, r.seconds].all fun v =>
        match v with
        | none => false
        | some i => IntKind.psInt.minValue ≤ i ∧ i ≤ IntKind.psInt.maxValue
  | _ => false

theorem Prim.check_ok (E : TextEnv) {p : Prim} (h : p.check = true) : p.Ok E := by
  cases p with
  | int k v => exact (IntKind.inRange_iff k v).mpr (of_decide_eq_true h)
  | plainInt v => simpa [Prim.check, Prim.Ok] using h
  | char c => simpa [Prim.check, Prim.Ok] using h
  | str k s => exact lowText_ok h
  | bytes b => trivial
  | guid n => simpa [Prim.check, Prim.Ok] using h
  | decimal d => trivial
  | float k x => exact PyFloat.check_ok h
  | secure t => trivial
  | progress r =>
    simp only [Prim.check, Bool.and_eq_true, decide_eq_true_eq] at h
    obtain ⟨⟨⟨⟨⟨h1, h2⟩, h3⟩, h4⟩, h5⟩, h6⟩ := h
    refine ⟨lowText_ok h1, h2, lowText_ok h3, h4, fun t e => ?_, fun v hv => ?_⟩
    · rw [e] at h5
      simp only [Bool.and_eq_true, decide_eq_true_eq] at h5
      exact ⟨lowText_ok h5.1, h5.2⟩
    · have := List.all_eq_true.mp h6 v hv
      cases v with
      | none => cases this
      | some i => exact ⟨i, rfl, (IntKind.inRange_iff _ i).mpr (of_decide_eq_true this)⟩
  | _ => cases h

def PVal.check : PVal → Bool
  | .prim p => p.check
  | _ => true

theorem PVal.check_ok (E : TextEnv) {v : PVal} (h : v.check = true) : v.Ok E := by
  cases v with
  | prim p => exact Prim.check_ok E h
  | _ => trivial

def PVal.plainB : PVal → Bool
  | .ref _ => false
  | _ => true

theorem PVal.plainB_ok {v : PVal} (h : v.plainB = true) : v.IsPlain := by
  cases v with
  | ref a => cases h
  | _ => trivial

def classCheck (L : Lib) (o : PObj) : Bool :=
  match L.reg.rehydrate o.types with
  | .plain _ => true
  | .instance_ c => L.names c ≠ [] &&
    match o.data, (L.info c).kind with
    | .none, .object => true
    | .ext _, _ => true
    | .enum p, .enum m => (match p.norm with
      | .int k v => m v = some (.int k v)
      | _ => false) && o.adapted = [] && o.extended = []
    | .list k _, .list k' => k = k'
    | .queue _, .queue => true
    | .dict _, .dict => true
    | _, _ => false

theorem classCheck_ok {L : Lib} {o : PObj} (h : classCheck L o = true) : ClassOk L o := by
  intro c hc
  unfold classCheck at h
  rw [hc] at h
  dsimp only at h
  rw [Bool.and_eq_true] at h
  refine ⟨of_decide_eq_true h.1, ?_⟩
  have h2 := h.2
  revert h2
  cases hd : o.data <;> cases hk : (L.info c).kind <;> dsimp only <;> intro h2 <;> first
    | trivial
    | (cases h2; done)
    | (have := of_decide_eq_true h2; rw [this])
    | (simp only [Bool.and_eq_true, decide_eq_true_eq] at h2
       revert h2
       split
       · rename_i k v e
         intro h2
         exact ⟨⟨_, k, v, rfl, e, of_decide_eq_true h2.1.1⟩, h2.1.2, h2.2⟩
       · rintro ⟨⟨h, _⟩, _⟩; cases h)

def PObj.check (L : Lib) (o : PObj) : Bool :=
  o.values.all PVal.check &&
  (match o.data with
  | .ext p => p.check && (o.extended ≠ [] || decide ((match p with | .progress _ => 8 | _ => 0) < o.adapted.length))
  | .enum p => p.check
  | .list _ _ => (o.adapted ++ o.extended).all fun q => q.2.plainB
  | .dict es => ((o.adapted ++ o.extended).all fun q => q.2.plainB) &&
      (es.all fun e => e.1.plainB && e.1.hashClass.isSome) && decide (es.Pairwise fun a b => a.1.hashClass = b.1.hashClass → a.1.hashClass = some .nan)
  | .queue _ => ((o.adapted ++ o.extended).all fun q => q.2.plainB) && o.key.isSome
  | .none => true) &&
  ((o.adapted ++ o.extended).all fun q => lowText q.1) &&
  decide (o.adapted.map Prod.fst).Nodup && decide (o.extended.map Prod.fst).Nodup &&
  (match o.toStr with
  | none => true
  | some t => decide (deserializeString t = .ok t)) &&
  classCheck L o &&
  (decide (L.declared o).adapted.Nodup && decide (L.declared o).extended.Nodup &&
    (L.declared o).preset.all fun n =>
      (!(L.declared o).adapted.contains n || (o.adapted.map Prod.fst).contains n) &&
      (!(L.declared o).extended.contains n || (o.extended.map Prod.fst).contains n))

theorem PObj.check_ok (E : TextEnv) {L : Lib} {o : PObj} (h : o.check L = true) : o.Ok E L := by
  unfold PObj.check at h
  simp only [Bool.and_eq_true] at h
  obtain ⟨⟨⟨⟨⟨⟨⟨h1, h2⟩, h3⟩, h4⟩, h5⟩, h6⟩, h7⟩, h8⟩ := h
  refine ⟨fun v hv => PVal.check_ok E (List.all_eq_true.mp h1 v hv), ?_, ?_, ?_, of_decide_eq_true h4,
    of_decide_eq_true h5, ?_, ?_, ?_, ?_, classCheck_ok h7, ?_⟩
  · rintro p (e | e) <;> rw [e] at h2 <;> dsimp only at h2
    · rw [Bool.and_eq_true] at h2; exact Prim.check_ok E h2.1
    · exact Prim.check_ok E h2
  · intro p e
    rw [e] at h2
    simp only [Bool.and_eq_true, Bool.or_eq_true, decide_eq_true_eq] at h2
    exact h2.2
  · intro q hq; exact lowText_ok (List.all_eq_true.mp h3 q hq)
  · intro t e
    rw [e] at h6
    exact of_decide_eq_true h6
  · intro hc q hq
    cases hd : o.data with
    | none => rw [hd] at hc; cases hc
    | ext p => rw [hd] at hc; cases hc
    | enum p => rw [hd] at hc; cases hc
    | list k l => rw [hd] at h2; exact PVal.plainB_ok (List.all_eq_true.mp h2 q hq)
    | queue l =>
      rw [hd] at h2; dsimp only at h2; rw [Bool.and_eq_true] at h2
      exact PVal.plainB_ok (List.all_eq_true.mp h2.1 q hq)
    | dict l =>
      rw [hd] at h2; simp only [Bool.and_eq_true] at h2
      exact PVal.plainB_ok (List.all_eq_true.mp h2.1.1 q hq)
  · intro es e
    rw [e] at h2
    simp only [Bool.and_eq_true] at h2
    refine ⟨fun x hx => ?_, of_decide_eq_true h2.2⟩
    have := List.all_eq_true.mp h2.1.2 x hx
    rw [Bool.and_eq_true] at this
    exact ⟨PVal.plainB_ok this.1, this.2⟩
  · intro l e
    rw [e] at h2
    simp only [Bool.and_eq_true] at h2
    intro hn
    rw [hn] at h2; cases h2.2
  · simp only [Bool.and_eq_true, decide_eq_true_eq, List.all_eq_true, Bool.or_eq_true, Bool.not_eq_true',
      List.contains_eq_mem, decide_eq_false_iff_not] at h8
    refine ⟨h8.1.1, h8.1.2, fun n hn => ⟨fun h => ?_, fun h => ?_⟩⟩
    · exact (h8.2 n hn).1.resolve_left (fun h' => h' h)
    · exact (h8.2 n hn).2.resolve_left (fun h' => h' h)

/-- The objects are among these. -/
def within (addrs : List Nat) (vs : List PVal) : Bool := vs.all fun v =>
  match v with
  | .ref a => addrs.contains a
  | _ => true

theorem within_ok {addrs : List Nat} {vs : List PVal} (h : within addrs vs = true) {a : Nat} (ha : PVal.ref a ∈ vs) :
    a ∈ addrs := by
  have := List.all_eq_true.mp h _ ha
  simpa using this

def graphCheck (L : Lib) (H : Heap) (roots : List PVal) (addrs : List Nat) : Bool :=
  roots.all PVal.check && within addrs roots &&
  (addrs.all fun a => (H a).check L && within addrs (H a).values) &&
  (addrs.all fun a => addrs.all fun b =>
    ((H a).key = none || (H a).key ≠ (H b).key || a = b) &&
    ((H a).types.head? ≠ (H b).types.head? || (H a).types = (H b).types))

theorem reach_within {H : Heap} {roots : List PVal} {addrs : List Nat} (h : within addrs roots = true)
    (h' : (addrs.all fun a => within addrs (H a).values) = true) {a : Nat} (r : Reach H roots a) : a ∈ addrs := by
  induction r with
  | root e => exact within_ok h e
  | step _ hb ih => exact within_ok (List.all_eq_true.mp h' _ ih) hb

theorem graphCheck_ok (E : TextEnv) {L : Lib} {H : Heap} {roots : List PVal} {addrs : List Nat}
    (h : graphCheck L H roots addrs = true) : GraphOk E L H roots := by
  unfold graphCheck at h
  simp only [Bool.and_eq_true] at h
  obtain ⟨⟨⟨h1, h2⟩, h3⟩, h4⟩ := h
  have reach : ∀ a, Reach H roots a → a ∈ addrs := by
    intro a r
    induction r with
    | root e => exact within_ok h2 e
    | step _ hb ih =>
      have := List.all_eq_true.mp h3 _ ih
      rw [Bool.and_eq_true] at this
      exact within_ok this.2 hb
  have pair : ∀ a b, Reach H roots a → Reach H roots b → ((H a).key = none ∨ (H a).key ≠ (H b).key ∨ a = b) ∧
      ((H a).types.head? ≠ (H b).types.head? ∨ (H a).types = (H b).types) := by
    intro a b ha hb
    have := List.all_eq_true.mp (List.all_eq_true.mp h4 a (reach a ha)) b (reach b hb)
    simp only [Bool.and_eq_true, Bool.or_eq_true, decide_eq_true_eq] at this
    exact ⟨by rcases this.1 with (h | h) | h <;> simp [h], this.2⟩
  refine ⟨fun v hv => PVal.check_ok E (List.all_eq_true.mp h1 v hv), fun a ha => ?_, fun a b ha hb hk he => ?_,
    fun a b ha hb he => ?_⟩
  · have := List.all_eq_true.mp h3 _ (reach a ha)
    rw [Bool.and_eq_true] at this
    exact PObj.check_ok E this.1
  · rcases (pair a b ha hb).1 with h | h | h
    · exact absurd h hk
    · exact absurd he h
    · exact h
  · rcases (pair a b ha hb).2 with h | h
    · exact absurd he h
    · exact h

end Verif
