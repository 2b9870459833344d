import Verif.Proof.Serializer

/-! # Objects come back: the proof by cases of the kind of object -/

namespace Verif

/-! ## Adding properties in order -/

theorem set_mid {l r : List (PyStr × DVal)} {n : PyStr} {w v : DVal} (h : n ∉ l.map Prod.fst) :
    Dict.set (l ++ (n, w) :: r) n v = l ++ (n, v) :: r := by
  induction l with
  | nil => simp [Dict.set]
  | cons e l ih =>
    obtain ⟨k, u⟩ := e
    simp only [List.map_cons, List.mem_cons, not_or] at h
    simp only [List.cons_append, Dict.set]
    rw [if_neg (fun e => h.1 e.symm), ih h.2]

theorem get_none {l : List (PyStr × DVal)} {n : PyStr} (h : n ∉ l.map Prod.fst) : Dict.contains l n = false := by
  unfold Dict.contains
  rw [(Dict.get?_eq_none l n).mpr h]; rfl

theorem get_mid {l r : List (PyStr × DVal)} {n : PyStr} {w : DVal} :
    Dict.contains (l ++ (n, w) :: r) n = true := by
  unfold Dict.contains
  cases h : Dict.get? (l ++ (n, w) :: r) n with
  | some v => rfl
  | none =>
    rw [Dict.get?_eq_none] at h
    exact absurd (by simp [Dict.keys]) h

theorem fold_adapted (dps : List (PyStr × DVal)) (d : DObj) :
    dps.foldl (fun e q => putAdapted q.1 q.2 e) d =
      { d with adapted := dps.foldl (fun e q => addNote e q.1 q.2) d.adapted } := by
  induction dps generalizing d with
  | nil => rfl
  | cons q dps ih => rw [List.foldl_cons, ih]; rfl

theorem fold_extended (dps : List (PyStr × DVal)) (d : DObj) :
    dps.foldl (fun e q => putExtended q.1 q.2 e) d =
      { d with extended := dps.foldl (fun e q => addNote e q.1 q.2) d.extended } := by
  induction dps generalizing d with
  | nil => rfl
  | cons q dps ih => rw [List.foldl_cons, ih]; rfl

theorem match_names {φ : Nat → Option Nat} {ps : List (PyStr × PVal)} {dps : List (PyStr × DVal)}
    (t : All2 (PMatch φ) ps dps) : dps.map Prod.fst = ps.map Prod.fst := by
  induction t with
  | nil => rfl
  | cons h _ ih => rw [List.map_cons, List.map_cons, ih, h.1]

theorem lookup_match {φ : Nat → Option Nat} {ps : List (PyStr × PVal)} {dps : List (PyStr × DVal)}
    (t : All2 (PMatch φ) ps dps) (n : PyStr) : VMatch φ ((ps.lookup n).getD .nil) ((dps.lookup n).getD .nil) := by
  induction t with
  | nil => rfl
  | @cons p q ps dps h _ ih =>
    obtain ⟨k, v⟩ := p
    obtain ⟨k', w⟩ := q
    obtain ⟨rfl, h2⟩ : k = k' ∧ VMatch φ v w := h
    simp only [List.lookup_cons]
    cases hk : n == k with
    | true => exact h2
    | false => exact ih

theorem filter_match {φ : Nat → Option Nat} {ps : List (PyStr × PVal)} {dps : List (PyStr × DVal)}
    (t : All2 (PMatch φ) ps dps) (f : PyStr → Bool) :
    All2 (PMatch φ) (ps.filter fun p => f p.1) (dps.filter fun p => f p.1) := by
  induction t with
  | nil => exact .nil
  | @cons p q ps dps h _ ih =>
    rw [List.filter_cons, List.filter_cons, ← h.1]
    cases f p.1 with
    | true => exact .cons h ih
    | false => exact ih

theorem All2.append {α β : Type} {R : α → β → Prop} {as as' : List α} {bs bs' : List β} (h : All2 R as bs)
    (h' : All2 R as' bs') : All2 R (as ++ as') (bs ++ bs') := by
  induction h with
  | nil => exact h'
  | cons h _ ih => exact .cons h ih

theorem arranged_match {φ : Nat → Option Nat} {ps : List (PyStr × PVal)} {dps : List (PyStr × DVal)}
    (t : All2 (PMatch φ) ps dps) (declared : List PyStr) :
    All2 (PMatch φ) (arranged .nil declared ps) (arranged .nil declared dps) := by
  refine All2.append ?_ (filter_match t fun n => !declared.contains n)
  induction declared with
  | nil => exact .nil
  | cons n ns ih => exact .cons ⟨rfl, lookup_match t n⟩ ih

theorem lookup_none {α : Type} {ps : List (PyStr × α)} {n : PyStr} (h : n ∉ ps.map Prod.fst) : ps.lookup n = none := by
  induction ps with
  | nil => rfl
  | cons p ps ih =>
    obtain ⟨k, v⟩ := p
    simp only [List.map_cons, List.mem_cons, not_or] at h
    rw [List.lookup_cons, beq_false_of_ne h.1]
    exact ih h.2

theorem addNote_new {ps : List (PyStr × DVal)} {n : PyStr} {v : DVal} (h : n ∉ ps.map Prod.fst) :
    addNote ps n v = ps ++ [(n, v)] := by
  unfold addNote
  rw [get_none h]; rfl

theorem addNote_old {ps : List (PyStr × DVal)} {n : PyStr} {v : DVal} (hn : (ps.map Prod.fst).Nodup)
    (h : n ∈ ps.map Prod.fst) :
    addNote ps n v = ps.map fun p => (p.1, if p.1 = n then v else p.2) := by
  obtain ⟨⟨k, w⟩, hm, rfl⟩ := List.mem_map.mp h
  obtain ⟨l, r, rfl⟩ := List.append_of_mem hm
  rw [List.map_append, List.map_cons, List.nodup_append, List.nodup_cons] at hn
  have hl : k ∉ l.map Prod.fst := fun hk => hn.2.2 k hk k (by simp) rfl
  have hr := hn.2.1.1
  have keep : ∀ m : List (PyStr × DVal), k ∉ m.map Prod.fst →
      m.map (fun p => (p.1, if p.1 = k then v else p.2)) = m := by
    intro m hm
    induction m with
    | nil => rfl
    | cons p m ih =>
      simp only [List.map_cons, List.mem_cons, not_or] at hm
      rw [List.map_cons, ih hm.2, if_neg (fun e => hm.1 e.symm)]
  unfold addNote
  rw [get_mid]
  simp only [↓reduceIte, List.reverse_append, List.reverse_cons, List.append_assoc, List.cons_append,
    List.nil_append]
  rw [set_mid (by simpa using hr)]
  rw [List.map_append, List.map_cons, keep l hl, keep r hr]
  simp

/-- Adding properties one by one: those that are there get their values, the others come after them. -/
theorem addNote_all : ∀ (dps base : List (PyStr × DVal)), (dps.map Prod.fst).Nodup → (base.map Prod.fst).Nodup →
    dps.foldl (fun e q => addNote e q.1 q.2) base =
      base.map (fun p => (p.1, (dps.lookup p.1).getD p.2)) ++ dps.filter fun p => !(base.map Prod.fst).contains p.1 := by
  intro dps
  induction dps with
  | nil =>
    intro base _ _
    simp only [List.foldl_nil, List.filter_nil, List.append_nil, List.lookup_nil, Option.getD_none]
    exact (List.map_id _).symm
  | cons q dps ih =>
    obtain ⟨n, v⟩ := q
    intro base hn hb
    rw [List.map_cons, List.nodup_cons] at hn
    have hnone : dps.lookup n = none := lookup_none hn.1
    rw [List.foldl_cons]
    by_cases h : n ∈ base.map Prod.fst
    · have hnames : (base.map fun p => (p.1, if p.1 = n then v else p.2)).map Prod.fst = base.map Prod.fst := by
        rw [List.map_map]; rfl
      rw [addNote_old hb h, ih _ hn.2 (by rw [hnames]; exact hb), hnames, List.filter_cons, List.map_map]
      have hc : (base.map Prod.fst).contains n = true := by rw [List.contains_iff_mem]; exact h
      simp only [hc, Bool.not_true, Bool.false_eq_true, ↓reduceIte]
      congr 1
      apply List.map_congr_left
      intro p _
      simp only [Function.comp_apply, List.lookup_cons]
      by_cases hp : p.1 = n
      · rw [hp, hnone]; simp
      · rw [beq_false_of_ne hp]; simp [hp]
    · have hc : (base.map Prod.fst).contains n = false := by
        cases e : (base.map Prod.fst).contains n with
        | false => rfl
        | true => exact absurd (List.contains_iff_mem.mp e) h
      rw [addNote_new h, ih _ hn.2 (by
        rw [List.map_append, List.nodup_append]
        refine ⟨hb, by simp, ?_⟩
        intro a ha b hb' e
        simp only [List.map_cons, List.map_nil, List.mem_singleton] at hb'
        rw [e, hb'] at ha
        exact h ha)]
      rw [List.map_append, List.append_assoc, List.filter_cons]
      simp only [hc, Bool.not_false, ↓reduceIte, List.map_cons, List.map_nil, hnone, Option.getD_none]
      congr 1
      · apply List.map_congr_left
        intro p hp
        have : p.1 ≠ n := fun e => h (e ▸ List.mem_map_of_mem hp)
        simp only [List.lookup_cons, beq_false_of_ne this]
      · show (n, v) :: _ = (n, v) :: _
        congr 1
        apply List.filter_congr
        intro p hp
        have : p.1 ≠ n := by
          intro e
          apply hn.1
          show n ∈ _
          rw [← e]
          exact List.mem_map_of_mem hp
        simp [List.map_append, this]

theorem fill {declared : List PyStr} {dps : List (PyStr × DVal)} (hd : declared.Nodup)
    (hn : (dps.map Prod.fst).Nodup) :
    dps.foldl (fun e q => addNote e q.1 q.2) (declared.map fun n => (n, DVal.nil)) = arranged .nil declared dps := by
  have hnames : (declared.map fun n => (n, DVal.nil)).map Prod.fst = declared := by
    rw [List.map_map]; exact List.map_id _
  rw [addNote_all _ _ hn (by rw [hnames]; exact hd), hnames, List.map_map]
  rfl

/-! ## References -/

theorem getRefId_cases {L : Lib} {H : Heap} {S : Nat → Prop} {ss : SState} {ds : DState} {φ : Nat → Option Nat}
    (hi : Inv L H S ss ds φ) (key : Option Nat) :
    (∃ k r, key = some k ∧ ss.objRef.get? k = some r ∧ getRefId key ss = (r, true, ss)) ∨
    (key = none ∧ getRefId key ss = (ss.nextId, false, { ss with nextId := ss.nextId + 1 })) ∨
    (∃ k, key = some k ∧ ss.objRef.get? k = none ∧ getRefId key ss =
      (ss.nextId, false, { ss with objRef := ss.objRef.set k ss.nextId, nextId := ss.nextId + 1 })) := by
  cases key with
  | none => exact .inr (.inl ⟨rfl, rfl⟩)
  | some k =>
    cases h : ss.objRef.get? k with
    | none =>
      refine .inr (.inr ⟨k, rfl, h, ?_⟩)
      unfold getRefId
      simp only [h]
    | some r =>
      refine .inl ⟨k, r, rfl, h, ?_⟩
      have := (hi.refs k r h).1
      unfold getRefId
      simp only [h]
      rw [if_neg (by omega)]

/-- The correspondence after a new object at `b` was opened for `a`. -/
def extend (φ : Nat → Option Nat) (b a : Nat) : Nat → Option Nat := fun c => if c = b then some a else φ c

theorem extend_self (φ : Nat → Option Nat) (b a : Nat) : extend φ b a b = some a := if_pos rfl

theorem extend_ne (φ : Nat → Option Nat) {b c : Nat} (a : Nat) (h : c ≠ b) : extend φ b a c = φ c := if_neg h

theorem Inv.open {E : TextEnv} {L : Lib} {H : Heap} {S : Nat → Prop} {ss : SState} {ds : DState} {φ : Nat → Option Nat}
    (_ : GoodGraph E L H S) (hi : Inv L H S ss ds φ) {a : Nat} (ha : S a) {r : Nat} {ss1 : SState}
    (hr : getRefId (H a).key ss = (r, false, ss1)) {tn : List PyStr} {ds2 : DState} {b : Nat}
    (htn : ∀ i main, tn[i]? = some main → ∃ a, S a ∧ (H a).types.head? = some main ∧
      ds2.tnMap.get? (natStr i) = some (H a).types)
    (h1 : ds2.objMap.get? (natStr r) = some (.ref b))
    (h2 : ∀ r', r' ≠ r → ds2.objMap.get? (natStr r') = ds.objMap.get? (natStr r'))
    (hb1 : ds.heap.length ≤ b) (hb2 : b < ds2.heap.length) (hsh : ds2.shared = ds.shared) :
    Inv L H S { ss1 with tnRefs := tn } ds2 (extend φ b a) := by
  have hclean : ds2.Clean L := fun c m e => hi.clean c m (by rw [← hsh]; exact e)
  have hold : ∀ c a', φ c = some a' → c ≠ b := fun c a' e h => by
    have := (hi.dom c a' e).1; omega
  rcases getRefId_cases hi (H a).key with ⟨k, r', hk, _, e⟩ | ⟨hk, e⟩ | ⟨k, hk, hnone, e⟩
  · rw [e] at hr; cases hr
  · rw [e] at hr
    cases hr
    refine ⟨fun k r e => ?_, htn, fun c a' e => ?_, fun c a' k' e ek => ?_, hi.drained, hclean⟩
    · obtain ⟨hlt, a', b', hS, hk', hm, hφ⟩ := hi.refs k r e
      refine ⟨by dsimp only; omega, a', b', hS, hk', ?_, ?_⟩
      · rw [h2 r (by omega)]; exact hm
      · rw [extend_ne _ _ (hold _ _ hφ)]; exact hφ
    · by_cases hc : c = b
      · subst hc; rw [extend_self] at e; cases e; exact ⟨hb2, ha⟩
      · rw [extend_ne _ _ hc] at e
        exact ⟨by have := (hi.dom c a' e).1; omega, (hi.dom c a' e).2⟩
    · by_cases hc : c = b
      · subst hc; rw [extend_self] at e; cases e; rw [hk] at ek; cases ek
      · rw [extend_ne _ _ hc] at e
        obtain ⟨r, hr, hm⟩ := hi.keyed c a' k' e ek
        refine ⟨r, hr, ?_⟩
        rw [h2 r (by have := (hi.refs k' r hr).1; omega)]; exact hm
  · rw [e] at hr
    cases hr
    have hset : ∀ k', k' ≠ k → (ss.objRef.set k ss.nextId).get? k' = ss.objRef.get? k' :=
      fun k' h => Dict.get?_set_ne _ _ h.symm
    have hself : (ss.objRef.set k ss.nextId).get? k = some ss.nextId := Dict.get?_set_self _ _ _
    refine ⟨fun k' r e => ?_, htn, fun c a' e => ?_, fun c a' k' e ek => ?_, fun a' ha' => ?_, hclean⟩
    · dsimp only at e ⊢
      by_cases hkk : k' = k
      · subst hkk
        rw [hself] at e
        cases e
        exact ⟨by omega, a, b, ha, hk, h1, extend_self _ _ _⟩
      · rw [hset k' hkk] at e
        obtain ⟨hlt, a', b', hS, hk', hm, hφ⟩ := hi.refs k' r e
        refine ⟨by omega, a', b', hS, hk', ?_, ?_⟩
        · rw [h2 r (by omega)]; exact hm
        · rw [extend_ne _ _ (hold _ _ hφ)]; exact hφ
    · by_cases hc : c = b
      · subst hc; rw [extend_self] at e; cases e; exact ⟨hb2, ha⟩
      · rw [extend_ne _ _ hc] at e
        exact ⟨by have := (hi.dom c a' e).1; omega, (hi.dom c a' e).2⟩
    · dsimp only
      by_cases hc : c = b
      · subst hc
        rw [extend_self] at e
        cases e
        rw [hk] at ek
        cases ek
        exact ⟨_, hself, h1⟩
      · rw [extend_ne _ _ hc] at e
        obtain ⟨r, hr, hm⟩ := hi.keyed c a' k' e ek
        have hkk : k' ≠ k := fun h => by rw [h, hnone] at hr; cases hr
        refine ⟨r, by rw [hset k' hkk]; exact hr, ?_⟩
        rw [h2 r (by have := (hi.refs k' r hr).1; omega)]; exact hm
    · obtain ⟨k', hk', hne⟩ := hi.drained a' ha'
      refine ⟨k', hk', ?_⟩
      dsimp only
      by_cases hkk : k' = k
      · subst hkk; rw [hself]; simp
      · rw [hset k' hkk]; exact hne

/-! ## Type names -/

/-- Neither `TN` nor `TNRef`. -/
def NoType (x : Xml) : Prop := x.tag ≠ .TN ∧ x.tag ≠ .TNRef

theorem filter_noType {l : List Xml} (h : ∀ x ∈ l, NoType x) : l.filter (·.tag = .TN) = [] := by
  rw [List.filter_eq_nil_iff]
  intro x hx
  simpa using (h x hx).1

theorem find_noType {l : List Xml} (h : ∀ x ∈ l, NoType x) : l.find? (·.tag = .TN) = none := by
  rw [List.find?_eq_none]
  intro x hx
  simpa using (h x hx).1

theorem find_noTypeRef {l : List Xml} (h : ∀ x ∈ l, NoType x) : l.find? (·.tag = .TNRef) = none := by
  rw [List.find?_eq_none]
  intro x hx
  simpa using (h x hx).2

theorem findTypes_noType {l : List Xml} (h : ∀ x ∈ l, NoType x) : findTypes l = [] := by
  unfold findTypes
  rw [filter_noType h]; rfl

theorem texts (ts : List PyStr) :
    (((ts.map fun t => Xml.node .T {} t []).filter (·.tag = .T)).map Xml.text) = ts := by
  induction ts with
  | nil => rfl
  | cons t ts ih => exact congrArg (List.cons t) ih

theorem findTypes_TN {pre post : List Xml} (h1 : ∀ x ∈ pre, NoType x) (h2 : ∀ x ∈ post, NoType x) (r : PyStr)
    (ts : List PyStr) :
    findTypes (pre ++ [.node .TN { refId := some r } [] (ts.map fun t => .node .T {} t [])] ++ post) = ts := by
  unfold findTypes
  rw [List.filter_append, List.filter_append, filter_noType h1, filter_noType h2]
  simp only [List.filter_cons, Xml.tag, decide_true, ↓reduceIte, List.filter_nil, List.nil_append,
    List.append_nil, List.flatMap_cons, List.flatMap_nil, Xml.kids]
  exact texts ts

theorem types_sim {E : TextEnv} {L : Lib} {H : Heap} {S : Nat → Prop} (hg : GoodGraph E L H S) {ss : SState}
    {ds : DState} {φ : Nat → Option Nat} (hi : Inv L H S ss ds φ) {a : Nat} (ha : S a) {ts : List PyStr}
    (hts : ts = (H a).types ∨ ts = []) {ss1 : SState} (htn : ss1.tnRefs = ss.tnRefs) {pre post : List Xml}
    (h1 : ∀ x ∈ pre, NoType x) (h2 : ∀ x ∈ post, NoType x) :
    ∃ ds', readTypes (pre ++ (serTypes ts ss1).1 ++ post) ds = .ok (ts, ds') ∧ ds'.heap = ds.heap ∧
      ds'.objMap = ds.objMap ∧ ds'.shared = ds.shared ∧ ∃ tn, (serTypes ts ss1).2 = { ss1 with tnRefs := tn } ∧
        ∀ i main, tn[i]? = some main → ∃ a, S a ∧ (H a).types.head? = some main ∧
          ds'.tnMap.get? (natStr i) = some (H a).types := by
  cases ts with
  | nil =>
    refine ⟨ds, ?_, rfl, rfl, rfl, ss1.tnRefs, rfl, by rw [htn]; exact hi.tns⟩
    simp only [serTypes, List.append_nil]
    have h : ∀ x ∈ pre ++ post, NoType x := fun x hx => by
      rcases List.mem_append.mp hx with h | h
      · exact h1 x h
      · exact h2 x h
    unfold readTypes
    rw [findTypes_noType h, if_neg (by simp), find_noTypeRef h]
  | cons main rest =>
    have hts : main :: rest = (H a).types := by
      rcases hts with h | h
      · exact h
      · cases h
    by_cases hc : ss1.tnRefs.contains main = true
    · have e : serTypes (main :: rest) ss1 =
          ([.node .TNRef { refId := some (natStr (ss1.tnRefs.idxOf main)) } [] []], ss1) := by
        unfold serTypes; dsimp only; rw [if_pos hc]
      rw [e]
      have hmem : main ∈ ss1.tnRefs := by simpa using hc
      have hidx : ss1.tnRefs[ss1.tnRefs.idxOf main]? = some main := by
        rw [List.getElem?_eq_getElem (List.idxOf_lt_length_of_mem hmem)]
        simp
      rw [htn] at hidx
      obtain ⟨a', hS', hh, hm⟩ := hi.tns _ _ hidx
      have heq : (H a').types = main :: rest := by
        rw [hts]
        refine hg.types a' a hS' ha ?_
        rw [hh, ← hts]; rfl
      refine ⟨ds, ?_, rfl, rfl, rfl, ss1.tnRefs, rfl, by rw [htn]; exact hi.tns⟩
      unfold readTypes
      have hf : findTypes (pre ++ [.node .TNRef { refId := some (natStr (ss1.tnRefs.idxOf main)) } [] []] ++ post) = [] := by
        unfold findTypes
        rw [List.filter_append, List.filter_append, filter_noType h1, filter_noType h2]
        rfl
      rw [hf, if_neg (by simp)]
      rw [List.find?_append, List.find?_append, find_noTypeRef h1]
      simp only [List.find?_cons, Xml.tag, decide_true, Option.none_or, Option.some_or, Xml.attrs, getAttrib]
      rw [htn, hm, heq]
    · have e : serTypes (main :: rest) ss1 =
          ([.node .TN { refId := some (natStr ((ss1.tnRefs ++ [main]).idxOf main)) } []
              ((main :: rest).map fun t => .node .T {} t [])],
            { ss1 with tnRefs := ss1.tnRefs ++ [main] }) := by
        unfold serTypes; dsimp only; rw [if_neg hc]
      have hmem : main ∉ ss1.tnRefs := by simpa using hc
      have hidx : (ss1.tnRefs ++ [main]).idxOf main = ss.tnRefs.length := by
        rw [List.idxOf_append, if_neg hmem, htn]; simp
      rw [e, hidx]
      refine ⟨{ ds with tnMap := ds.tnMap.set (natStr ss.tnRefs.length) (main :: rest) }, ?_, rfl, rfl, rfl,
        ss1.tnRefs ++ [main], rfl, ?_⟩
      · unfold readTypes
        rw [findTypes_TN h1 h2, if_pos (by simp)]
        rw [List.find?_append, List.find?_append, find_noType h1]
        simp only [List.find?_cons, Xml.tag, decide_true, Option.none_or, Option.some_or, Xml.attrs, getAttrib]
      · rw [htn]
        intro i m hm
        dsimp only
        by_cases hlt : i < ss.tnRefs.length
        · rw [List.getElem?_append_left hlt] at hm
          obtain ⟨a', hS', hh, hm'⟩ := hi.tns _ _ hm
          refine ⟨a', hS', hh, ?_⟩
          rw [Dict.get?_set_ne _ _ (fun e => by have := natStr_inj e; omega)]
          exact hm'
        · rw [List.getElem?_append_right (by omega)] at hm
          have hi0 : i - ss.tnRefs.length = 0 := by
            rcases Nat.eq_zero_or_pos (i - ss.tnRefs.length) with h | h
            · exact h
            · rw [List.getElem?_eq_none (by simp only [List.length_singleton]; omega)] at hm; cases hm
          have : i = ss.tnRefs.length := by omega
          subst this
          rw [hi0] at hm
          cases hm
          refine ⟨a, ha, by rw [← hts]; rfl, ?_⟩
          rw [Dict.get?_set_self, hts]

/-! ## The children of an `Obj` element -/

theorem readChildren_append (L : Lib) (g : Xml → DState → Except Err (DVal × DState)) (types : List PyStr)
    (refId : Option PyStr) (xs ys : List Xml) {c c' : Cur} {s s' : DState}
    (h : readChildren L g types refId xs c s = .ok (c', s')) :
    readChildren L g types refId (xs ++ ys) c s = readChildren L g types refId ys c' s' := by
  induction xs generalizing c s with
  | nil => cases h; rfl
  | cons x xs ih =>
    simp only [readChildren, List.cons_append] at h ⊢
    cases hx : readChild L g types refId x c s with
    | error e => rw [hx] at h; cases h
    | ok r =>
      obtain ⟨c1, s1⟩ := r
      rw [hx] at h
      exact ih h

theorem readChildren_one (L : Lib) (g : Xml → DState → Except Err (DVal × DState)) (types : List PyStr)
    (refId : Option PyStr) (x : Xml) (c : Cur) (s : DState) :
    readChildren L g types refId [x] c s = readChild L g types refId x c s := by
  simp only [readChildren]
  cases readChild L g types refId x c s with
  | error e => rfl
  | ok r => rfl

theorem readChildren_types (L : Lib) (g : Xml → DState → Except Err (DVal × DState)) (types : List PyStr)
    (refId : Option PyStr) (ts : List PyStr) (ss : SState) (c : Cur) (s : DState) :
    readChildren L g types refId (serTypes ts ss).1 c s = .ok (c, s) := by
  cases ts with
  | nil => rfl
  | cons t ts =>
    by_cases h : ss.tnRefs.contains t = true
    · simp only [serTypes, h, ↓reduceIte]; rfl
    · simp only [serTypes, h]; rfl

/-- The element of a group of properties. -/
def groupXml (tag : Tag) (ps : List (PyStr × PVal)) (xs : List Xml) : List Xml :=
  if ps = [] then [] else [.node tag {} [] xs]

theorem serGroup_ok {f : PVal → SState → Except Err (Xml × SState)} {tag : Tag} {ps : List (PyStr × PVal)}
    {s s' : SState} {l : List Xml} (h : serGroup f tag ps s = .ok (l, s')) :
    ∃ xs, serProps f ps s = .ok (xs, s') ∧ l = groupXml tag ps xs := by
  unfold serGroup at h
  unfold groupXml
  by_cases hp : ps = []
  · rw [if_pos hp] at h
    cases h
    subst hp
    exact ⟨[], rfl, rfl⟩
  · rw [if_neg hp] at h
    cases hx : serProps f ps s with
    | error e => rw [hx] at h; cases h
    | ok r =>
      obtain ⟨xs, s1⟩ := r
      rw [hx] at h
      cases h
      exact ⟨xs, rfl, (if_neg hp).symm⟩

theorem readChildren_props (L : Lib) (g : Xml → DState → Except Err (DVal × DState)) (types : List PyStr)
    (refId : Option PyStr) {f : PVal → SState → Except Err (Xml × SState)} {ps : List (PyStr × PVal)}
    {ss ss' : SState} {xs : List Xml} (h : serProps f ps ss = .ok (xs, ss')) (c : Cur) (hc : c.props = [])
    (s : DState) :
    readChildren L g types refId (groupXml .Props ps xs) c s = .ok ({ c with props := xs }, s) := by
  cases ps with
  | nil => cases h; obtain ⟨v, t, p, m⟩ := c; cases hc; rfl
  | cons p ps => rfl

theorem readChildren_ms (L : Lib) (g : Xml → DState → Except Err (DVal × DState)) (types : List PyStr)
    (refId : Option PyStr) {f : PVal → SState → Except Err (Xml × SState)} {ps : List (PyStr × PVal)}
    {ss ss' : SState} {xs : List Xml} (h : serProps f ps ss = .ok (xs, ss')) (c : Cur) (hc : c.ms = [])
    (s : DState) :
    readChildren L g types refId (groupXml .MS ps xs) c s = .ok ({ c with ms := xs }, s) := by
  cases ps with
  | nil => cases h; obtain ⟨v, t, p, m⟩ := c; cases hc; rfl
  | cons p ps => rfl

theorem readChildren_string (L : Lib) (g : Xml → DState → Except Err (DVal × DState)) (types : List PyStr)
    (refId : Option PyStr) (t : Option PyStr) (ht : ∀ u, t = some u → deserializeString u = .ok u) (c : Cur)
    (hc : c.toStr = none) (s : DState) :
    readChildren L g types refId (serString t) c s =
      .ok ({ c with toStr := if t = some [] then none else t }, s) := by
  obtain ⟨v, t', p, m⟩ := c
  cases hc
  cases t with
  | none => rfl
  | some u =>
    cases u with
    | nil => rfl
    | cons x u =>
      have := ht _ rfl
      simp only [serString]
      rw [if_neg (by simp), readChildren_one]
      simp only [readChild, Xml.tag, Xml.text, this]
      rw [if_neg (by simp)]

theorem readChild_prim {E : TextEnv} (L : Lib) (g : Xml → DState → Except Err (DVal × DState)) (types : List PyStr)
    (refId : Option PyStr) (p : Prim) (c : Cur) (s : DState) :
    readChild L g types refId (primXml E p) c s = readSub L g types refId (primXml E p) c s := by
  cases p with
  | str k t => cases k <;> rfl
  | float k t => cases k <;> rfl
  | _ => rfl

theorem noType_prim (E : TextEnv) (p : Prim) : NoType (primXml E p) := by
  cases p with
  | str k t => cases k <;> exact ⟨by simp [primXml, writePrim, Xml.tag, StrKind.tag], by simp [primXml, writePrim, Xml.tag, StrKind.tag]⟩
  | float k t => cases k <;> exact ⟨by simp [primXml, writePrim, Xml.tag, FloatKind.tag], by simp [primXml, writePrim, Xml.tag, FloatKind.tag]⟩
  | _ => exact ⟨by simp [primXml, writePrim, Xml.tag], by simp [primXml, writePrim, Xml.tag]⟩

theorem noType_sub (E : TextEnv) (d : Data) : ∀ x ∈ serSub E d, NoType x := by
  intro x hx
  cases d with
  | ext p => rw [List.mem_singleton.mp hx]; exact noType_prim E p
  | enum p => rw [List.mem_singleton.mp hx]; exact noType_prim E p
  | _ => cases hx

theorem noType_group {tag : Tag} (h : tag ≠ .TN ∧ tag ≠ .TNRef) (ps : List (PyStr × PVal)) (xs : List Xml) :
    ∀ x ∈ groupXml tag ps xs, NoType x := by
  intro x hx
  unfold groupXml at hx
  split at hx
  · cases hx
  · rw [List.mem_singleton.mp hx]; exact h

theorem noType_string (t : Option PyStr) : ∀ x ∈ serString t, NoType x := by
  intro x hx
  cases t with
  | none => cases hx
  | some u =>
    simp only [serString] at hx
    split at hx
    · cases hx
    · rw [List.mem_singleton.mp hx]; exact ⟨by simp [Xml.tag], by simp [Xml.tag]⟩

theorem serContent_cases {f : PVal → SState → Except Err (Xml × SState)} {a : Nat} {o : PObj} {s s' : SState}
    {c : List Xml} (h : serContent f a o s = .ok (c, s')) : ∀ x ∈ c, NoType x := by
  intro x hx
  unfold serContent at h
  split at h
  · rename_i k items _
    cases hi : serItems f items s with
    | error e => rw [hi] at h; cases h
    | ok r =>
      rw [hi] at h; cases h
      rw [List.mem_singleton.mp hx]
      cases k <;> exact ⟨by simp [Xml.tag, ListKind.tag], by simp [Xml.tag, ListKind.tag]⟩
  · rename_i items _
    generalize hi : serItems f (if s.drained.contains a then [] else items) { s with drained := a :: s.drained } = q at h
    cases q with
    | error e => cases h
    | ok r =>
      cases h
      rw [List.mem_singleton.mp hx]
      exact ⟨by simp [Xml.tag], by simp [Xml.tag]⟩
  · rename_i es _
    cases hi : serEntries f es s with
    | error e => rw [hi] at h; cases h
    | ok r =>
      rw [hi] at h; cases h
      rw [List.mem_singleton.mp hx]
      exact ⟨by simp [Xml.tag], by simp [Xml.tag]⟩
  · cases h; cases hx
  · cases h; exact noType_string _ x hx
  · cases h; exact noType_string _ x hx

theorem serBody_ok {E : TextEnv} {f : PVal → SState → Except Err (Xml × SState)} {a r : Nat} {o : PObj}
    {s s' : SState} {x : Xml} (h : serBody E f a r o s = .ok (x, s')) :
    ∃ xsA s1 xsE s2 c, serProps f o.adapted (serTypes (writtenTypes o) s).2 = .ok (xsA, s1) ∧
      serProps f o.extended s1 = .ok (xsE, s2) ∧ serContent f a o s2 = .ok (c, s') ∧
      x = .node .Obj { refId := some (natStr r) } []
        (serSub E o.data ++ (serTypes (writtenTypes o) s).1 ++ groupXml .Props o.adapted xsA ++
          groupXml .MS o.extended xsE ++ c) := by
  unfold serBody at h
  cases h1 : serGroup f .Props o.adapted (serTypes (writtenTypes o) s).2 with
  | error e => rw [h1] at h; cases h
  | ok r1 =>
    obtain ⟨l1, s1⟩ := r1
    rw [h1] at h
    dsimp only at h
    obtain ⟨xsA, hA, rfl⟩ := serGroup_ok h1
    cases h2 : serGroup f .MS o.extended s1 with
    | error e => rw [h2] at h; cases h
    | ok r2 =>
      obtain ⟨l2, s2⟩ := r2
      rw [h2] at h
      dsimp only at h
      obtain ⟨xsE, hE, rfl⟩ := serGroup_ok h2
      cases h3 : serContent f a o s2 with
      | error e => rw [h3] at h; cases h
      | ok r3 =>
        obtain ⟨c, s3⟩ := r3
        rw [h3] at h
        cases h
        exact ⟨xsA, s1, xsE, s2, c, hA, hE, h3, rfl⟩

theorem register_ref (s : DState) (r : PyStr) (b : Nat) :
    s.register (some r) (.ref b) = { s with objMap := s.objMap.set r (.ref b) } := by
  unfold DState.register
  dsimp only
  rw [if_neg (by simp)]

/-! ## The end of an object -/

theorem finish_close {E : TextEnv} {L : Lib} {H : Heap} {S : Nat → Prop}
    {f : PVal → SState → Except Err (Xml × SState)} {g : Xml → DState → Except Err (DVal × DState)}
    (hs : Sim E L H S f g) (hn : Nameless g) (hg : GoodGraph E L H S) {ss : SState} {ds : DState}
    {φ : Nat → Option Nat} (hi : Inv L H S ss ds φ) {a b : Nat} (ha : S a) {ssO : SState} {dsO : DState}
    (hb : ds.heap.length ≤ b) (hbO : b < dsO.heap.length)
    (hlow : ∀ c, c < ds.heap.length → dsO.heap[c]? = ds.heap[c]?)
    {ssC : SState} {dsC : DState} {φC : Nat → Option Nat}
    (st : Step L H S (some b) ssO dsO (extend φ b a) ssC dsC φC) {dC : DObj} (hC : dsC.heap[b]? = some dC)
    {xsA xsE : List Xml} {s1 ss' : SState} (hA : serProps f (H a).adapted ssC = .ok (xsA, s1))
    (hE : serProps f (H a).extended s1 = .ok (xsE, ss'))
    (pA : dC.adapted = (L.declared (H a)).adapted.map fun n => (n, DVal.nil))
    (pE : dC.extended = (L.declared (H a)).extended.map fun n => (n, DVal.nil))
    {names : List PyStr} {toStr : Option PyStr} (hcls : dC.cls = resultClass L (H a)) (hen : L.enumClass dC = none)
    (htypes : (dress names toStr dC).types = resultTypes L (H a))
    (hstr : (dress names toStr dC).toStr = resultString (H a)) (hdata : DataMatch φC (H a).data dC.data) :
    ∃ ds' φ', readFinish L g names ⟨some b, toStr, xsA, xsE⟩ dsC = .ok (.ref b, ds') ∧
      Step L H S none ss ds φ ss' ds' φ' ∧ VMatch φ' (.ref a) (.ref b) := by
  have ok := hg.objs a ha
  have hval : ∀ v, v ∈ (H a).adapted.map Prod.snd ∨ v ∈ (H a).extended.map Prod.snd → v ∈ (H a).values := by
    intro v h
    unfold PObj.values
    rcases h with h | h
    · exact List.mem_append_left _ (List.mem_append_left _ h)
    · exact List.mem_append_left _ (List.mem_append_right _ h)
  have st0 : Step L H S (some b) ssC dsC φC ssC (dsC.update b (dress names toStr)) φC := Step.update st.inv b _
  have hd0 := update_get_self (dress names toStr) hC
  obtain ⟨dA, ds1, φ1, hr1, st1, m1, hd1⟩ := props_sim hs hn putAdapted (fun _ _ _ => rfl) (H a).adapted ssC xsA s1 _ φC b _
    (fun c h => hg.closed a c ha (hval _ (.inl h))) (fun v h => ok.vals v (hval _ (.inl h)))
    (fun p h => ok.names p (List.mem_append_left _ h)) st0.inv hd0 ((enumClass_cls rfl).trans hen) hA
  obtain ⟨dE, ds2, φ2, hr2, st2, m2, hd2⟩ := props_sim hs hn putExtended (fun _ _ _ => rfl) (H a).extended s1 xsE ss' ds1 φ1 b _
    (fun c h => hg.closed a c ha (hval _ (.inr h))) (fun v h => ok.vals v (hval _ (.inr h)))
    (fun p h => ok.names p (List.mem_append_right _ h)) st1.inv hd1
    ((enumClass_cls (by rw [fold_adapted]; rfl)).trans hen) hE
  have hbC : b < dsC.heap.length := lt_of_get hC
  have hoC : ∀ c, some b = some c → c < dsC.heap.length := by intro c e; cases e; exact hbC
  have hoO : ∀ c, some b = some c → c < dsO.heap.length := by intro c e; cases e; exact hbO
  have ho0 : ∀ c, some b = some c → c < (dsC.update b (dress names toStr)).heap.length := by
    intro c e; rw [update_length]; exact hoC c e
  have stc : Step L H S (some b) ssC dsC φC ss' ds2 φ2 := st0.trans (st1.trans st2 ho0) hoC
  have sta := st.trans stc hoO
  have hsub : Sub φC φ2 := stc.sub st.inv
  have hsub1 : Sub φ1 φ2 := st2.sub st1.inv
  rw [fold_extended, fold_adapted] at hd2
  dsimp only at hd2
  rw [show (dress names toStr dC).adapted = _ from pA, show (dress names toStr dC).extended = _ from pE,
    fill ok.declared.1 (by rw [match_names m1]; exact ok.adapted),
    fill ok.declared.2.1 (by rw [match_names m2]; exact ok.extended)] at hd2
  have hφb : φ2 b = some a := by rw [sta.ext b hbO, extend_self]
  have hmatch : OMatch L φ2 (H a) { dress names toStr dC with
      adapted := arranged .nil (L.declared (H a)).adapted dA
      extended := arranged .nil (L.declared (H a)).extended dE } := {
    cls := hcls
    types := htypes
    string := .inr hstr
    data := hdata.mono hsub
    adapted := arranged_match (m1.mono fun _ _ => PMatch.mono hsub1) _
    extended := arranged_match m2 _ }
  have hlen : ds.heap.length ≤ ds2.heap.length := by have := sta.grow; omega
  refine ⟨ds2, φ2, ?_, ⟨sta.inv, hlen, ?_, ?_, ?_⟩, ⟨b, rfl, hφb⟩⟩
  · simp only [readFinish, edit_own hC hen, hr1, hr2]
  · intro c hc _
    rw [sta.frame c (by omega) (by intro e; cases e; omega), hlow c hc]
  · intro c hc
    rw [sta.ext c (by omega), extend_ne _ _ (by omega)]
  · intro c a' hc e
    by_cases hcb : c = b
    · subst hcb
      rw [hφb] at e
      cases e
      exact ⟨_, hd2, hmatch⟩
    · by_cases hlt : c < dsO.heap.length
      · rw [sta.ext c hlt, extend_ne _ _ hcb] at e
        have := (hi.dom c a' e).1
        omega
      · exact sta.done c a' (by omega) e

/-- A registered enum member: the class is dressed, the member stays as it was made. -/
theorem finish_enum {L : Lib} {H : Heap} {S : Nat → Prop}
    {g : Xml → DState → Except Err (DVal × DState)} {ss : SState} {ds : DState}
    {φ : Nat → Option Nat} (hi : Inv L H S ss ds φ) {a b : Nat} {ss' : SState} {dsO : DState}
    (hb : ds.heap.length ≤ b)
    (hlow : ∀ c, c < ds.heap.length → dsO.heap[c]? = ds.heap[c]?)
    (hiO : Inv L H S ss' dsO (extend φ b a)) {dO : DObj} (hO : dsO.heap[b]? = some dO) {cl : PyStr}
    (hen : L.enumClass dO = some cl) {names : List PyStr} {toStr : Option PyStr} (hnames : names = L.names cl)
    (hm : OMatch L (extend φ b a) (H a) dO) :
    ∃ ds' φ', readFinish L g names ⟨some b, toStr, [], []⟩ dsO = .ok (.ref b, ds') ∧
      Step L H S none ss ds φ ss' ds' φ' ∧ VMatch φ' (.ref a) (.ref b) := by
  refine ⟨{ dsO with shared := dsO.shared.set cl (dress names toStr (dsO.classMeta L cl)) }, extend φ b a, ?_,
    ⟨{ hiO with clean := ?_ }, ?_, fun c hc _ => hlow c hc, fun c hc => extend_ne _ _ (by omega), ?_⟩,
    ⟨b, rfl, extend_self _ _ _⟩⟩
  · simp only [readFinish, edit_member hO hen, readProps]
  · intro c m e
    by_cases hc : c = cl
    · subst hc
      rw [Dict.get?_set_self] at e
      cases e
      have hcl : ((dsO.classMeta L c).types = L.names c ∧ (dsO.classMeta L c).adapted = (L.instance c).adapted ∧
          (dsO.classMeta L c).extended = (L.instance c).extended) := by
        unfold DState.classMeta
        cases e : dsO.shared.get? c with
        | none => exact ⟨rfl, rfl, rfl⟩
        | some m => exact hiO.clean c m e
      refine ⟨?_, hcl.2⟩
      show (if names = [] then _ else names) = _
      rw [hcl.1, hnames]
      exact ite_self _
    · rw [Dict.get?_set_ne _ _ (fun h => hc h.symm)] at e
      exact hiO.clean c m e
  · have := lt_of_get hO
    exact Nat.le_trans hb (Nat.le_of_lt this)
  · intro c a' hc e
    by_cases hcb : c = b
    · subst hcb
      rw [extend_self] at e
      cases e
      exact ⟨dO, hO, hm⟩
    · rw [extend_ne _ _ hcb] at e
      have := (hi.dom c a' e).1
      omega

/-! ## Type names of results -/

theorem rehydrate_plain {r : Registry} {ts ns : List PyStr} (h : r.rehydrate ts = .plain ns) :
    ns = ts.map ((txt! "Deserialized.") ++ ·) := by
  unfold Registry.rehydrate at h
  split at h
  · cases h; rfl
  · split at h
    · cases h; rfl
    · split at h <;> cases h
      rfl

theorem classMeta_types {L : Lib} {s : DState} (h : s.Clean L) (c : PyStr) : (s.classMeta L c).types = L.names c := by
  unfold DState.classMeta
  cases e : s.shared.get? c with
  | none => rfl
  | some m => exact (h c m e).1

theorem startNames_nil (L : Lib) (s : DState) : L.startNames [] s = [] := rfl

theorem startNames_plain {L : Lib} {ts ns : List PyStr} (h : L.reg.rehydrate ts = .plain ns) (s : DState) :
    L.startNames ts s = ns := by
  unfold Lib.startNames
  rw [h]

theorem startNames_instance {L : Lib} {s : DState} (hcl : s.Clean L) {ts : List PyStr} {c : PyStr}
    (h : L.reg.rehydrate ts = .instance_ c) : L.startNames ts s = L.names c := by
  unfold Lib.startNames
  rw [h]
  dsimp only
  rw [classMeta_types hcl]
  exact ite_self _

theorem types_eq {L : Lib} {s : DState} (hcl : s.Clean L) {o : PObj} (hne : ∀ p, o.data ≠ .ext p)
    (hc : ClassOk L o) (dt : List PyStr)
    (h : o.types = [] → dt = match resultClass L o with
      | some c => L.names c
      | none => []) :
    (if L.startNames o.types s = [] then dt else L.startNames o.types s) = resultTypes L o := by
  cases ht : o.types with
  | nil =>
    rw [startNames_nil, if_pos rfl, h ht]
    unfold resultTypes
    rw [ht]
    cases hd : o.data with
    | ext p => exact absurd hd (hne p)
    | _ => rfl
  | cons t ts =>
    cases hr : L.reg.rehydrate (t :: ts) with
    | plain ns =>
      have e := rehydrate_plain hr
      rw [startNames_plain hr, if_neg (by rw [e]; simp), e]
      unfold resultTypes
      rw [ht, hr]
      cases hd : o.data with
      | ext p => exact absurd hd (hne p)
      | _ => rfl
    | instance_ c =>
      rw [startNames_instance hcl hr, if_neg ((hc c (by rw [ht]; exact hr)).1)]
      unfold resultTypes
      rw [ht, hr]
      cases hd : o.data with
      | ext p => exact absurd hd (hne p)
      | _ => rfl

theorem plain_props {E : TextEnv} {f : PVal → SState → Except Err (Xml × SState)}
    {g : Xml → DState → Except Err (DVal × DState)} (hp : SimPlain E f g) :
    ∀ (ps : List (PyStr × PVal)) (ss : SState) (xs : List Xml) (ss' : SState),
    (∀ q ∈ ps, q.2.IsPlain) → (∀ q ∈ ps, q.2.Ok E) → serProps f ps ss = .ok (xs, ss') →
    ss' = ss ∧ ∀ t, serProps f ps t = .ok (xs, t) := by
  intro ps
  induction ps with
  | nil => intro ss xs ss' _ _ h; cases h; exact ⟨rfl, fun _ => rfl⟩
  | cons q ps ih =>
    obtain ⟨n, v⟩ := q
    intro ss xs ss' hpl hok h
    simp only [serProps] at h
    cases h1 : f v ss with
    | error e => rw [h1] at h; cases h
    | ok r =>
      obtain ⟨x, s1⟩ := r
      rw [h1] at h
      dsimp only at h
      cases h2 : serProps f ps s1 with
      | error e => rw [h2] at h; cases h
      | ok r =>
        obtain ⟨ys, s2⟩ := r
        rw [h2] at h
        cases h
        obtain ⟨rfl, ht, _⟩ := hp v ss x s1 (hpl (n, v) (by simp)) (hok (n, v) (by simp)) h1
        obtain ⟨rfl, ht'⟩ := ih s1 ys _ (fun q h => hpl q (List.mem_cons_of_mem _ h))
          (fun q h => hok q (List.mem_cons_of_mem _ h)) h2
        refine ⟨rfl, fun t => ?_⟩
        simp only [serProps, ht t, ht' t]

theorem declared_some {L : Lib} {o : PObj} {c : PyStr} (h : resultClass L o = some c) : L.declared o = L.info c := by
  unfold Lib.declared; rw [h]

theorem declared_none {L : Lib} {o : PObj} (h : resultClass L o = none) : L.declared o = {} := by
  unfold Lib.declared; rw [h]

theorem arranged_nil {α : Type} (z : α) (ps : List (PyStr × α)) : arranged z [] ps = ps := by
  unfold arranged
  simp

theorem completed_none {L : Lib} {o : PObj} (h : resultClass L o = none) : L.completed o = o := by
  unfold Lib.completed
  rw [declared_none h, arranged_nil, arranged_nil]

theorem instance_adapted {L : Lib} {o : PObj} {c : PyStr} (h : resultClass L o = some c) :
    (L.instance c).adapted = (L.declared o).adapted.map fun n => (n, DVal.nil) := by
  rw [declared_some h]; rfl

theorem instance_extended {L : Lib} {o : PObj} {c : PyStr} (h : resultClass L o = some c) :
    (L.instance c).extended = (L.declared o).extended.map fun n => (n, DVal.nil) := by
  rw [declared_some h]; rfl

theorem blank_match (φ : Nat → Option Nat) (declared : List PyStr) :
    All2 (PMatch φ) (arranged .nil declared []) (declared.map fun n => (n, DVal.nil)) := by
  unfold arranged
  rw [List.filter_nil, List.append_nil]
  induction declared with
  | nil => exact .nil
  | cons n ns ih => exact .cons ⟨rfl, rfl⟩ ih

theorem children_rest (L : Lib) (g : Xml → DState → Except Err (DVal × DState)) (types : List PyStr)
    (refId : Option PyStr) {f : PVal → SState → Except Err (Xml × SState)} {o : PObj} {sA s1 sE s2 : SState}
    {xsA xsE : List Xml} (hA : serProps f o.adapted sA = .ok (xsA, s1)) (hE : serProps f o.extended sE = .ok (xsE, s2))
    (sub c : List Xml) (ts : List PyStr) (ss : SState) {c0 : Cur} {s0 s1' : DState} {b : Nat}
    (h : readChildren L g types refId sub c0 s0 = .ok (⟨some b, none, [], []⟩, s1')) :
    readChildren L g types refId
      (sub ++ (serTypes ts ss).1 ++ groupXml .Props o.adapted xsA ++ groupXml .MS o.extended xsE ++ c) c0 s0 =
    readChildren L g types refId c ⟨some b, none, xsA, xsE⟩ s1' := by
  rw [List.append_assoc, List.append_assoc, List.append_assoc, readChildren_append _ _ _ _ _ _ h,
    readChildren_append _ _ _ _ _ _ (readChildren_types L g types refId ts ss _ _),
    readChildren_append _ _ _ _ _ _ (readChildren_props L g types refId hA _ rfl _),
    readChildren_append _ _ _ _ _ _ (readChildren_ms L g types refId hE _ rfl _)]

/-- What is known after the object at `b` was made and registered. -/
structure Opened (L : Lib) (H : Heap) (S : Nat → Prop) (ds : DState) (φ : Nat → Option Nat) (a : Nat) (ssO : SState)
    (dsO : DState) (b : Nat) (d : DObj) : Prop where
  inv : Inv L H S ssO dsO (extend φ b a)
  hb : ds.heap.length ≤ b
  low : ∀ c, c < ds.heap.length → dsO.heap[c]? = ds.heap[c]?
  get : dsO.heap[b]? = some d

theorem open1 {E : TextEnv} {L : Lib} {H : Heap} {S : Nat → Prop} {ss : SState} {ds ds1 : DState}
    {φ : Nat → Option Nat} (hg : GoodGraph E L H S) (hi : Inv L H S ss ds φ) {a : Nat} (ha : S a) {r : Nat} {ss1 : SState}
    (hr : getRefId (H a).key ss = (r, false, ss1)) {tn : List PyStr}
    (hh : ds1.heap = ds.heap) (hm : ds1.objMap = ds.objMap) (hsh : ds1.shared = ds.shared)
    (htn : ∀ i main, tn[i]? = some main → ∃ a, S a ∧ (H a).types.head? = some main ∧
      ds1.tnMap.get? (natStr i) = some (H a).types) (d : DObj) :
    Opened L H S ds φ a { ss1 with tnRefs := tn } ((ds1.alloc d).register (some (natStr r)) (.ref ds1.heap.length))
      ds1.heap.length d := by
  rw [register_ref]
  refine ⟨hi.open hg ha hr htn (Dict.get?_set_self _ _ _) (fun r' h => ?_) ?_ ?_ hsh, ?_, fun c hc => ?_, ?_⟩
  · show ((ds1.alloc d).objMap.set _ _).get? _ = _
    rw [Dict.get?_set_ne _ _ (fun e => h (natStr_inj e).symm)]
    show ds1.objMap.get? _ = _
    rw [hm]
  · rw [hh]; exact Nat.le_refl _
  · simp [DState.alloc]
  · rw [hh]; exact Nat.le_refl _
  · show (ds1.heap ++ [d])[c]? = _
    rw [hh, List.getElem?_append_left hc]
  · simp [DState.alloc]

theorem open2 {E : TextEnv} {L : Lib} {H : Heap} {S : Nat → Prop} {ss : SState} {ds ds1 : DState}
    {φ : Nat → Option Nat} (hg : GoodGraph E L H S) (hi : Inv L H S ss ds φ) {a : Nat} (ha : S a) {r : Nat} {ss1 : SState}
    (hr : getRefId (H a).key ss = (r, false, ss1)) {tn : List PyStr}
    (hh : ds1.heap = ds.heap) (hm : ds1.objMap = ds.objMap) (hsh : ds1.shared = ds.shared)
    (htn : ∀ i main, tn[i]? = some main → ∃ a, S a ∧ (H a).types.head? = some main ∧
      ds1.tnMap.get? (natStr i) = some (H a).types) (d0 d : DObj) :
    Opened L H S ds φ a { ss1 with tnRefs := tn }
      (((((ds1.alloc d0).register (some (natStr r)) (.ref ds1.heap.length))).alloc d).register (some (natStr r))
        (.ref ((ds1.alloc d0).register (some (natStr r)) (.ref ds1.heap.length)).heap.length))
      ((ds1.alloc d0).register (some (natStr r)) (.ref ds1.heap.length)).heap.length d := by
  rw [register_ref, register_ref]
  refine ⟨hi.open hg ha hr htn (Dict.get?_set_self _ _ _) (fun r' h => ?_) ?_ ?_ hsh, ?_, fun c hc => ?_, ?_⟩
  · show ((ds1.objMap.set (natStr r) (.ref ds1.heap.length)).set _ _).get? _ = _
    rw [Dict.get?_set_ne _ _ (fun e => h (natStr_inj e).symm),
      Dict.get?_set_ne _ _ (fun e => h (natStr_inj e).symm), hm]
  · simp [DState.alloc, hh]
  · simp [DState.alloc]
  · simp [DState.alloc, hh]
  · show (ds1.heap ++ [d0] ++ [d])[c]? = _
    rw [hh, List.append_assoc, List.getElem?_append_left hc]
  · simp [DState.alloc]

end Verif
