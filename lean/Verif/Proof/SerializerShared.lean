import Verif.Spec.Shared
import Verif.Proof.Serializer

/-! # Enum classes while documents are read -/

namespace Verif

/-! ## Reading depends on the enum classes only by their type names and properties -/

/-- The states differ at most in the string forms of enum classes. -/
structure SameS (L : Lib) (s t : DState) : Prop where
  heap : t.heap = s.heap
  objMap : t.objMap = s.objMap
  tnMap : t.tnMap = s.tnMap
  types : ∀ c, (t.classMeta L c).types = (s.classMeta L c).types
  adapted : ∀ c, (t.classMeta L c).adapted = (s.classMeta L c).adapted
  extended : ∀ c, (t.classMeta L c).extended = (s.classMeta L c).extended

/-- The same for results. -/
def Rel (L : Lib) {α : Type} (r r' : Except Err (α × DState)) : Prop :=
  (∃ e, r = .error e ∧ r' = .error e) ∨ ∃ a s t, r = .ok (a, s) ∧ r' = .ok (a, t) ∧ SameS L s t

/-- The same for results without value. -/
def RelS (L : Lib) (r r' : Except Err DState) : Prop :=
  (∃ e, r = .error e ∧ r' = .error e) ∨ ∃ s t, r = .ok s ∧ r' = .ok t ∧ SameS L s t

theorem SameS.alloc {L : Lib} {s t : DState} (h : SameS L s t) (d : DObj) : SameS L (s.alloc d) (t.alloc d) :=
  { h with heap := by show t.heap ++ _ = s.heap ++ _; rw [h.heap] }

theorem SameS.register {L : Lib} {s t : DState} (h : SameS L s t) (r : Option PyStr) (v : DVal) :
    SameS L (s.register r v) (t.register r v) := by
  unfold DState.register
  cases r with
  | none => exact h
  | some r =>
    dsimp only
    by_cases hv : v = .nil
    · rw [if_pos hv, if_pos hv]; exact h
    · rw [if_neg hv, if_neg hv]
      exact { h with objMap := by show t.objMap.set _ _ = s.objMap.set _ _; rw [h.objMap] }

theorem SameS.update {L : Lib} {s t : DState} (h : SameS L s t) (b : Nat) (g : DObj → DObj) :
    SameS L (s.update b g) (t.update b g) :=
  { h with heap := by show t.heap.modify _ _ = s.heap.modify _ _; rw [h.heap] }

theorem classMeta_set (L : Lib) (s : DState) (c c' : PyStr) (m : DObj) :
    DState.classMeta { s with shared := s.shared.set c m } L c' = if c' = c then m else s.classMeta L c' := by
  unfold DState.classMeta
  by_cases h : c' = c
  · subst h
    rw [if_pos rfl]
    dsimp only
    rw [Dict.get?_set_self]; rfl
  · rw [if_neg h]
    dsimp only
    rw [Dict.get?_set_ne _ _ (fun e => h e.symm)]

/-- The change does not look at the string form, the class and the data. -/
def Blind (g : DObj → DObj) : Prop :=
  ∀ d d' : DObj, d.types = d'.types → d.adapted = d'.adapted → d.extended = d'.extended →
    (g d).types = (g d').types ∧ (g d).adapted = (g d').adapted ∧ (g d).extended = (g d').extended

theorem SameS.edit {L : Lib} {s t : DState} (h : SameS L s t) (b : Nat) {g : DObj → DObj} (hg : Blind g) :
    SameS L (s.edit L b g) (t.edit L b g) := by
  unfold DState.edit
  rw [show t.heap[b]? = s.heap[b]? by rw [h.heap]]
  cases s.heap[b]? with
  | none => exact h
  | some d =>
    dsimp only
    cases L.enumClass d with
    | none => exact h.update b g
    | some c =>
      dsimp only
      have hb := hg (t.classMeta L c) (s.classMeta L c) (h.types c) (h.adapted c) (h.extended c)
      refine { heap := h.heap, objMap := h.objMap, tnMap := h.tnMap, types := ?_, adapted := ?_, extended := ?_ }
      all_goals
        intro c'
        rw [classMeta_set, classMeta_set]
        by_cases hc : c' = c
        · rw [if_pos hc, if_pos hc]
          first | exact hb.1 | exact hb.2.1 | exact hb.2.2
        · rw [if_neg hc, if_neg hc]
          first | exact h.types c' | exact h.adapted c' | exact h.extended c'

theorem SameS.hashKey {L : Lib} {s t : DState} (h : SameS L s t) (v : DVal) : hashKey t v = hashKey s v := by
  cases v with
  | ref b => unfold Verif.hashKey; rw [h.heap]
  | _ => rfl

theorem SameS.dictSet {L : Lib} {s t : DState} (h : SameS L s t) (k : HKey) (x v : DVal) (es : List (DVal × DVal)) :
    dictSet t k x v es = dictSet s k x v es := by
  induction es with
  | nil => rfl
  | cons e es ih =>
    obtain ⟨k', v'⟩ := e
    simp only [Verif.dictSet, h.hashKey, ih]

theorem SameS.put {L : Lib} {s t : DState} (h : SameS L s t) (k : HKey) (x v : DVal) :
    (fun d : DObj => { d with data := d.data.put t k x v }) = fun d => { d with data := d.data.put s k x v } := by
  funext d
  cases hd : d.data with
  | dict es => unfold DData.put; dsimp only; rw [h.dictSet]
  | _ => rfl

theorem SameS.startNames {L : Lib} {s t : DState} (h : SameS L s t) (ts : List PyStr) :
    L.startNames ts t = L.startNames ts s := by
  unfold Lib.startNames
  cases L.reg.rehydrate ts with
  | plain ns => rfl
  | instance_ c => dsimp only; rw [h.types]

theorem SameS.shownTypes {L : Lib} {s t : DState} (h : SameS L s t) (d : DObj) :
    (t.shown L d).types = (s.shown L d).types := by
  unfold DState.shown
  cases L.enumClass d with
  | none => rfl
  | some c => exact h.types c

theorem readTypes_rel {L : Lib} {s t : DState} (h : SameS L s t) (kids : List Xml) :
    Rel L (readTypes kids s) (readTypes kids t) := by
  unfold readTypes
  by_cases hk : findTypes kids ≠ []
  · rw [if_pos hk, if_pos hk]
    cases kids.find? (·.tag = .TN) with
    | none => exact .inr ⟨_, _, _, rfl, rfl, h⟩
    | some x =>
      dsimp only
      cases getAttrib x.attrs.refId with
      | error e => exact .inl ⟨e, rfl, rfl⟩
      | ok r =>
        exact .inr ⟨_, _, _, rfl, rfl, { h with tnMap := by show t.tnMap.set _ _ = s.tnMap.set _ _; rw [h.tnMap] }⟩
  · rw [if_neg hk, if_neg hk]
    cases kids.find? (·.tag = .TNRef) with
    | none => exact .inr ⟨_, _, _, rfl, rfl, h⟩
    | some x =>
      dsimp only
      cases getAttrib x.attrs.refId with
      | error e => exact .inl ⟨e, rfl, rfl⟩
      | ok r =>
        dsimp only
        rw [h.tnMap]
        cases s.tnMap.get? r with
        | none => exact .inl ⟨_, rfl, rfl⟩
        | some ts => exact .inr ⟨_, _, _, rfl, rfl, h⟩

section

variable {L : Lib} {g : Xml → DState → Except Err (DVal × DState)}
  (hg : ∀ x s t, SameS L s t → Rel L (g x s) (g x t))

include hg

theorem readItems_rel (b : Nat) : ∀ (xs : List Xml) (s t : DState), SameS L s t →
    RelS L (readItems g b xs s) (readItems g b xs t) := by
  intro xs
  induction xs with
  | nil => intro s t h; exact .inr ⟨s, t, rfl, rfl, h⟩
  | cons x xs ih =>
    intro s t h
    simp only [readItems]
    rcases hg x s t h with ⟨e, h1, h2⟩ | ⟨v, s', t', h1, h2, h3⟩
    · rw [h1, h2]; exact .inl ⟨e, rfl, rfl⟩
    · rw [h1, h2]; exact ih _ _ (h3.update b _)

theorem readEntries_rel (b : Nat) : ∀ (xs : List Xml) (s t : DState), SameS L s t →
    RelS L (readEntries g b xs s) (readEntries g b xs t) := by
  intro xs
  induction xs with
  | nil => intro s t h; exact .inr ⟨s, t, rfl, rfl, h⟩
  | cons x xs ih =>
    intro s t h
    simp only [readEntries]
    cases findNamed (txt! "Key") x with
    | error e => exact .inl ⟨e, rfl, rfl⟩
    | ok xk =>
      dsimp only
      cases findNamed (txt! "Value") x with
      | error e => exact .inl ⟨e, rfl, rfl⟩
      | ok xv =>
        dsimp only
        rcases hg xv s t h with ⟨e, h1, h2⟩ | ⟨v, s', t', h1, h2, h3⟩
        · rw [h1, h2]; exact .inl ⟨e, rfl, rfl⟩
        · rw [h1, h2]
          dsimp only
          rcases hg xk s' t' h3 with ⟨e, h1, h2⟩ | ⟨k, s2, t2, h1, h2, h4⟩
          · rw [h1, h2]; exact .inl ⟨e, rfl, rfl⟩
          · rw [h1, h2]
            dsimp only
            rw [h4.hashKey]
            cases hashKey s2 k with
            | error e => exact .inl ⟨e, rfl, rfl⟩
            | ok hk =>
              dsimp only
              rw [h4.put]
              exact ih _ _ (h4.update b _)

theorem readProps_rel {put : PyStr → DVal → DObj → DObj} (hput : ∀ n v, Blind (put n v)) (b : Nat) :
    ∀ (xs : List Xml) (s t : DState), SameS L s t →
    RelS L (readProps L g put b xs s) (readProps L g put b xs t) := by
  intro xs
  induction xs with
  | nil => intro s t h; exact .inr ⟨s, t, rfl, rfl, h⟩
  | cons x xs ih =>
    intro s t h
    simp only [readProps]
    cases getAttrib x.attrs.name with
    | error e => exact .inl ⟨e, rfl, rfl⟩
    | ok n =>
      dsimp only
      cases deserializeString n with
      | error e => exact .inl ⟨e, rfl, rfl⟩
      | ok n =>
        dsimp only
        rcases hg x s t h with ⟨e, h1, h2⟩ | ⟨v, s', t', h1, h2, h3⟩
        · rw [h1, h2]; exact .inl ⟨e, rfl, rfl⟩
        · rw [h1, h2]; exact ih _ _ (h3.edit b (hput n v))

omit hg in
theorem currentClass_rel {s t : DState} (h : SameS L s t) (test : ClassKind → Bool) (c : Cur) :
    currentClass L test c t = currentClass L test c s := by
  unfold currentClass; rw [h.heap]

omit hg in
theorem renew_rel {s t : DState} (h : SameS L s t) (r : Option PyStr) (cls : PyStr) :
    SameS L (renew L r cls s) (renew L r cls t) := by
  unfold renew; rw [h.heap]; exact (h.alloc _).register _ _

theorem readList_rel (k : ListKind) (r : Option PyStr) (x : Xml) (c : Cur) {s t : DState} (h : SameS L s t) :
    Rel L (readList L g k r x c s) (readList L g k r x c t) := by
  unfold readList
  rw [currentClass_rel h, h.heap]
  cases currentClass L ClassKind.isList c s with
  | error e => exact .inl ⟨e, rfl, rfl⟩
  | ok q =>
    dsimp only
    rcases readItems_rel hg s.heap.length x.kids _ _ (renew_rel h r ((q.map Prod.snd).getD k.cls)) with
      ⟨e, h1, h2⟩ | ⟨s', t', h1, h2, h3⟩
    · rw [h1, h2]; exact .inl ⟨e, rfl, rfl⟩
    · rw [h1, h2]; exact .inr ⟨_, _, _, rfl, rfl, h3⟩

theorem readQueue_rel (r : Option PyStr) (x : Xml) (c : Cur) {s t : DState} (h : SameS L s t) :
    Rel L (readQueue L g r x c s) (readQueue L g r x c t) := by
  unfold readQueue
  rw [currentClass_rel h, h.heap]
  cases currentClass L ClassKind.isQueue c s with
  | error e => exact .inl ⟨e, rfl, rfl⟩
  | ok q =>
    cases q with
    | none =>
      dsimp only
      rcases readItems_rel hg s.heap.length x.kids _ _ (renew_rel h r (txt! "PSQueue")) with
        ⟨e, h1, h2⟩ | ⟨s', t', h1, h2, h3⟩
      · rw [h1, h2]; exact .inl ⟨e, rfl, rfl⟩
      · rw [h1, h2]; exact .inr ⟨_, _, _, rfl, rfl, h3⟩
    | some q =>
      obtain ⟨b, cl⟩ := q
      dsimp only
      rcases readItems_rel hg b x.kids _ _ h with ⟨e, h1, h2⟩ | ⟨s', t', h1, h2, h3⟩
      · rw [h1, h2]; exact .inl ⟨e, rfl, rfl⟩
      · rw [h1, h2]; exact .inr ⟨_, _, _, rfl, rfl, h3⟩

theorem readDict_rel (r : Option PyStr) (x : Xml) (c : Cur) {s t : DState} (h : SameS L s t) :
    Rel L (readDict L g r x c s) (readDict L g r x c t) := by
  unfold readDict
  rw [currentClass_rel h, h.heap]
  cases currentClass L ClassKind.isDict c s with
  | error e => exact .inl ⟨e, rfl, rfl⟩
  | ok q =>
    dsimp only
    rcases readEntries_rel hg s.heap.length x.kids _ _ (renew_rel h r ((q.map Prod.snd).getD (txt! "PSDict"))) with
      ⟨e, h1, h2⟩ | ⟨s', t', h1, h2, h3⟩
    · rw [h1, h2]; exact .inl ⟨e, rfl, rfl⟩
    · rw [h1, h2]; exact .inr ⟨_, _, _, rfl, rfl, h3⟩

theorem readSub_rel (types : List PyStr) (r : Option PyStr) (x : Xml) (c : Cur) {s t : DState} (h : SameS L s t) :
    Rel L (readSub L g types r x c s) (readSub L g types r x c t) := by
  unfold readSub
  rcases hg x s t h with ⟨e, h1, h2⟩ | ⟨v, s', t', h1, h2, h3⟩
  · rw [h1, h2]; exact .inl ⟨e, rfl, rfl⟩
  · rw [h1, h2]
    dsimp only
    cases L.start types with
    | enum cls member =>
      dsimp only
      rw [h3.hashKey, h3.heap]
      cases memberFor member (hashKey s' v) with
      | none => exact .inl ⟨_, rfl, rfl⟩
      | some p => exact .inr ⟨_, _, _, rfl, rfl, (h3.alloc _).register _ _⟩
    | value d =>
      dsimp only
      cases c.value with
      | none => exact .inl ⟨_, rfl, rfl⟩
      | some b =>
        dsimp only
        have hn : ((t'.heap[b]?).map fun d => (t'.shown L d).types).getD [] =
            ((s'.heap[b]?).map fun d => (s'.shown L d).types).getD [] := by
          rw [h3.heap]
          cases s'.heap[b]? with
          | none => rfl
          | some d => exact h3.shownTypes d
        rw [hn, h3.heap]
        cases v with
        | nil => exact .inl ⟨_, rfl, rfl⟩
        | bool _ => exact .inl ⟨_, rfl, rfl⟩
        | prim p => exact .inr ⟨_, _, _, rfl, rfl, (h3.alloc _).register _ _⟩
        | ref b' =>
          refine .inr ⟨_, _, _, rfl, rfl, SameS.register ?_ _ _⟩
          generalize (Option.map (fun d => (s'.shown L d).types) s'.heap[b]?).getD [] = names
          by_cases he : names = []
          · rw [if_pos he, if_pos he]; exact h3
          · rw [if_neg he, if_neg he]; exact h3.edit b' (fun _ _ _ h2 h3 => ⟨rfl, h2, h3⟩)

theorem readChild_rel (types : List PyStr) (r : Option PyStr) (x : Xml) (c : Cur) {s t : DState} (h : SameS L s t) :
    Rel L (readChild L g types r x c s) (readChild L g types r x c t) := by
  unfold readChild
  split
  · exact .inr ⟨_, _, _, rfl, rfl, h⟩
  · exact .inr ⟨_, _, _, rfl, rfl, h⟩
  · cases deserializeString x.text with
    | error e => exact .inl ⟨e, rfl, rfl⟩
    | ok t => exact .inr ⟨_, _, _, rfl, rfl, h⟩
  · exact readDict_rel hg _ _ _ h
  · exact readQueue_rel hg _ _ _ h
  · exact readList_rel hg _ _ _ _ h
  · exact readList_rel hg _ _ _ _ h
  · exact readList_rel hg _ _ _ _ h
  · exact .inr ⟨_, _, _, rfl, rfl, h⟩
  · exact .inr ⟨_, _, _, rfl, rfl, h⟩
  · exact readSub_rel hg _ _ _ _ h

theorem readChildren_rel (types : List PyStr) (r : Option PyStr) : ∀ (xs : List Xml) (c : Cur) (s t : DState),
    SameS L s t → Rel L (readChildren L g types r xs c s) (readChildren L g types r xs c t) := by
  intro xs
  induction xs with
  | nil => intro c s t h; exact .inr ⟨_, _, _, rfl, rfl, h⟩
  | cons x xs ih =>
    intro c s t h
    simp only [readChildren]
    rcases readChild_rel hg types r x c h with ⟨e, h1, h2⟩ | ⟨c', s', t', h1, h2, h3⟩
    · rw [h1, h2]; exact .inl ⟨e, rfl, rfl⟩
    · rw [h1, h2]; exact ih c' s' t' h3

omit hg in
theorem blind_dress (names : List PyStr) (t : Option PyStr) : Blind (dress names t) := by
  intro d d' h1 h2 h3
  refine ⟨?_, h2, h3⟩
  show (if names = [] then d.types else names) = if names = [] then d'.types else names
  rw [h1]

omit hg in
theorem blind_adapted (n : PyStr) (v : DVal) : Blind (putAdapted n v) :=
  fun d d' h1 h2 h3 => ⟨h1, by show addNote d.adapted n v = addNote d'.adapted n v; rw [h2], h3⟩

omit hg in
theorem blind_extended (n : PyStr) (v : DVal) : Blind (putExtended n v) :=
  fun d d' h1 h2 h3 => ⟨h1, h2, by show addNote d.extended n v = addNote d'.extended n v; rw [h3]⟩

theorem readFinish_rel (names : List PyStr) (c : Cur) {s t : DState} (h : SameS L s t) :
    Rel L (readFinish L g names c s) (readFinish L g names c t) := by
  unfold readFinish
  cases c.value with
  | none => exact .inl ⟨_, rfl, rfl⟩
  | some b =>
    dsimp only
    rcases readProps_rel hg blind_adapted b c.props _ _ (h.edit b (blind_dress names c.toStr)) with
      ⟨e, h1, h2⟩ | ⟨s', t', h1, h2, h3⟩
    · rw [h1, h2]; exact .inl ⟨e, rfl, rfl⟩
    · rw [h1, h2]
      dsimp only
      rcases readProps_rel hg blind_extended b c.ms _ _ h3 with ⟨e, h1, h2⟩ | ⟨s2, t2, h1, h2, h4⟩
      · rw [h1, h2]; exact .inl ⟨e, rfl, rfl⟩
      · rw [h1, h2]; exact .inr ⟨_, _, _, rfl, rfl, h4⟩

omit hg in
theorem readStart_rel (types : List PyStr) (r : Option PyStr) {s t : DState} (h : SameS L s t) :
    (readStart L types r t).1 = (readStart L types r s).1 ∧
      SameS L (readStart L types r s).2 (readStart L types r t).2 := by
  unfold readStart
  cases L.start types with
  | value d => dsimp only; rw [h.heap]; exact ⟨rfl, (h.alloc _).register _ _⟩
  | enum _ _ => exact ⟨rfl, h⟩

theorem readObj_rel (x : Xml) {s t : DState} (h : SameS L s t) : Rel L (readObj L g x s) (readObj L g x t) := by
  unfold readObj
  rcases readTypes_rel h x.kids with ⟨e, h1, h2⟩ | ⟨ts, s', t', h1, h2, h3⟩
  · rw [h1, h2]; exact .inl ⟨e, rfl, rfl⟩
  · rw [h1, h2]
    dsimp only
    obtain ⟨h4, h5⟩ := readStart_rel ts x.attrs.refId h3
    rw [h4]
    rcases readChildren_rel hg ts x.attrs.refId x.kids (readStart L ts x.attrs.refId s').1 _ _ h5 with
      ⟨e, h1, h2⟩ | ⟨c, s2, t2, h1, h2, h6⟩
    · rw [h1, h2]; exact .inl ⟨e, rfl, rfl⟩
    · rw [h1, h2]
      dsimp only
      rw [h3.startNames]
      exact readFinish_rel hg _ c h6

end

theorem deser_rel (E : TextEnv) (L : Lib) : ∀ (n : Nat) (x : Xml) (s t : DState), SameS L s t →
    Rel L (deser E L n x s) (deser E L n x t) := by
  intro n
  induction n with
  | zero => intro x s t _; exact .inl ⟨_, rfl, rfl⟩
  | succ n ih =>
    intro x s t h
    simp only [deser]
    split
    · cases getAttrib x.attrs.refId with
      | error e => exact .inl ⟨e, rfl, rfl⟩
      | ok r =>
        dsimp only
        rw [h.objMap]
        cases s.objMap.get? r with
        | none => exact .inl ⟨_, rfl, rfl⟩
        | some v => exact .inr ⟨_, _, _, rfl, rfl, h⟩
    · exact .inr ⟨_, _, _, rfl, rfl, h⟩
    · exact .inr ⟨_, _, _, rfl, rfl, h⟩
    · cases deserializeString x.text with
      | error e => exact .inl ⟨e, rfl, rfl⟩
      | ok u => exact .inr ⟨_, _, _, rfl, rfl, h⟩
    · exact readObj_rel ih x h
    · split
      · exact .inr ⟨_, _, _, rfl, rfl, h⟩
      · exact .inl ⟨_, rfl, rfl⟩
      · exact .inl ⟨_, rfl, rfl⟩

theorem readDoc_rel (E : TextEnv) (L : Lib) (n : Nat) : ∀ (xs : List Xml) (s t : DState), SameS L s t →
    Rel L (readDoc E L n xs s) (readDoc E L n xs t) := by
  intro xs
  induction xs with
  | nil => intro s t h; exact .inr ⟨_, _, _, rfl, rfl, h⟩
  | cons x xs ih =>
    intro s t h
    simp only [readDoc]
    rcases deser_rel E L n x s t h with ⟨e, h1, h2⟩ | ⟨v, s', t', h1, h2, h3⟩
    · rw [h1, h2]; exact .inl ⟨e, rfl, rfl⟩
    · rw [h1, h2]
      dsimp only
      rcases ih s' t' h3 with ⟨e, h1, h2⟩ | ⟨vs, s2, t2, h1, h2, h4⟩
      · rw [h1, h2]; exact .inl ⟨e, rfl, rfl⟩
      · rw [h1, h2]; exact .inr ⟨_, _, _, rfl, rfl, h4⟩

/-! ## Elements that leave the enum classes as they are -/

/-- The enum classes stay as declared, and objects keep their classes. -/
structure Keep (L : Lib) (s s' : DState) : Prop where
  clean : s.Clean L → s'.Clean L
  cls : ∀ (b : Nat) (d : DObj), s.heap[b]? = some d → ∃ d', s'.heap[b]? = some d' ∧ d'.cls = d.cls

theorem Keep.refl (L : Lib) (s : DState) : Keep L s s := ⟨id, fun _ d h => ⟨d, h, rfl⟩⟩

theorem Keep.trans {L : Lib} {s t u : DState} (h : Keep L s t) (k : Keep L t u) : Keep L s u where
  clean := fun hc => k.clean (h.clean hc)
  cls := fun b d hd => by
    obtain ⟨d', h1, h2⟩ := h.cls b d hd
    obtain ⟨d'', h3, h4⟩ := k.cls b d' h1
    exact ⟨d'', h3, h4.trans h2⟩

theorem Keep.alloc (L : Lib) (s : DState) (d : DObj) : Keep L s (s.alloc d) where
  clean := id
  cls := fun b d' h => ⟨d', by
    show (s.heap ++ [d])[b]? = _
    rw [List.getElem?_append_left (lt_of_get h)]; exact h, rfl⟩

theorem Keep.register (L : Lib) (s : DState) (r : Option PyStr) (v : DVal) : Keep L s (s.register r v) := by
  unfold DState.register
  cases r with
  | none => exact .refl L s
  | some r =>
    dsimp only
    by_cases hv : v = .nil
    · rw [if_pos hv]; exact .refl L s
    · rw [if_neg hv]; exact ⟨id, fun _ d h => ⟨d, h, rfl⟩⟩

theorem Keep.update (L : Lib) (s : DState) (b : Nat) {g : DObj → DObj} (hg : ∀ d, (g d).cls = d.cls) :
    Keep L s (s.update b g) where
  clean := id
  cls := fun c d h => by
    by_cases hc : c = b
    · subst hc; exact ⟨g d, update_get_self g h, hg d⟩
    · exact ⟨d, by
        show (s.heap.modify b g)[c]? = _
        rw [List.getElem?_modify]
        rw [h]
        show some (if b = c then g d else d) = _
        rw [if_neg (fun e => hc e.symm)], rfl⟩

theorem Keep.renew (L : Lib) (r : Option PyStr) (cls : PyStr) (s : DState) : Keep L s (renew L r cls s) := by
  unfold Verif.renew; exact (Keep.alloc L s _).trans (.register L _ r _)

theorem renew_get (L : Lib) (r : Option PyStr) (cls : PyStr) (s : DState) :
    (renew L r cls s).heap[s.heap.length]? = some (L.instance cls) := by
  unfold renew
  have : (s.alloc (L.instance cls)).heap[s.heap.length]? = some (L.instance cls) := by simp [DState.alloc]
  unfold DState.register
  cases r with
  | none => exact this
  | some r =>
    dsimp only
    by_cases hv : DVal.ref s.heap.length = .nil
    · cases hv
    · rw [if_neg hv]; exact this

theorem register_heap (s : DState) (r : Option PyStr) (v : DVal) : (s.register r v).heap = s.heap := by
  unfold DState.register
  cases r with
  | none => rfl
  | some r => dsimp only; split <;> rfl

theorem register_shared (s : DState) (r : Option PyStr) (v : DVal) : (s.register r v).shared = s.shared := by
  unfold DState.register
  cases r with
  | none => rfl
  | some r => dsimp only; split <;> rfl

theorem tame_kid {L : Lib} {x y : Xml} (h : Tame L x) (hy : y ∈ x.kids) : Tame L y :=
  fun z hz ht => h z (.kid hy hz) ht

section

variable {L : Lib} {g : Xml → DState → Except Err (DVal × DState)}
  (hg : ∀ x s v s', Tame L x → g x s = .ok (v, s') → Keep L s s')

include hg

theorem readItems_keep (b : Nat) : ∀ (xs : List Xml) (s s' : DState), (∀ x ∈ xs, Tame L x) →
    readItems g b xs s = .ok s' → Keep L s s' := by
  intro xs
  induction xs with
  | nil => intro s s' _ h; cases h; exact .refl L s
  | cons x xs ih =>
    intro s s' ht h
    simp only [readItems] at h
    cases h1 : g x s with
    | error e => rw [h1] at h; cases h
    | ok q =>
      obtain ⟨v, s1⟩ := q
      rw [h1] at h
      exact ((hg x s v s1 (ht x (by simp)) h1).trans (.update L s1 b (g := fun d => { d with data := d.data.push v }) (fun _ => rfl))).trans
        (ih _ _ (fun y hy => ht y (List.mem_cons_of_mem _ hy)) h)

omit hg in
theorem findNamed_mem {n : PyStr} {x y : Xml} (h : findNamed n x = .ok y) : y ∈ x.kids := by
  unfold findNamed at h
  cases hf : x.kids.find? (·.attrs.name = some n) with
  | none => rw [hf] at h; cases h
  | some z => rw [hf] at h; cases h; exact List.mem_of_find?_eq_some hf

theorem readEntries_keep (b : Nat) : ∀ (xs : List Xml) (s s' : DState), (∀ x ∈ xs, Tame L x) →
    readEntries g b xs s = .ok s' → Keep L s s' := by
  intro xs
  induction xs with
  | nil => intro s s' _ h; cases h; exact .refl L s
  | cons x xs ih =>
    intro s s' ht h
    simp only [readEntries] at h
    cases hk : findNamed (txt! "Key") x with
    | error e => rw [hk] at h; cases h
    | ok xk =>
      rw [hk] at h
      dsimp only at h
      cases hv : findNamed (txt! "Value") x with
      | error e => rw [hv] at h; cases h
      | ok xv =>
        rw [hv] at h
        dsimp only at h
        cases h1 : g xv s with
        | error e => rw [h1] at h; cases h
        | ok q =>
          obtain ⟨v, s1⟩ := q
          rw [h1] at h
          dsimp only at h
          cases h2 : g xk s1 with
          | error e => rw [h2] at h; cases h
          | ok q =>
            obtain ⟨k, s2⟩ := q
            rw [h2] at h
            dsimp only at h
            cases h3 : hashKey s2 k with
            | error e => rw [h3] at h; cases h
            | ok hh =>
              rw [h3] at h
              dsimp only at h
              have tx := ht x (by simp)
              exact (((hg xv s v s1 (tame_kid tx (findNamed_mem hv)) h1).trans
                (hg xk s1 k s2 (tame_kid tx (findNamed_mem hk)) h2)).trans
                (.update L s2 b (g := fun d => { d with data := d.data.put s2 hh k v }) (fun _ => rfl))).trans
                (ih _ _ (fun y hy => ht y (List.mem_cons_of_mem _ hy)) h)

theorem readProps_keep {put : PyStr → DVal → DObj → DObj} (hput : ∀ n v d, (put n v d).cls = d.cls) (b : Nat) :
    ∀ (xs : List Xml) (s s' : DState) (d : DObj), (∀ x ∈ xs, Tame L x) → s.heap[b]? = some d →
    L.enumClass d = none → readProps L g put b xs s = .ok s' → Keep L s s' := by
  intro xs
  induction xs with
  | nil => intro s s' d _ _ _ h; cases h; exact .refl L s
  | cons x xs ih =>
    intro s s' d ht hd he h
    simp only [readProps] at h
    cases hn : getAttrib x.attrs.name with
    | error e => rw [hn] at h; cases h
    | ok n =>
      rw [hn] at h
      dsimp only at h
      cases hm : deserializeString n with
      | error e => rw [hm] at h; cases h
      | ok m =>
        rw [hm] at h
        dsimp only at h
        cases h1 : g x s with
        | error e => rw [h1] at h; cases h
        | ok q =>
          obtain ⟨v, s1⟩ := q
          rw [h1] at h
          dsimp only at h
          have k1 := hg x s v s1 (ht x (by simp)) h1
          obtain ⟨d1, hd1, hc1⟩ := k1.cls b d hd
          have he1 : L.enumClass d1 = none := (enumClass_cls hc1).trans he
          rw [edit_own hd1 he1] at h
          have k2 := Keep.update L s1 b (g := put m v) (hput m v)
          obtain ⟨d2, hd2, hc2⟩ := k2.cls b d1 hd1
          exact (k1.trans k2).trans (ih _ _ d2 (fun y hy => ht y (List.mem_cons_of_mem _ hy)) hd2
            ((enumClass_cls hc2).trans he1) h)

/-- What is known of the current value: it is no enum member unless the object is one. -/
def CurOk (L : Lib) (types : List PyStr) (c : Cur) (s : DState) : Prop :=
  ∀ b, c.value = some b → ∃ d, s.heap[b]? = some d ∧
    (L.enumClass d = none ∨ ∃ cl m, L.start types = .enum cl m ∧ d.cls = some cl)

omit hg in
theorem CurOk.keep {types : List PyStr} {c : Cur} {s s' : DState} (h : CurOk L types c s) (k : Keep L s s') :
    CurOk L types c s' := by
  intro b hb
  obtain ⟨d, hd, hc⟩ := h b hb
  obtain ⟨d', hd', he⟩ := k.cls b d hd
  refine ⟨d', hd', ?_⟩
  rcases hc with hc | ⟨cl, m, h1, h2⟩
  · exact .inl ((enumClass_cls he).trans hc)
  · exact .inr ⟨cl, m, h1, he.trans h2⟩

omit hg in
theorem currentClass_kind {test : ClassKind → Bool} {c : Cur} {s : DState} {r : Option (Nat × PyStr)}
    (h : currentClass L test c s = .ok r) (b : Nat) (cl : PyStr) (hr : r = some (b, cl)) :
    test (L.info cl).kind = true ∧ c.value = some b := by
  unfold currentClass at h
  cases hc : c.value with
  | none => rw [hc] at h; cases h
  | some b' =>
    rw [hc] at h
    dsimp only at h
    cases hd : s.heap[b']? with
    | none => rw [hd] at h; cases h; cases hr
    | some d =>
      rw [hd] at h
      dsimp only at h
      cases hcl : d.cls with
      | none => rw [hcl] at h; cases h; cases hr
      | some cl' =>
        rw [hcl] at h
        dsimp only at h
        cases ht : test (L.info cl').kind with
        | false => rw [ht] at h; cases h; cases hr
        | true => rw [ht] at h; cases h; cases hr; exact ⟨ht, rfl⟩

omit hg in
/-- A new container is no enum member. -/
theorem cur_new {types : List PyStr} (c : Cur) {r : Option PyStr} {cl : PyStr} {s s' : DState}
    (hk : (L.info cl).kind.isEnum = false) (k : Keep L (renew L r cl s) s') :
    CurOk L types { c with value := some s.heap.length } s' := by
  intro b hb
  cases hb
  obtain ⟨d, hd, hc⟩ := k.cls _ _ (renew_get L r cl s)
  exact ⟨d, hd, .inl ((enumClass_cls hc).trans (enumClass_none rfl hk))⟩

omit hg in
theorem kind_list {k : ClassKind} (h : k.isList = true) : k.isEnum = false := by cases k <;> first | rfl | cases h

omit hg in
theorem kind_dict {k : ClassKind} (h : k.isDict = true) : k.isEnum = false := by cases k <;> first | rfl | cases h

variable (std : L.Standard)
include std

theorem readList_keep (types : List PyStr) (k : ListKind) (r : Option PyStr) (x : Xml) (ht : Tame L x) (c c' : Cur)
    (s s' : DState) (h : readList L g k r x c s = .ok (c', s')) :
    Keep L s s' ∧ CurOk L types c' s' ∧ c'.props = c.props ∧ c'.ms = c.ms ∧ c.value ≠ none := by
  unfold readList at h
  cases hc : currentClass L ClassKind.isList c s with
  | error e => rw [hc] at h; cases h
  | ok q =>
    rw [hc] at h
    dsimp only at h
    cases hi : readItems g s.heap.length x.kids (renew L r ((q.map Prod.snd).getD k.cls) s) with
    | error e => rw [hi] at h; cases h
    | ok s1 =>
      rw [hi] at h
      cases h
      have k1 := readItems_keep hg _ _ _ _ (fun y hy => tame_kid ht hy) hi
      refine ⟨(Keep.renew L r _ s).trans k1, cur_new c ?_ k1, rfl, rfl, ?_⟩
      · cases q with
        | none => rw [Option.map_none, Option.getD_none, std.list]; rfl
        | some q => obtain ⟨b, cl⟩ := q; exact kind_list (currentClass_kind hc b cl rfl).1
      · intro hn; unfold currentClass at hc; rw [hn] at hc; cases hc

theorem readDict_keep (types : List PyStr) (r : Option PyStr) (x : Xml) (ht : Tame L x) (c c' : Cur)
    (s s' : DState) (h : readDict L g r x c s = .ok (c', s')) :
    Keep L s s' ∧ CurOk L types c' s' ∧ c'.props = c.props ∧ c'.ms = c.ms ∧ c.value ≠ none := by
  unfold readDict at h
  cases hc : currentClass L ClassKind.isDict c s with
  | error e => rw [hc] at h; cases h
  | ok q =>
    rw [hc] at h
    dsimp only at h
    cases hi : readEntries g s.heap.length x.kids (renew L r ((q.map Prod.snd).getD (txt! "PSDict")) s) with
    | error e => rw [hi] at h; cases h
    | ok s1 =>
      rw [hi] at h
      cases h
      have k1 := readEntries_keep hg _ _ _ _ (fun y hy => tame_kid ht hy) hi
      refine ⟨(Keep.renew L r _ s).trans k1, cur_new c ?_ k1, rfl, rfl, ?_⟩
      · cases q with
        | none => rw [Option.map_none, Option.getD_none, std.dict]; rfl
        | some q => obtain ⟨b, cl⟩ := q; exact kind_dict (currentClass_kind hc b cl rfl).1
      · intro hn; unfold currentClass at hc; rw [hn] at hc; cases hc

theorem readQueue_keep (types : List PyStr) (r : Option PyStr) (x : Xml) (ht : Tame L x) (c c' : Cur)
    (s s' : DState) (hcur : CurOk L types c s) (h : readQueue L g r x c s = .ok (c', s')) :
    Keep L s s' ∧ CurOk L types c' s' ∧ c'.props = c.props ∧ c'.ms = c.ms ∧ c.value ≠ none := by
  unfold readQueue at h
  cases hc : currentClass L ClassKind.isQueue c s with
  | error e => rw [hc] at h; cases h
  | ok q =>
    rw [hc] at h
    have hne : c.value ≠ none := by intro hn; unfold currentClass at hc; rw [hn] at hc; cases hc
    cases q with
    | none =>
      dsimp only at h
      cases hi : readItems g s.heap.length x.kids (renew L r (txt! "PSQueue") s) with
      | error e => rw [hi] at h; cases h
      | ok s1 =>
        rw [hi] at h
        cases h
        have k1 := readItems_keep hg _ _ _ _ (fun y hy => tame_kid ht hy) hi
        exact ⟨(Keep.renew L r _ s).trans k1, cur_new c (by rw [std.queue]; rfl) k1, rfl, rfl, hne⟩
    | some q =>
      obtain ⟨b, cl⟩ := q
      dsimp only at h
      cases hi : readItems g b x.kids s with
      | error e => rw [hi] at h; cases h
      | ok s1 =>
        rw [hi] at h
        cases h
        have k1 := readItems_keep hg _ _ _ _ (fun y hy => tame_kid ht hy) hi
        exact ⟨k1, hcur.keep k1, rfl, rfl, hne⟩

omit std in
theorem readSub_keep (hval : ∀ x s v s', x.tag ≠ .Obj → x.tag ≠ .Ref → g x s = .ok (v, s') → ∀ b, v ≠ .ref b)
    (hprim : ∀ p : Prim, (L.info p.cls).kind.isEnum = false)
    (types : List PyStr) (r : Option PyStr) (x : Xml) (ht : Tame L x) (hx : x.tag ≠ .Obj ∧ x.tag ≠ .Ref)
    (c c' : Cur) (s s' : DState) (h : readSub L g types r x c s = .ok (c', s')) :
    Keep L s s' ∧ CurOk L types c' s' ∧ c'.props = c.props ∧ c'.ms = c.ms := by
  unfold readSub at h
  cases h1 : g x s with
  | error e => rw [h1] at h; cases h
  | ok q =>
    obtain ⟨v, s1⟩ := q
    have k1 := hg x s v s1 ht h1
    have hv := hval x s v s1 hx.1 hx.2 h1
    rw [h1] at h
    dsimp only at h
    have hnew : ∀ (d : DObj), (L.enumClass d = none ∨ ∃ cl m, L.start types = .enum cl m ∧ d.cls = some cl) →
        Keep L s ((s1.alloc d).register r (.ref s1.heap.length)) ∧
        CurOk L types { c with value := some s1.heap.length } ((s1.alloc d).register r (.ref s1.heap.length)) := by
      intro d hd
      refine ⟨(k1.trans (.alloc L s1 d)).trans (.register L _ r _), fun b hb => ?_⟩
      cases hb
      rw [register_heap]
      exact ⟨d, by simp [DState.alloc], hd⟩
    cases hst : L.start types with
    | enum cl m =>
      rw [hst] at h
      dsimp only at h
      cases hm : memberFor m (hashKey s1 v) with
      | none => rw [hm] at h; cases h
      | some p =>
        rw [hm] at h
        cases h
        obtain ⟨k, hc⟩ := hnew { L.instance cl with data := .prim p } (.inr ⟨cl, m, hst, rfl⟩)
        exact ⟨k, hc, rfl, rfl⟩
    | value d =>
      rw [hst] at h
      dsimp only at h
      cases hc : c.value with
      | none => rw [hc] at h; cases h
      | some b =>
        rw [hc] at h
        dsimp only at h
        cases v with
        | nil => cases h
        | bool _ => cases h
        | ref b' => exact absurd rfl (hv b')
        | prim p =>
          cases h
          obtain ⟨k, hcc⟩ := hnew { L.instance p.cls with
                data := .prim p
                types := if ((s1.heap[b]?).map fun d => (s1.shown L d).types).getD [] = [] then L.names p.cls
                  else ((s1.heap[b]?).map fun d => (s1.shown L d).types).getD [] }
            (.inl (enumClass_none rfl (hprim p)))
          exact ⟨k, hcc, rfl, rfl⟩

variable (hval : ∀ x s v s', x.tag ≠ .Obj → x.tag ≠ .Ref → g x s = .ok (v, s') → ∀ b, v ≠ .ref b)
include hval

/-- The groups of properties come from children. -/
def Groups (kids : List Xml) (c : Cur) : Prop :=
  (c.props = [] ∨ ∃ k ∈ kids, k.tag = .Props ∧ c.props = k.kids) ∧
  (c.ms = [] ∨ ∃ k ∈ kids, k.tag = .MS ∧ c.ms = k.kids)

theorem readChild_keep (kids : List Xml) (types : List PyStr) (r : Option PyStr) (x : Xml) (hk : x ∈ kids)
    (ht : Tame L x) (hx : x.tag ≠ .Obj ∧ x.tag ≠ .Ref) (c c' : Cur) (s s' : DState) (hcur : CurOk L types c s)
    (hgr : Groups kids c) (h : readChild L g types r x c s = .ok (c', s')) :
    Keep L s s' ∧ CurOk L types c' s' ∧ Groups kids c' ∧
      (x.tag.isPart = true → c.value = none → c'.value = none) := by
  have stay : ∀ c' : Cur, c'.value = c.value → CurOk L types c' s := fun c' e b hb => hcur b (by rw [← e]; exact hb)
  have same : c'.props = c.props → c'.ms = c.ms → Groups kids c' := by
    intro e1 e2; unfold Groups; rw [e1, e2]; exact hgr
  unfold readChild at h
  split at h
  next e =>
    cases h
    exact ⟨.refl L s, stay _ rfl, ⟨.inr ⟨x, hk, e, rfl⟩, hgr.2⟩, fun _ h => h⟩
  next e =>
    cases h
    exact ⟨.refl L s, stay _ rfl, ⟨hgr.1, .inr ⟨x, hk, e, rfl⟩⟩, fun _ h => h⟩
  next e =>
    cases hd : deserializeString x.text with
    | error e => rw [hd] at h; cases h
    | ok t => rw [hd] at h; cases h; exact ⟨.refl L s, stay _ rfl, hgr, fun _ h => h⟩
  next e =>
    obtain ⟨k, hc, e1, e2, hn⟩ := readDict_keep hg std types r x ht c c' s s' h
    exact ⟨k, hc, same e1 e2, fun _ h => absurd h hn⟩
  next e =>
    obtain ⟨k, hc, e1, e2, hn⟩ := readQueue_keep hg std types r x ht c c' s s' hcur h
    exact ⟨k, hc, same e1 e2, fun _ h => absurd h hn⟩
  next e =>
    obtain ⟨k, hc, e1, e2, hn⟩ := readList_keep hg std types _ r x ht c c' s s' h
    exact ⟨k, hc, same e1 e2, fun _ h => absurd h hn⟩
  next e =>
    obtain ⟨k, hc, e1, e2, hn⟩ := readList_keep hg std types _ r x ht c c' s s' h
    exact ⟨k, hc, same e1 e2, fun _ h => absurd h hn⟩
  next e =>
    obtain ⟨k, hc, e1, e2, hn⟩ := readList_keep hg std types _ r x ht c c' s s' h
    exact ⟨k, hc, same e1 e2, fun _ h => absurd h hn⟩
  next e => cases h; exact ⟨.refl L s, hcur, hgr, fun _ h => h⟩
  next e => cases h; exact ⟨.refl L s, hcur, hgr, fun _ h => h⟩
  next n1 n2 n3 n4 n5 n6 n7 n8 n9 n10 =>
    obtain ⟨k, hc, e1, e2⟩ := readSub_keep hg hval std.prim types r x ht hx c c' s s' h
    refine ⟨k, hc, same e1 e2, fun hp _ => ?_⟩
    exfalso
    cases htag : x.tag <;> rw [htag] at hp <;> first | (exact absurd hp (by decide)) | contradiction

theorem readChildren_keep (kids : List Xml) (types : List PyStr) (r : Option PyStr) :
    ∀ (xs : List Xml) (c c' : Cur) (s s' : DState), (∀ x ∈ xs, x ∈ kids ∧ Tame L x ∧ x.tag ≠ .Obj ∧ x.tag ≠ .Ref) →
    CurOk L types c s → Groups kids c → readChildren L g types r xs c s = .ok (c', s') →
    Keep L s s' ∧ CurOk L types c' s' ∧ Groups kids c' ∧
      ((∀ x ∈ xs, x.tag.isPart = true) → c.value = none → c'.value = none) := by
  intro xs
  induction xs with
  | nil => intro c c' s s' _ hc hgr h; cases h; exact ⟨.refl L s, hc, hgr, fun _ h => h⟩
  | cons x xs ih =>
    intro c c' s s' hx hc hgr h
    simp only [readChildren] at h
    cases h1 : readChild L g types r x c s with
    | error e => rw [h1] at h; cases h
    | ok q =>
      obtain ⟨c1, s1⟩ := q
      rw [h1] at h
      obtain ⟨hk, ht, hob⟩ := hx x (by simp)
      obtain ⟨k1, hc1, hg1, hv1⟩ := readChild_keep hg std hval kids types r x hk ht hob c c1 s s1 hc hgr h1
      obtain ⟨k2, hc2, hg2, hv2⟩ := ih c1 c' s1 s' (fun y hy => hx y (List.mem_cons_of_mem _ hy)) hc1 hg1 h
      exact ⟨k1.trans k2, hc2, hg2, fun hp hn => hv2 (fun y hy => hp y (List.mem_cons_of_mem _ hy))
        (hv1 (hp x (by simp)) hn)⟩

theorem readObj_keep (x : Xml) (ht : Tame L x) (htag : x.tag = .Obj) (s s' : DState) (v : DVal)
    (h : readObj L g x s = .ok (v, s')) : Keep L s s' := by
  have hpl := ht x .self htag
  unfold readObj at h
  cases h1 : readTypes x.kids s with
  | error e => rw [h1] at h; cases h
  | ok q =>
    obtain ⟨types, s1⟩ := q
    rw [h1] at h
    dsimp only at h
    have k1 : Keep L s s1 ∧ ((findTypes x.kids ≠ [] ∨ ∀ k ∈ x.kids, k.tag ≠ .TNRef) → types = findTypes x.kids) := by
      unfold readTypes at h1
      by_cases hf : findTypes x.kids ≠ []
      · rw [if_pos hf] at h1
        cases hfi : x.kids.find? (·.tag = .TN) with
        | none => rw [hfi] at h1; cases h1; exact ⟨.refl L s, fun _ => rfl⟩
        | some y =>
          rw [hfi] at h1
          dsimp only at h1
          cases ha : getAttrib y.attrs.refId with
          | error e => rw [ha] at h1; cases h1
          | ok r => rw [ha] at h1; cases h1; exact ⟨⟨id, fun _ d h => ⟨d, h, rfl⟩⟩, fun _ => rfl⟩
      · rw [if_neg hf] at h1
        cases hfi : x.kids.find? (·.tag = .TNRef) with
        | none =>
          rw [hfi] at h1; cases h1
          exact ⟨.refl L s, fun _ => by cases hh : findTypes x.kids with
            | nil => rfl
            | cons a b => exact absurd (by rw [hh]; simp) hf⟩
        | some y =>
          rw [hfi] at h1
          dsimp only at h1
          cases ha : getAttrib y.attrs.refId with
          | error e => rw [ha] at h1; cases h1
          | ok r =>
            rw [ha] at h1
            dsimp only at h1
            cases hm : s.tnMap.get? r with
            | none => rw [hm] at h1; cases h1
            | some ts =>
              rw [hm] at h1; cases h1
              refine ⟨.refl L s, fun hor => ?_⟩
              rcases hor with hor | hor
              · exact absurd hor hf
              · exact absurd (by simpa using List.find?_some hfi) (hor y (List.mem_of_find?_eq_some hfi))
    obtain ⟨k1, hty⟩ := k1
    have hst : Keep L s1 (readStart L types x.attrs.refId s1).2 ∧
        CurOk L types (readStart L types x.attrs.refId s1).1 (readStart L types x.attrs.refId s1).2 ∧
        (readStart L types x.attrs.refId s1).1.props = [] ∧ (readStart L types x.attrs.refId s1).1.ms = [] ∧
        ∀ cl m, L.start types = .enum cl m → (readStart L types x.attrs.refId s1).1.value = none := by
      unfold readStart
      cases hs : L.start types with
      | enum cl m => refine ⟨.refl L s1, fun b hb => ?_, rfl, rfl, fun _ _ _ => rfl⟩; cases hb
      | value d =>
        dsimp only
        refine ⟨(Keep.alloc L s1 d).trans (.register L _ _ _), fun b hb => ?_, rfl, rfl, fun _ _ e => by cases e⟩
        cases hb
        rw [register_heap]
        refine ⟨d, by simp [DState.alloc], .inl ?_⟩
        unfold Lib.start at hs
        cases hr : L.reg.rehydrate types with
        | plain ns => rw [hr] at hs; cases hs; rfl
        | instance_ cl =>
          rw [hr] at hs
          dsimp only at hs
          have : (L.info cl).kind.isEnum = false := by
            cases hkk : (L.info cl).kind <;> first | rfl | (rw [hkk] at hs; cases hs)
          have hd : d = L.instance cl := by
            cases hkk : (L.info cl).kind <;> rw [hkk] at hs <;> cases hs <;> rfl
          rw [hd]
          exact enumClass_none rfl this
    obtain ⟨k2, hcur, hp0, hm0, hnone⟩ := hst
    cases h2 : readChildren L g types x.attrs.refId x.kids (readStart L types x.attrs.refId s1).1
        (readStart L types x.attrs.refId s1).2 with
    | error e => rw [h2] at h; cases h
    | ok q =>
      obtain ⟨c, s2⟩ := q
      rw [h2] at h
      dsimp only at h
      obtain ⟨k3, hc, hgr, hv⟩ := readChildren_keep hg std hval x.kids types x.attrs.refId x.kids _ c _ s2
        (fun y hy => ⟨hy, tame_kid ht hy, hpl.1 y hy⟩) hcur ⟨.inl hp0, .inl hm0⟩ h2
      have k : Keep L s s2 := (k1.trans k2).trans k3
      unfold readFinish at h
      cases hcv : c.value with
      | none => rw [hcv] at h; cases h
      | some b =>
        rw [hcv] at h
        dsimp only at h
        obtain ⟨d, hd, hen⟩ := hc b hcv
        cases he : L.enumClass d with
        | none =>
          rw [edit_own hd he] at h
          have k4 := Keep.update L s2 b (g := dress (L.startNames types s1) c.toStr) (fun _ => rfl)
          obtain ⟨d4, hd4, hc4⟩ := k4.cls b d hd
          have he4 := (enumClass_cls hc4).trans he
          cases h5 : readProps L g putAdapted b c.props (s2.update b (dress (L.startNames types s1) c.toStr)) with
          | error e => rw [h5] at h; cases h
          | ok s5 =>
            rw [h5] at h
            dsimp only at h
            have tp : ∀ y ∈ c.props, Tame L y := by
              rcases hgr.1 with e | ⟨z, hz, _, e⟩
              · rw [e]; intro y hy; cases hy
              · rw [e]; intro y hy; exact tame_kid (tame_kid ht hz) hy
            have tm : ∀ y ∈ c.ms, Tame L y := by
              rcases hgr.2 with e | ⟨z, hz, _, e⟩
              · rw [e]; intro y hy; cases hy
              · rw [e]; intro y hy; exact tame_kid (tame_kid ht hz) hy
            have k5 := readProps_keep hg (put := putAdapted) (fun _ _ _ => rfl) b _ _ s5 d4 tp hd4 he4 h5
            obtain ⟨d5, hd5, hc5⟩ := k5.cls b d4 hd4
            cases h6 : readProps L g putExtended b c.ms s5 with
            | error e => rw [h6] at h; cases h
            | ok s6 =>
              rw [h6] at h
              cases h
              have k6 := readProps_keep hg (put := putExtended) (fun _ _ _ => rfl) b _ _ s' d5 tm hd5
                ((enumClass_cls hc5).trans he4) h6
              exact ((k.trans k4).trans k5).trans k6
        | some cl =>
          rcases hen with hen | ⟨cl', m, hst, hcl⟩
          · rw [he] at hen; cases hen
          · have hcc : cl' = cl := by
              unfold Lib.enumClass at he
              rw [hcl] at he
              dsimp only at he
              cases hk : (L.info cl').kind.isEnum with
              | false => rw [hk] at he; cases he
              | true => rw [hk] at he; cases he; rfl
            subst hcc
            have hre : L.reg.rehydrate types = .instance_ cl' := by
              unfold Lib.start at hst
              cases hr : L.reg.rehydrate types with
              | plain ns => rw [hr] at hst; cases hst
              | instance_ c0 =>
                rw [hr] at hst
                dsimp only at hst
                cases hkk : (L.info c0).kind <;> rw [hkk] at hst <;> cases hst <;> rfl
            have hek : (L.info cl').kind.isEnum = true := by
              unfold Lib.enumClass at he
              rw [hcl] at he
              dsimp only at he
              cases hk : (L.info cl').kind.isEnum with
              | false => rw [hk] at he; cases he
              | true => rfl
            have hempty : c.props = [] ∧ c.ms = [] := by
              rcases hpl.2 with hp | ⟨hp, hno⟩ | hp
              · constructor
                · rcases hgr.1 with e | ⟨z, hz, et, e⟩
                  · exact e
                  · rw [e]; exact hp z hz (.inl et)
                · rcases hgr.2 with e | ⟨z, hz, et, e⟩
                  · exact e
                  · rw [e]; exact hp z hz (.inr et)
              · rw [← hty hp] at hno
                have := hno cl' hre
                rw [hek] at this; cases this
              · have := hv hp (hnone cl' m hst)
                rw [hcv] at this; cases this
            rw [hempty.1, hempty.2, edit_member hd he] at h
            simp only [readProps] at h
            cases h
            refine ⟨fun hcln => ?_, k.cls⟩
            have cl1 := k1.clean hcln
            have cl2 := k.clean hcln
            intro c1 m1 e1
            have names : L.startNames types s1 = L.names cl' := by
              unfold Lib.startNames
              rw [hre]
              dsimp only
              rw [if_pos hek]
              unfold DState.classMeta
              cases hq : s1.shared.get? cl' with
              | none => rfl
              | some m0 => exact (cl1 cl' m0 hq).1
            by_cases hcc : c1 = cl'
            · subst hcc
              have e1 : (s2.shared.set c1 (dress (L.startNames types s1) c.toStr (s2.classMeta L c1))).get? c1 = some m1 := e1
              rw [Dict.get?_set_self] at e1
              cases e1
              have hm2 : (s2.classMeta L c1).types = L.names c1 ∧ (s2.classMeta L c1).adapted = (L.instance c1).adapted ∧
                  (s2.classMeta L c1).extended = (L.instance c1).extended := by
                unfold DState.classMeta
                cases hq : s2.shared.get? c1 with
                | none => exact ⟨rfl, rfl, rfl⟩
                | some m0 => exact cl2 c1 m0 hq
              refine ⟨?_, hm2.2⟩
              show (if L.startNames types s1 = [] then _ else L.startNames types s1) = _
              rw [hm2.1, names]
              exact ite_self _
            · have e1 : (s2.shared.set cl' (dress (L.startNames types s1) c.toStr (s2.classMeta L cl'))).get? c1 = some m1 := e1
              rw [Dict.get?_set_ne _ _ (fun e => hcc e.symm)] at e1
              exact cl2 c1 m1 e1

end

theorem deser_value (E : TextEnv) (L : Lib) (n : Nat) (x : Xml) (s : DState) (v : DVal) (s' : DState)
    (h1 : x.tag ≠ .Obj) (h2 : x.tag ≠ .Ref) (h : deser E L n x s = .ok (v, s')) : s' = s ∧ ∀ b, v ≠ .ref b := by
  cases n with
  | zero => cases h
  | succ n =>
    simp only [deser] at h
    split at h
    · contradiction
    · cases h; exact ⟨rfl, fun _ e => by cases e⟩
    · cases h; exact ⟨rfl, fun _ e => by cases e⟩
    · cases hd : deserializeString x.text with
      | error e => rw [hd] at h; cases h
      | ok t => rw [hd] at h; cases h; exact ⟨rfl, fun _ e => by cases e⟩
    · contradiction
    · split at h
      · cases h; exact ⟨rfl, fun _ e => by cases e⟩
      · cases h
      · cases h

theorem deser_keep (E : TextEnv) {L : Lib} (std : L.Standard) : ∀ (n : Nat) (x : Xml) (s : DState) (v : DVal)
    (s' : DState), Tame L x → deser E L n x s = .ok (v, s') → Keep L s s' := by
  intro n
  induction n with
  | zero => intro x s v s' _ h; cases h
  | succ n ih =>
    intro x s v s' ht h
    by_cases ho : x.tag = .Obj
    · simp only [deser, ho] at h
      exact readObj_keep ih std (fun x s v s' a b h => (deser_value E L n x s v s' a b h).2) x ht ho s s' v h
    · by_cases hr : x.tag = .Ref
      · simp only [deser, hr] at h
        cases ha : getAttrib x.attrs.refId with
        | error e => rw [ha] at h; cases h
        | ok r =>
          rw [ha] at h
          dsimp only at h
          cases hm : s.objMap.get? r with
          | none => rw [hm] at h; cases h
          | some v => rw [hm] at h; cases h; exact .refl L s
      · rw [(deser_value E L _ x s v s' ho hr h).1]; exact .refl L s

theorem readDoc_keep (E : TextEnv) {L : Lib} (std : L.Standard) (n : Nat) : ∀ (xs : List Xml) (s : DState)
    (vs : List (DVal × ClixmlStream)) (s' : DState), (∀ x ∈ xs, Tame L x) → readDoc E L n xs s = .ok (vs, s') →
    Keep L s s' := by
  intro xs
  induction xs with
  | nil => intro s vs s' _ h; cases h; exact .refl L s
  | cons x xs ih =>
    intro s vs s' ht h
    simp only [readDoc] at h
    cases h1 : deser E L n x s with
    | error e => rw [h1] at h; cases h
    | ok q =>
      obtain ⟨v, s1⟩ := q
      rw [h1] at h
      dsimp only at h
      cases h2 : readDoc E L n xs s1 with
      | error e => rw [h2] at h; cases h
      | ok q =>
        obtain ⟨ws, s2⟩ := q
        rw [h2] at h
        cases h
        exact (deser_keep E std n x s v s1 (ht x (by simp)) h1).trans
          (ih s1 ws s' (fun y hy => ht y (List.mem_cons_of_mem _ hy)) h2)

end Verif
