import Verif.Spec.Serializer
import Verif.Props.StringEsc
import Verif.Props.Duration
import Verif.Props.DateTime
import Verif.Props.Ints
import Verif.Props.Version
import Verif.Proof.Crypto
import Verif.Proof.Guid
import Verif.Proof.Floats
import Verif.Proof.Transport

/-! # Lemmas for the serializer -/

namespace Verif

open IntKind PSVersion

theorem natStr_inj {a b : Nat} (h : natStr a = natStr b) : a = b := by
  rw [← natStr_val a, ← natStr_val b, h]

theorem text_roundtrip {s : PyStr} (h : TextOk s) : deserializeString (serializeString s) = .ok s :=
  C23_partial s h.1 h.2.1 h.2.2.1 h.2.2.2

theorem readInt_intStr (k : IntKind) (v : Int) (h : k.InRange v) : readInt k (intStr v) = .ok (.int k v) := by
  unfold readInt
  rw [if_neg (intStr_ne_nil v), intOfText_intStr]
  dsimp only
  rw [(new_number k v v).mpr ⟨rfl, h⟩]
  rfl

theorem serialize_ne_nil {s : PyStr} (h : TextOk s) (hn : s ≠ []) : serializeString s ≠ [] := by
  intro he
  have := text_roundtrip h
  rw [he] at this
  exact hn (Except.ok.inj this).symm

theorem findText_here {t : Tag} {s : PyStr} (hs : s ≠ []) (a : Attrs) (k xs : List Xml) :
    findText (.node t a s k :: xs) t = some s := by
  simp [findText, Xml.tag, Xml.text, hs]

theorem findText_skip {t t' : Tag} (h : t' ≠ t) (a : Attrs) (s : PyStr) (k xs : List Xml) :
    findText (.node t' a s k :: xs) t = findText xs t := by
  simp [findText, Xml.tag, h]

theorem typeText_ne_nil (b : Bool) : serializeString (if b then txt! "Completed" else txt! "Processing") ≠ [] := by
  cases b <;> decide +kernel

theorem readProgress_kids {r : Progress} (h1 : TextOk r.activity) (h1' : r.activity ≠ [])
    (h2 : TextOk r.status) (h2' : r.status ≠ []) (h3 : ∀ t, r.operation = some t → TextOk t ∧ t ≠ [])
    (h4 : ∀ v ∈ [r.activityId, r.parentId, r.percent, r.seconds], ∃ i, v = some i ∧ IntKind.psInt.InRange i) :
    readProgress (progressKids r) = .ok r := by
  obtain ⟨ai, av, sd, op, pi, pc, co, sr⟩ := r
  dsimp only at h1 h1' h2 h2' h3 h4
  obtain ⟨ai, rfl, ha⟩ := h4 ai (by simp)
  obtain ⟨pi, rfl, hp⟩ := h4 pi (by simp)
  obtain ⟨pc, rfl, hc⟩ := h4 pc (by simp)
  obtain ⟨sr, rfl, hr⟩ := h4 sr (by simp)
  have ty : readProgressType (progressKids ⟨some ai, av, sd, op, some pi, some pc, co, some sr⟩) = .ok co := by
    have hf : findText (progressKids ⟨some ai, av, sd, op, some pi, some pc, co, some sr⟩) .T =
        some (serializeString (if co then txt! "Completed" else txt! "Processing")) := by
      unfold progressKids
      dsimp only
      rw [findText_skip (by simp), findText_skip (by simp)]
      cases op <;> dsimp only <;> rw [findText_skip (by simp), findText_skip (by simp), findText_skip (by simp)] <;>
        exact findText_here (typeText_ne_nil co) _ _ _
    unfold readProgressType readProgressText
    rw [hf]
    cases co <;> decide +kernel
  have text : ∀ t tag, TextOk t → findText (progressKids ⟨some ai, av, sd, op, some pi, some pc, co, some sr⟩) tag =
      some (serializeString t) → readProgressText (progressKids ⟨some ai, av, sd, op, some pi, some pc, co, some sr⟩) tag =
      .ok (some t) := by
    intro t tag h hf
    unfold readProgressText
    rw [hf]
    dsimp only
    rw [text_roundtrip h]; rfl
  have int : ∀ v tag, IntKind.psInt.InRange v →
      findText (progressKids ⟨some ai, av, sd, op, some pi, some pc, co, some sr⟩) tag = some (intStr v) →
      readProgressInt (progressKids ⟨some ai, av, sd, op, some pi, some pc, co, some sr⟩) tag = .ok (some v) := by
    intro v tag h hf
    unfold readProgressInt
    rw [hf]
    dsimp only
    rw [intOfText_intStr]
    dsimp only
    rw [(new_number .psInt v v).mpr ⟨rfl, h⟩]; rfl
  have e1 := text av .AV h1 (by unfold progressKids; exact findText_here (serialize_ne_nil h1 h1') _ _ _)
  have e2 := int ai .AI ha (by
    unfold progressKids; dsimp only
    rw [findText_skip (by simp)]
    exact findText_here (intStr_ne_nil _) _ _ _)
  have e3 : readProgressText (progressKids ⟨some ai, av, sd, op, some pi, some pc, co, some sr⟩) .S = .ok op := by
    cases op with
    | none =>
      unfold readProgressText
      have : findText (progressKids ⟨some ai, av, sd, none, some pi, some pc, co, some sr⟩) .S = none := by
        unfold progressKids; dsimp only
        rw [findText_skip (by simp), findText_skip (by simp), findText_skip (by simp), findText_skip (by simp),
          findText_skip (by simp), findText_skip (by simp), findText_skip (by simp), findText_skip (by simp)]
        rfl
      rw [this]
    | some t =>
      refine text t .S (h3 t rfl).1 ?_
      unfold progressKids; dsimp only
      rw [findText_skip (by simp), findText_skip (by simp)]
      exact findText_here (serialize_ne_nil (h3 t rfl).1 (h3 t rfl).2) _ _ _
  have e4 := int pi .PI hp (by
    unfold progressKids; dsimp only
    rw [findText_skip (by simp), findText_skip (by simp)]
    cases op <;> dsimp only <;> rw [findText_skip (by simp)] <;> exact findText_here (intStr_ne_nil _) _ _ _)
  have e5 := int pc .PC hc (by
    unfold progressKids; dsimp only
    rw [findText_skip (by simp), findText_skip (by simp)]
    cases op <;> dsimp only <;> rw [findText_skip (by simp), findText_skip (by simp)] <;>
      exact findText_here (intStr_ne_nil _) _ _ _)
  have e6 := int sr .SR hr (by
    unfold progressKids; dsimp only
    rw [findText_skip (by simp), findText_skip (by simp)]
    cases op <;> dsimp only <;> rw [findText_skip (by simp), findText_skip (by simp), findText_skip (by simp),
      findText_skip (by simp)] <;> exact findText_here (intStr_ne_nil _) _ _ _)
  have e7 := text sd .SD h2 (by
    unfold progressKids; dsimp only
    rw [findText_skip (by simp), findText_skip (by simp)]
    cases op <;> dsimp only <;> rw [findText_skip (by simp), findText_skip (by simp), findText_skip (by simp),
      findText_skip (by simp), findText_skip (by simp)] <;> exact findText_here (serialize_ne_nil h2 h2') _ _ _)
  unfold readProgress
  rw [e1, e2, e3, e4, e5, ty, e6, e7]
  rfl

theorem readText_some {α : Type} {f : PyStr → Except Err α} {t : PyStr} (h : t ≠ []) : readText f t = f t := by
  unfold readText; rw [if_neg h]

theorem readPrim_writePrim {E : TextEnv} (hE : ExtendsAscii E.uni) {p : Prim} (h : p.Ok E) :
    readPrim E (writePrim E p).1 (writePrim E p).2 (primKids p) = some (.ok p.norm) := by
  cases p with
  | int k v => exact congrArg some (readInt_intStr k v h)
  | plainInt v =>
    have hk : (plainKind v).InRange v ∧ Prim.norm (.plainInt v) = .int (plainKind v) v := by
      obtain ⟨h1, h2⟩ := h
      by_cases hv : v < 2 ^ 31
      · have e : plainKind v = .psInt := by
          unfold plainKind; exact if_neg (by simp only [IntKind.maxValue]; omega)
        refine ⟨?_, ?_⟩
        · rw [e, IntKind.inRange_iff]; simp only [IntKind.minValue, IntKind.maxValue]; omega
        · rw [e]; exact if_pos hv
      · have e : plainKind v = .psInt64 := by
          unfold plainKind; exact if_pos (by simp only [IntKind.maxValue]; omega)
        refine ⟨?_, ?_⟩
        · rw [e, IntKind.inRange_iff]; simp only [IntKind.minValue, IntKind.maxValue]; omega
        · rw [e]; exact if_neg hv
    rw [hk.2]
    exact congrArg some (readInt_intStr _ v hk.1)
  | char c =>
    refine congrArg some ?_
    show readChar (intStr c) = _
    unfold readChar
    rw [intOfText_intStr]
    dsimp only
    rw [((C53_range [] c c).1).mpr ⟨rfl, h⟩]
    rfl
  | str k s =>
    have := text_roundtrip (s := s) h
    cases k <;> (refine congrArg some ?_; show (deserializeString (serializeString s)).map _ = _; rw [this]; rfl)
  | bytes b =>
    refine congrArg some ?_
    show (b64decode (b64encode b)).map _ = _
    rw [b64_roundtrip]; rfl
  | date d =>
    refine congrArg some ?_
    show (deserializeDateTime (serializeDateTime E.year4 d)).map _ = _
    obtain ⟨h1, h2, h3, h4⟩ := h
    rw [C52_partial E.year4 d h1 h2 h3]
    have : d.nanosecond / 100 * 100 = d.nanosecond := by omega
    rw [this]; rfl
  | duration d =>
    refine congrArg some ?_
    show (deserializeDuration E.uni (serializeDuration d)).map _ = _
    obtain ⟨h1, h2, h3⟩ := h
    rw [(C25_exact E.uni hE d h1 h2).mpr h3]; rfl
  | version v =>
    refine congrArg some ?_
    show (PSVersion.parse E.uni v.str).map _ = _
    obtain ⟨h1, h2, h3, h4, h5⟩ := h
    rw [C28_text_partial E.uni hE v h1 h2 h3 h4 h5]; rfl
  | guid n =>
    refine congrArg some ?_
    show (readText guidOfText (guidStr n)).map _ = _
    rw [readText_some (by unfold guidStr; dsimp only; simp), guid_back n h]; rfl
  | decimal d =>
    refine congrArg some ?_
    show (readText decimalOfText d.text).map _ = _
    rw [readText_some (fun e => by have := decimal_back d; rw [e] at this; cases this), decimal_back d]; rfl
  | float k x =>
    have hb : readText floatOfText x.text = .ok x := by
      rw [readText_some (fun e => by have := float_back h; rw [e] at this; cases this), float_back h]
    cases k with
    | single =>
      refine congrArg some ?_
      show (readText floatOfText x.text).map _ = _
      rw [hb]; rfl
    | double =>
      refine congrArg some ?_
      show (readText floatOfText x.text).map _ = _
      rw [hb]; rfl
  | secure t => rfl
  | progress r =>
    refine congrArg some ?_
    obtain ⟨h1, h1', h2, h2', h3, h4⟩ := h
    show (readProgress (progressKids r)).map _ = _
    rw [readProgress_kids h1 h1' h2 h2' h3 h4]; rfl

theorem deser_prim {E : TextEnv} (hE : ExtendsAscii E.uni) (L : Lib) {p : Prim} (h : p.Ok E) (m : Nat)
    (s : DState) : deser E L (m + 1) (primXml E p) s = .ok (.prim p.norm, s) := by
  have hp := readPrim_writePrim hE h
  unfold deser primXml
  simp only [Xml.tag, Xml.text, Xml.kids]
  revert hp
  cases p with
  | str k s => cases k <;> (simp only [writePrim, StrKind.tag]; intro hp; rw [hp])
  | float k s => cases k <;> (simp only [writePrim, FloatKind.tag]; intro hp; rw [hp])
  | _ => simp only [writePrim]; intro hp; rw [hp]

theorem deser_setName (E : TextEnv) (L : Lib) (m : Nat) (n : PyStr) (x : Xml) (s : DState) :
    deser E L m (x.setName n) s = deser E L m x s := by
  cases m with
  | zero => rfl
  | succ m =>
    obtain ⟨t, a, tx, k⟩ := x
    unfold deser Xml.setName
    simp only [Xml.tag, Xml.text, Xml.attrs]
    cases t <;> first | rfl | skip
    all_goals (unfold readObj; simp only [Xml.kids, Xml.attrs])

theorem deser_setStream (E : TextEnv) (L : Lib) (m : Nat) (n : PyStr) (x : Xml) (s : DState) :
    deser E L m (x.setStream n) s = deser E L m x s := by
  cases m with
  | zero => rfl
  | succ m =>
    obtain ⟨t, a, tx, k⟩ := x
    unfold deser Xml.setStream
    simp only [Xml.tag, Xml.text, Xml.attrs]
    cases t <;> first | rfl | skip
    all_goals (unfold readObj; simp only [Xml.kids, Xml.attrs])

/-! ## Matching -/

theorem All2.mono {α β : Type} {R R' : α → β → Prop} (h : ∀ a b, R a b → R' a b) {as : List α} {bs : List β}
    (t : All2 R as bs) : All2 R' as bs := by
  induction t with
  | nil => exact .nil
  | cons hd _ ih => exact .cons (h _ _ hd) ih

theorem All2.snoc {α β : Type} {R : α → β → Prop} {as : List α} {bs : List β} (t : All2 R as bs) {a : α} {b : β}
    (h : R a b) : All2 R (as ++ [a]) (bs ++ [b]) := by
  induction t with
  | nil => exact .cons h .nil
  | cons hd _ ih => exact .cons hd ih

/-- What the first correspondence knows the second knows as well. -/
def Sub (φ φ' : Nat → Option Nat) : Prop := ∀ b a, φ b = some a → φ' b = some a

theorem Sub.refl (φ : Nat → Option Nat) : Sub φ φ := fun _ _ h => h

theorem Sub.trans {φ φ' φ'' : Nat → Option Nat} (h : Sub φ φ') (h' : Sub φ' φ'') : Sub φ φ'' :=
  fun b a e => h' b a (h b a e)

theorem VMatch.mono {φ φ' : Nat → Option Nat} (h : Sub φ φ') {v : PVal} {d : DVal} (m : VMatch φ v d) :
    VMatch φ' v d := by
  cases v with
  | ref a => obtain ⟨b, e, hb⟩ := m; exact ⟨b, e, h b a hb⟩
  | _ => exact m

theorem PMatch.mono {φ φ' : Nat → Option Nat} (h : Sub φ φ') {v : PyStr × PVal} {d : PyStr × DVal}
    (m : PMatch φ v d) : PMatch φ' v d := ⟨m.1, m.2.mono h⟩

theorem EMatch.mono {φ φ' : Nat → Option Nat} (h : Sub φ φ') {v : PVal × PVal} {d : DVal × DVal}
    (m : EMatch φ v d) : EMatch φ' v d := ⟨m.1.mono h, m.2.mono h⟩

theorem DataMatch.mono {φ φ' : Nat → Option Nat} (h : Sub φ φ') {v : Data} {d : DData}
    (m : DataMatch φ v d) : DataMatch φ' v d := by
  cases v with
  | list k l => obtain ⟨l', e, t⟩ := m; exact ⟨l', e, t.mono fun _ _ => VMatch.mono h⟩
  | queue l => obtain ⟨l', e, t⟩ := m; exact ⟨l', e, t.mono fun _ _ => VMatch.mono h⟩
  | dict l => obtain ⟨l', e, t⟩ := m; exact ⟨l', e, t.mono fun _ _ => EMatch.mono h⟩
  | _ => exact m

theorem OMatch.mono {L : Lib} {φ φ' : Nat → Option Nat} (h : Sub φ φ') {o : PObj} {d : DObj}
    (m : OMatch L φ o d) : OMatch L φ' o d :=
  { m with
    data := m.data.mono h
    adapted := m.adapted.mono fun _ _ => PMatch.mono h
    extended := m.extended.mono fun _ _ => PMatch.mono h }

/-! ## The invariant -/

/-- The objects of a graph the conditions hold for. -/
structure GoodGraph (E : TextEnv) (L : Lib) (H : Heap) (S : Nat → Prop) : Prop where
  objs : ∀ a, S a → (H a).Ok E L
  closed : ∀ a b, S a → PVal.ref b ∈ (H a).values → S b
  keys : ∀ a b, S a → S b → (H a).key ≠ none → (H a).key = (H b).key → a = b
  types : ∀ a b, S a → S b → (H a).types.head? = (H b).types.head? → (H a).types = (H b).types

/-- The enum classes are as declared, apart from their string forms. -/
def DState.Clean (L : Lib) (s : DState) : Prop :=
  ∀ c m, s.shared.get? c = some m → m.types = L.names c ∧ m.adapted = (L.instance c).adapted ∧
    m.extended = (L.instance c).extended

/-- The states of the two directions fit together. -/
structure Inv (L : Lib) (H : Heap) (S : Nat → Prop) (ss : SState) (ds : DState) (φ : Nat → Option Nat) : Prop where
  refs : ∀ k r, ss.objRef.get? k = some r → r < ss.nextId ∧ ∃ a b, S a ∧ (H a).key = some k ∧
    ds.objMap.get? (natStr r) = some (.ref b) ∧ φ b = some a
  tns : ∀ i main, ss.tnRefs[i]? = some main → ∃ a, S a ∧ (H a).types.head? = some main ∧
    ds.tnMap.get? (natStr i) = some (H a).types
  dom : ∀ b a, φ b = some a → b < ds.heap.length ∧ S a
  keyed : ∀ b a k, φ b = some a → (H a).key = some k → ∃ r, ss.objRef.get? k = some r ∧
    ds.objMap.get? (natStr r) = some (.ref b)
  drained : ∀ a ∈ ss.drained, ∃ k, (H a).key = some k ∧ ss.objRef.get? k ≠ none
  clean : ds.Clean L

/-- What happened between two pairs of states, apart from the object at `o`. -/
structure Step (L : Lib) (H : Heap) (S : Nat → Prop) (o : Option Nat) (ss : SState) (ds : DState)
    (φ : Nat → Option Nat) (ss' : SState) (ds' : DState) (φ' : Nat → Option Nat) : Prop where
  inv : Inv L H S ss' ds' φ'
  grow : ds.heap.length ≤ ds'.heap.length
  frame : ∀ b, b < ds.heap.length → o ≠ some b → ds'.heap[b]? = ds.heap[b]?
  ext : ∀ b, b < ds.heap.length → φ' b = φ b
  done : ∀ b a, ds.heap.length ≤ b → φ' b = some a →
    ∃ d, ds'.heap[b]? = some d ∧ OMatch L φ' (H a) d

theorem Step.refl {L : Lib} {H : Heap} {S : Nat → Prop} {o : Option Nat} {ss : SState} {ds : DState}
    {φ : Nat → Option Nat} (h : Inv L H S ss ds φ) : Step L H S o ss ds φ ss ds φ where
  inv := h
  grow := Nat.le_refl _
  frame := fun _ _ _ => rfl
  ext := fun _ _ => rfl
  done := fun b a hb e => by have := (h.dom b a e).1; omega

theorem Step.sub {L : Lib} {H : Heap} {S : Nat → Prop} {o : Option Nat} {ss ss' : SState} {ds ds' : DState}
    {φ φ' : Nat → Option Nat} (h : Inv L H S ss ds φ) (st : Step L H S o ss ds φ ss' ds' φ') : Sub φ φ' :=
  fun b a e => by rw [st.ext b (h.dom b a e).1, e]

theorem Step.trans {L : Lib} {H : Heap} {S : Nat → Prop} {o : Option Nat} {ss ss' ss'' : SState}
    {ds ds' ds'' : DState} {φ φ' φ'' : Nat → Option Nat} (st : Step L H S o ss ds φ ss' ds' φ')
    (st' : Step L H S o ss' ds' φ' ss'' ds'' φ'') (ho : ∀ b, o = some b → b < ds.heap.length) :
    Step L H S o ss ds φ ss'' ds'' φ'' where
  inv := st'.inv
  grow := Nat.le_trans st.grow st'.grow
  frame := fun b hb hn => by rw [st'.frame b (by have := st.grow; omega) hn, st.frame b hb hn]
  ext := fun b hb => by rw [st'.ext b (by have := st.grow; omega), st.ext b hb]
  done := fun b a hb e => by
    by_cases hl : b < ds'.heap.length
    · rw [st'.ext b hl] at e
      obtain ⟨d, hd, hm⟩ := st.done b a hb e
      refine ⟨d, ?_, hm.mono (st'.sub st.inv)⟩
      rw [st'.frame b hl (fun h => by have := ho b h; omega), hd]
    · exact st'.done b a (by omega) e

theorem Step.weaken {L : Lib} {H : Heap} {S : Nat → Prop} {o : Option Nat} {ss ss' : SState} {ds ds' : DState}
    {φ φ' : Nat → Option Nat} (st : Step L H S none ss ds φ ss' ds' φ') : Step L H S o ss ds φ ss' ds' φ' :=
  { st with frame := fun b hb _ => st.frame b hb (by simp) }

theorem Inv.heap {L : Lib} {H : Heap} {S : Nat → Prop} {ss : SState} {ds ds' : DState} {φ : Nat → Option Nat}
    (h : Inv L H S ss ds φ) (e1 : ds'.objMap = ds.objMap) (e2 : ds'.tnMap = ds.tnMap)
    (e3 : ds.heap.length ≤ ds'.heap.length) (e4 : ds'.shared = ds.shared) : Inv L H S ss ds' φ where
  refs := fun k r e => by rw [e1]; exact h.refs k r e
  tns := fun i m e => by rw [e2]; exact h.tns i m e
  dom := fun b a e => ⟨by have := (h.dom b a e).1; omega, (h.dom b a e).2⟩
  keyed := fun b a k e1' e2' => by rw [e1]; exact h.keyed b a k e1' e2'
  drained := h.drained
  clean := fun c m e => h.clean c m (by rw [← e4]; exact e)

theorem update_length (s : DState) (b : Nat) (g : DObj → DObj) : (s.update b g).heap.length = s.heap.length := by
  simp [DState.update]

theorem update_get_self {s : DState} {b : Nat} {d : DObj} (g : DObj → DObj) (h : s.heap[b]? = some d) :
    (s.update b g).heap[b]? = some (g d) := by
  simp [DState.update, h]

theorem update_get_ne (s : DState) {b c : Nat} (g : DObj → DObj) (h : b ≠ c) :
    (s.update b g).heap[c]? = s.heap[c]? := by
  simp [DState.update, h]

theorem edit_own {L : Lib} {s : DState} {b : Nat} {d : DObj} (h : s.heap[b]? = some d) (he : L.enumClass d = none)
    (g : DObj → DObj) : s.edit L b g = s.update b g := by
  unfold DState.edit
  rw [h]
  dsimp only
  rw [he]

theorem edit_member {L : Lib} {s : DState} {b : Nat} {d : DObj} {c : PyStr} (h : s.heap[b]? = some d)
    (he : L.enumClass d = some c) (g : DObj → DObj) :
    s.edit L b g = { s with shared := s.shared.set c (g (s.classMeta L c)) } := by
  unfold DState.edit
  rw [h]
  dsimp only
  rw [he]

theorem enumClass_cls {L : Lib} {d d' : DObj} (h : d'.cls = d.cls) : L.enumClass d' = L.enumClass d := by
  unfold Lib.enumClass; rw [h]

theorem enumClass_none {L : Lib} {d : DObj} {c : PyStr} (h : d.cls = some c) (hk : (L.info c).kind.isEnum = false) :
    L.enumClass d = none := by
  unfold Lib.enumClass; rw [h]; dsimp only; rw [hk]; rfl

theorem enumClass_plain {L : Lib} {d : DObj} (h : d.cls = none) : L.enumClass d = none := by
  unfold Lib.enumClass; rw [h]

/-- Changing the object at `b` is a step apart from `b`. -/
theorem Step.update {L : Lib} {H : Heap} {S : Nat → Prop} {ss : SState} {ds : DState} {φ : Nat → Option Nat}
    (h : Inv L H S ss ds φ) (b : Nat) (g : DObj → DObj) : Step L H S (some b) ss ds φ ss (ds.update b g) φ where
  inv := h.heap rfl rfl (by rw [update_length]; exact Nat.le_refl _) rfl
  grow := by rw [update_length]; exact Nat.le_refl _
  frame := fun c _ hn => update_get_ne _ _ (fun e => hn (by rw [e]))
  ext := fun _ _ => rfl
  done := fun c a hc e => by have := (h.dom c a e).1; omega

/-! ## The loops -/

/-- One direction undoes the other. -/
def Sim (E : TextEnv) (L : Lib) (H : Heap) (S : Nat → Prop) (f : PVal → SState → Except Err (Xml × SState))
    (g : Xml → DState → Except Err (DVal × DState)) : Prop :=
  ∀ v ss x ss' ds φ, (∀ a, v = .ref a → S a) → v.Ok E → Inv L H S ss ds φ → f v ss = .ok (x, ss') →
    ∃ dv ds' φ', g x ds = .ok (dv, ds') ∧ Step L H S none ss ds φ ss' ds' φ' ∧ VMatch φ' v dv

/-- What a value that is no object comes back as. -/
def plainVal : PVal → DVal
  | .nil => .nil
  | .bool b => .bool b
  | .prim p => .prim p.norm
  | .ref a => .ref a

/-- The same for values that are no objects: no state changes. -/
def SimPlain (E : TextEnv) (f : PVal → SState → Except Err (Xml × SState))
    (g : Xml → DState → Except Err (DVal × DState)) : Prop :=
  ∀ v ss x ss', v.IsPlain → v.Ok E → f v ss = .ok (x, ss') →
    ss' = ss ∧ (∀ t, f v t = .ok (x, t)) ∧ ∀ ds, g x ds = .ok (plainVal v, ds)

/-- Names given to an element do not matter. -/
def Nameless (g : Xml → DState → Except Err (DVal × DState)) : Prop := ∀ n x s, g (x.setName n) s = g x s

theorem lt_of_get {s : DState} {b : Nat} {d : DObj} (h : s.heap[b]? = some d) : b < s.heap.length := by
  rcases Nat.lt_or_ge b s.heap.length with h' | h'
  · exact h'
  · rw [List.getElem?_eq_none h'] at h; cases h

theorem plain_match {φ : Nat → Option Nat} {v : PVal} (h : v.IsPlain) : VMatch φ v (plainVal v) := by
  cases v with
  | ref a => cases h
  | _ => rfl

theorem match_plain {φ : Nat → Option Nat} {v : PVal} {d : DVal} (h : v.IsPlain) (m : VMatch φ v d) :
    d = plainVal v := by
  cases v with
  | ref a => cases h
  | _ => exact m

theorem items_sim {E : TextEnv} {L : Lib} {H : Heap} {S : Nat → Prop}
    {f : PVal → SState → Except Err (Xml × SState)} {g : Xml → DState → Except Err (DVal × DState)}
    (hs : Sim E L H S f g) : ∀ (items : List PVal) (ss : SState) (xs : List Xml) (ss' : SState) (ds : DState)
    (φ : Nat → Option Nat) (b : Nat) (d : DObj),
    (∀ a, PVal.ref a ∈ items → S a) → (∀ v ∈ items, v.Ok E) → Inv L H S ss ds φ → ds.heap[b]? = some d →
    serItems f items ss = .ok (xs, ss') →
    ∃ dvs ds' φ', readItems g b xs ds = .ok ds' ∧ Step L H S (some b) ss ds φ ss' ds' φ' ∧
      All2 (VMatch φ') items dvs ∧
      ds'.heap[b]? = some { d with data := dvs.foldl (fun e v => e.push v) d.data } := by
  intro items
  induction items with
  | nil =>
    intro ss xs ss' ds φ b d _ _ hi hd he
    cases he
    exact ⟨[], ds, φ, rfl, .refl hi, .nil, hd⟩
  | cons v vs ih =>
    intro ss xs ss' ds φ b d hS hok hi hd he
    simp only [serItems] at he
    cases h1 : f v ss with
    | error e => rw [h1] at he; cases he
    | ok r =>
      obtain ⟨x, s1⟩ := r
      rw [h1] at he
      dsimp only at he
      cases h2 : serItems f vs s1 with
      | error e => rw [h2] at he; cases he
      | ok r =>
        obtain ⟨ys, s2⟩ := r
        rw [h2] at he
        cases he
        obtain ⟨dv, ds1, φ1, hg, st1, hm⟩ := hs v ss x s1 ds φ (fun a e => hS a (by simp [e]))
          (hok v (by simp)) hi h1
        have hb := lt_of_get hd
        have hd1 : ds1.heap[b]? = some d := by rw [st1.frame b hb (by simp)]; exact hd
        have st2 : Step L H S (some b) s1 ds1 φ1 s1 (ds1.update b fun d => { d with data := d.data.push dv }) φ1 :=
          Step.update st1.inv b _
        have hd2 := update_get_self (fun d => { d with data := d.data.push dv }) hd1
        obtain ⟨dvs, ds', φ', hr, st3, ha, hf⟩ := ih s1 ys _ _ φ1 b _ (fun a h => hS a (by simp [h]))
          (fun w h => hok w (by simp [h])) st2.inv hd2 h2
        have ho : ∀ c, some b = some c → c < ds.heap.length := by intro c e; cases e; exact hb
        have ho1 : ∀ c, some b = some c → c < ds1.heap.length := by
          intro c e; cases e; exact lt_of_get hd1
        refine ⟨dv :: dvs, ds', φ', ?_, st1.weaken.trans (st2.trans st3 ho1) ho, .cons ?_ ha, ?_⟩
        · simp only [readItems, hg]; exact hr
        · exact hm.mono ((st2.trans st3 ho1).sub st1.inv)
        · rw [hf]; rfl

theorem props_sim {E : TextEnv} {L : Lib} {H : Heap} {S : Nat → Prop}
    {f : PVal → SState → Except Err (Xml × SState)} {g : Xml → DState → Except Err (DVal × DState)}
    (hs : Sim E L H S f g) (hn : Nameless g) (put : PyStr → DVal → DObj → DObj)
    (hput : ∀ n v d, (put n v d).cls = d.cls) :
    ∀ (ps : List (PyStr × PVal)) (ss : SState) (xs : List Xml) (ss' : SState) (ds : DState)
    (φ : Nat → Option Nat) (b : Nat) (d : DObj),
    (∀ a, PVal.ref a ∈ ps.map Prod.snd → S a) → (∀ v ∈ ps.map Prod.snd, v.Ok E) → (∀ p ∈ ps, TextOk p.1) →
    Inv L H S ss ds φ → ds.heap[b]? = some d → L.enumClass d = none →
    serProps f ps ss = .ok (xs, ss') →
    ∃ dps ds' φ', readProps L g put b xs ds = .ok ds' ∧ Step L H S (some b) ss ds φ ss' ds' φ' ∧
      All2 (PMatch φ') ps dps ∧
      ds'.heap[b]? = some (dps.foldl (fun e q => put q.1 q.2 e) d) := by
  intro ps
  induction ps with
  | nil =>
    intro ss xs ss' ds φ b d _ _ _ hi hd _ he
    cases he
    exact ⟨[], ds, φ, rfl, .refl hi, .nil, hd⟩
  | cons p ps ih =>
    obtain ⟨n, v⟩ := p
    intro ss xs ss' ds φ b d hS hok ht hi hd hen he
    simp only [serProps] at he
    cases h1 : f v ss with
    | error e => rw [h1] at he; cases he
    | ok r =>
      obtain ⟨x, s1⟩ := r
      rw [h1] at he
      dsimp only at he
      cases h2 : serProps f ps s1 with
      | error e => rw [h2] at he; cases he
      | ok r =>
        obtain ⟨ys, s2⟩ := r
        rw [h2] at he
        cases he
        obtain ⟨dv, ds1, φ1, hg, st1, hm⟩ := hs v ss x s1 ds φ (fun a e => hS a (by simp [e]))
          (hok v (by simp)) hi h1
        have hb := lt_of_get hd
        have hd1 : ds1.heap[b]? = some d := by rw [st1.frame b hb (by simp)]; exact hd
        have st2 : Step L H S (some b) s1 ds1 φ1 s1 (ds1.update b (put n dv)) φ1 := Step.update st1.inv b _
        have hd2 := update_get_self (put n dv) hd1
        obtain ⟨dps, ds', φ', hr, st3, ha, hf⟩ := ih s1 ys _ _ φ1 b _
          (fun a h => hS a (by rw [List.map_cons]; exact List.mem_cons_of_mem _ h))
          (fun w h => hok w (by rw [List.map_cons]; exact List.mem_cons_of_mem _ h))
          (fun q h => ht q (List.mem_cons_of_mem _ h)) st2.inv hd2 ((enumClass_cls (hput n dv d)).trans hen) h2
        have ho : ∀ c, some b = some c → c < ds.heap.length := by intro c e; cases e; exact hb
        have ho1 : ∀ c, some b = some c → c < ds1.heap.length := by
          intro c e; cases e; exact lt_of_get hd1
        refine ⟨(n, dv) :: dps, ds', φ', ?_, st1.weaken.trans (st2.trans st3 ho1) ho, .cons ⟨rfl, ?_⟩ ha, ?_⟩
        · have e1 : (x.setName (serializeString n)).attrs.name = some (serializeString n) := by cases x; rfl
          simp only [readProps, e1, getAttrib, text_roundtrip (ht (n, v) (by simp)), hn (serializeString n) x ds, hg,
            edit_own hd1 hen]
          exact hr
        · exact hm.mono ((st2.trans st3 ho1).sub st1.inv)
        · rw [hf]; rfl

theorem signedRat_float (neg : Bool) (units : Nat) : signedRat neg units unitsPerOne = floatValue neg units := by
  unfold signedRat floatValue unitsPerOne
  rw [Rat.mkRat_eq_div, Rat.natCast_pow, Rat.natCast_ofNat]
  cases neg
  · rfl
  · rfl

theorem signedRat_decimal (neg : Bool) (coeff : Nat) (exp : Int) :
    signedRat neg (coeff * 10 ^ exp.toNat) (10 ^ (-exp).toNat) = decimalValue neg coeff exp := by
  have h : ∀ a : Nat, mkRat ((a * 10 ^ exp.toNat : Nat) : Int) (10 ^ (-exp).toNat) = (a : Rat) * (10 : Rat) ^ exp := by
    intro a
    rw [Rat.mkRat_eq_div, Rat.intCast_natCast, Rat.natCast_mul, Rat.natCast_pow, Rat.natCast_pow, Rat.natCast_ofNat]
    cases exp with
    | ofNat n =>
      rw [show (-(Int.ofNat n)).toNat = 0 by simp only [Int.ofNat_eq_natCast]; omega, show (Int.ofNat n).toNat = n from rfl,
        Rat.pow_zero, Rat.div_def, show (1 : Rat)⁻¹ = 1 by decide +kernel, Rat.mul_one]
      rfl
    | negSucc n =>
      rw [show (-(Int.negSucc n)).toNat = n + 1 from rfl, show (Int.negSucc n).toNat = 0 from rfl, Rat.pow_zero, Rat.mul_one,
        Rat.div_def]
      rfl
  unfold signedRat decimalValue
  cases neg with
  | false => exact h coeff
  | true =>
    simp only [↓reduceIte]
    rw [← Rat.neg_mkRat, h, Rat.neg_mul]

theorem hashKey_plain {v : PVal} (h : v.IsPlain) (s : DState) {k : HKey} (hk : v.hashClass = some k) :
    hashKey s (plainVal v) = .ok k := by
  cases v with
  | ref a => cases h
  | nil => cases hk; rfl
  | bool b => cases hk; rfl
  | prim p =>
    cases p with
    | plainInt v =>
      cases hk
      simp only [plainVal, hashKey, Prim.norm]
      split <;> rfl
    | duration d => cases hk
    | version d => cases hk
    | date v => cases hk; show Except.ok (HKey.date _ _) = _; rw [micros_eq]
    | decimal d =>
      cases d with
      | finite neg coeff exp =>
        cases hk
        show Except.ok (HKey.num _) = _
        rw [signedRat_decimal]
      | infinity neg => cases hk; rfl
      | nan _ sig _ => cases sig <;> cases hk; rfl
    | float k x =>
      cases x with
      | finite neg units =>
        cases hk
        show Except.ok (HKey.num _) = _
        rw [signedRat_float]
      | infinity neg => cases hk; rfl
      | nan => cases hk; rfl
    | _ => cases hk; rfl

theorem dictSet_new (s : DState) (h : HKey) (k v : DVal) (es : List (DVal × DVal))
    (hn : ∀ e ∈ es, hashKey s e.1 = .ok h → h = .nan) : dictSet s h k v es = es ++ [(k, v)] := by
  induction es with
  | nil => rfl
  | cons e es ih =>
    obtain ⟨k', v'⟩ := e
    simp only [dictSet]
    rw [if_neg fun hc => hc.2 (hn (k', v') (by simp) hc.1), ih fun e he => hn e (List.mem_cons_of_mem _ he)]
    rfl

theorem match_keys {φ : Nat → Option Nat} {done : List (PVal × PVal)} {es : List (DVal × DVal)}
    (t : All2 (EMatch φ) done es) (hp : ∀ e ∈ done, e.1.IsPlain) :
    ∀ e ∈ es, ∃ q ∈ done, e.1 = plainVal q.1 := by
  induction t with
  | nil => intro e h; cases h
  | cons hd _ ih =>
    rename_i a b as bs _
    intro e he
    rcases List.mem_cons.mp he with rfl | he
    · exact ⟨a, by simp, match_plain (hp a (by simp)) hd.1⟩
    · obtain ⟨q, hq, e'⟩ := ih (fun e h => hp e (List.mem_cons_of_mem _ h)) e he
      exact ⟨q, List.mem_cons_of_mem _ hq, e'⟩

theorem entries_sim {E : TextEnv} {L : Lib} {H : Heap} {S : Nat → Prop}
    {f : PVal → SState → Except Err (Xml × SState)} {g : Xml → DState → Except Err (DVal × DState)}
    (hs : Sim E L H S f g) (hp : SimPlain E f g) (hn : Nameless g) :
    ∀ (entries : List (PVal × PVal)) (done : List (PVal × PVal)) (es : List (DVal × DVal)) (ss : SState)
    (xs : List Xml) (ss' : SState) (ds : DState) (φ : Nat → Option Nat) (b : Nat) (d : DObj),
    (∀ a, PVal.ref a ∈ entries.map Prod.snd → S a) → (∀ e ∈ entries, e.1.Ok E ∧ e.2.Ok E) →
    KeysOk (done ++ entries) → All2 (EMatch φ) done es → d.data = .dict es →
    Inv L H S ss ds φ → ds.heap[b]? = some d →
    serEntries f entries ss = .ok (xs, ss') →
    ∃ l ds' φ', readEntries g b xs ds = .ok ds' ∧ Step L H S (some b) ss ds φ ss' ds' φ' ∧
      All2 (EMatch φ') (done ++ entries) l ∧ ds'.heap[b]? = some { d with data := .dict l } := by
  intro entries
  induction entries with
  | nil =>
    intro done es ss xs ss' ds φ b d _ _ _ ha hdd hi hd he
    cases he
    refine ⟨es, ds, φ, rfl, .refl hi, by rw [List.append_nil]; exact ha, ?_⟩
    rw [hd, ← hdd]
  | cons p entries ih =>
    obtain ⟨k, v⟩ := p
    intro done es ss xs ss' ds φ b d hS hok hk ha hdd hi hd he
    simp only [serEntries] at he
    cases h0 : f k ss with
    | error e => rw [h0] at he; cases he
    | ok r =>
      obtain ⟨xk, s0⟩ := r
      rw [h0] at he
      dsimp only at he
      have hkp : k.IsPlain ∧ k.hashClass.isSome := hk.1 (k, v) (by simp)
      obtain ⟨rfl, _, hgk⟩ := hp k ss xk s0 hkp.1 (hok (k, v) (by simp)).1 h0
      cases h1 : f v s0 with
      | error e => rw [h1] at he; cases he
      | ok r =>
        obtain ⟨x, s1⟩ := r
        rw [h1] at he
        dsimp only at he
        cases h2 : serEntries f entries s1 with
        | error e => rw [h2] at he; cases he
        | ok r =>
          obtain ⟨ys, s2⟩ := r
          rw [h2] at he
          cases he
          obtain ⟨dv, ds1, φ1, hg, st1, hm⟩ := hs v s0 x s1 ds φ (fun a e => hS a (by simp [e]))
            (hok (k, v) (by simp)).2 hi h1
          have hb := lt_of_get hd
          have hd1 : ds1.heap[b]? = some d := by rw [st1.frame b hb (by simp)]; exact hd
          obtain ⟨h, hh⟩ := Option.isSome_iff_exists.mp hkp.2
          have hkey := hashKey_plain hkp.1 ds1 hh
          have hnew : dictSet ds1 h (plainVal k) dv es = es ++ [(plainVal k, dv)] := by
            refine dictSet_new _ _ _ _ _ fun e he => ?_
            have hpl : ∀ e ∈ done, e.1.IsPlain := fun e he => (hk.1 e (by simp [he])).1
            obtain ⟨q, hq, e'⟩ := match_keys ha hpl e he
            have hqs := (hk.1 q (by simp [hq])).2
            obtain ⟨h', hh'⟩ := Option.isSome_iff_exists.mp hqs
            rw [e', hashKey_plain (hpl q hq) ds1 hh']
            intro hc
            cases hc
            have := (List.pairwise_append.mp hk.2).2.2 q hq (k, v) (by simp) (by rw [hh, hh'])
            rw [hh'] at this
            exact Option.some.inj this
          have st2 : Step L H S (some b) s1 ds1 φ1 s1
              (ds1.update b fun d => { d with data := d.data.put ds1 h (plainVal k) dv }) φ1 :=
            Step.update st1.inv b _
          have hd2 := update_get_self (fun d => { d with data := d.data.put ds1 h (plainVal k) dv }) hd1
          have hdata : (d.data.put ds1 h (plainVal k) dv) = .dict (es ++ [(plainVal k, dv)]) := by
            rw [hdd, ← hnew]; rfl
          have ho : ∀ c, some b = some c → c < ds.heap.length := by intro c e; cases e; exact hb
          have ho1 : ∀ c, some b = some c → c < ds1.heap.length := by
            intro c e; cases e; exact lt_of_get hd1
          have ha1 : All2 (EMatch φ1) (done ++ [(k, v)]) (es ++ [(plainVal k, dv)]) :=
            (ha.mono fun _ _ => EMatch.mono (st1.sub hi)).snoc ⟨plain_match hkp.1, hm⟩
          obtain ⟨l, ds', φ', hr, st3, hal, hf⟩ := ih (done ++ [(k, v)]) _ s1 ys _ _ φ1 b _
            (fun a h => hS a (by rw [List.map_cons]; exact List.mem_cons_of_mem _ h))
            (fun q h => hok q (List.mem_cons_of_mem _ h))
            (by rw [List.append_assoc]; exact hk) ha1 hdata st2.inv hd2 h2
          refine ⟨l, ds', φ', ?_, st1.weaken.trans (st2.trans st3 ho1) ho, ?_, hf⟩
          · have e1 : findNamed (txt! "Key") (.node .En {} [] [xk.setName (txt! "Key"), x.setName (txt! "Value")]) =
                .ok (xk.setName (txt! "Key")) := by
              cases xk; simp [findNamed, Xml.kids, Xml.setName, Xml.attrs]
            have e2 : findNamed (txt! "Value") (.node .En {} [] [xk.setName (txt! "Key"), x.setName (txt! "Value")]) =
                .ok (x.setName (txt! "Value")) := by
              cases xk; cases x; simp [findNamed, Xml.kids, Xml.setName, Xml.attrs]
            simp only [readEntries, e1, e2, hn _ x ds, hg, hn _ xk ds1, hgk, hkey]
            exact hr
          · rw [List.append_assoc] at hal; exact hal

end Verif
