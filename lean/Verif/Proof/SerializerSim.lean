import Verif.Proof.SerializerObj

/-! # Reading undoes writing -/

namespace Verif

theorem getRefId_tn {key : Option Nat} {ss ss1 : SState} {r : Nat} {b : Bool}
    (h : getRefId key ss = (r, b, ss1)) : ss1.tnRefs = ss.tnRefs := by
  unfold getRefId at h
  split at h
  · cases h; rfl
  · split at h
    · split at h <;> cases h <;> rfl
    · cases h; rfl

theorem getRefId_drained {key : Option Nat} {ss ss1 : SState} {r : Nat} {b : Bool}
    (h : getRefId key ss = (r, b, ss1)) : ss1.drained = ss.drained := by
  unfold getRefId at h
  split at h
  · cases h; rfl
  · split at h
    · split at h <;> cases h <;> rfl
    · cases h; rfl

theorem body_reduce {E : TextEnv} {L : Lib} {H : Heap} {S : Nat → Prop}
    {f : PVal → SState → Except Err (Xml × SState)} (g : Xml → DState → Except Err (DVal × DState))
    (hg : GoodGraph E L H S) {ss : SState} {ds : DState} {φ : Nat → Option Nat} (hi : Inv L H S ss ds φ) {a : Nat}
    (ha : S a) {r : Nat} {ss1 : SState} (hr : getRefId (H a).key ss = (r, false, ss1)) {x : Xml} {ss' : SState}
    (he : serBody E f a r (H a) ss1 = .ok (x, ss')) :
    ∃ xsA s1 xsE s2 c ds1 tn, serProps f (H a).adapted { ss1 with tnRefs := tn } = .ok (xsA, s1) ∧
      serProps f (H a).extended s1 = .ok (xsE, s2) ∧ serContent f a (H a) s2 = .ok (c, ss') ∧
      ds1.heap = ds.heap ∧ ds1.objMap = ds.objMap ∧ ds1.shared = ds.shared ∧
      (∀ i main, tn[i]? = some main → ∃ a, S a ∧ (H a).types.head? = some main ∧
        ds1.tnMap.get? (natStr i) = some (H a).types) ∧
      ∀ b s1', readChildren L g (writtenTypes (H a)) (some (natStr r)) (serSub E (H a).data)
          (readStart L (writtenTypes (H a)) (some (natStr r)) ds1).1
          (readStart L (writtenTypes (H a)) (some (natStr r)) ds1).2 = .ok (⟨some b, none, [], []⟩, s1') →
        ∀ c' s', readChildren L g (writtenTypes (H a)) (some (natStr r)) c ⟨some b, none, xsA, xsE⟩ s1' = .ok (c', s') →
          readObj L g x ds = readFinish L g (L.startNames (writtenTypes (H a)) ds1) c' s' := by
  obtain ⟨xsA, s1, xsE, s2, c, hA, hE, hc, rfl⟩ := serBody_ok he
  have hw : writtenTypes (H a) = (H a).types ∨ writtenTypes (H a) = [] := by
    unfold writtenTypes
    split
    · exact .inr rfl
    · exact .inl rfl
  have hpost : ∀ y ∈ groupXml .Props (H a).adapted xsA ++ (groupXml .MS (H a).extended xsE ++ c), NoType y := by
    intro y hy
    rcases List.mem_append.mp hy with h | h
    · exact noType_group ⟨by simp, by simp⟩ _ _ y h
    · rcases List.mem_append.mp h with h | h
      · exact noType_group ⟨by simp, by simp⟩ _ _ y h
      · exact serContent_cases hc y h
  obtain ⟨ds1, ht, hh, hm, hsh, tn, htn, htns⟩ := types_sim hg hi ha hw (getRefId_tn hr) (noType_sub E (H a).data) hpost
  rw [htn] at hA
  refine ⟨xsA, s1, xsE, s2, c, ds1, tn, hA, hE, hc, hh, hm, hsh, htns, fun b s1' hsub c' s' hcc => ?_⟩
  have hrest := children_rest L g (writtenTypes (H a)) (some (natStr r)) hA hE (serSub E (H a).data) c
    (writtenTypes (H a)) ss1 hsub
  unfold readObj
  simp only [Xml.kids, Xml.attrs]
  rw [show serSub E (H a).data ++ (serTypes (writtenTypes (H a)) ss1).1 ++ groupXml .Props (H a).adapted xsA ++
      groupXml .MS (H a).extended xsE ++ c = serSub E (H a).data ++ (serTypes (writtenTypes (H a)) ss1).1 ++
      (groupXml .Props (H a).adapted xsA ++ (groupXml .MS (H a).extended xsE ++ c)) by
        simp only [List.append_assoc]] at hrest ⊢
  rw [ht]
  dsimp only
  rw [hrest, hcc]

theorem dress_toStr (names : List PyStr) (t : Option PyStr) {d : DObj} (h : d.toStr = none) :
    (dress names t d).toStr = t := by
  unfold dress
  cases t with
  | none => exact h
  | some u => rfl

theorem readSub_value {E : TextEnv} {L : Lib} {g : Xml → DState → Except Err (DVal × DState)} {p : Prim}
    {types : List PyStr} {dst d0 : DObj} (hst : L.start types = .value dst)
    (hx : ∀ ds, g (primXml E p) ds = .ok (.prim p.norm, ds)) {s : DState} {b : Nat} (hget : s.heap[b]? = some d0)
    (hen : L.enumClass d0 = none) (refId : Option PyStr) :
    readChildren L g types refId [primXml E p] ⟨some b, none, [], []⟩ s =
      .ok (⟨some s.heap.length, none, [], []⟩,
        (s.alloc { L.instance p.norm.cls with
            data := .prim p.norm, types := if d0.types = [] then L.names p.norm.cls else d0.types }).register
          refId (.ref s.heap.length)) := by
  rw [readChildren_one, readChild_prim]
  unfold readSub
  rw [hx]
  dsimp only
  rw [hst]
  dsimp only
  rw [hget, Option.map_some, show s.shown L d0 = d0 by unfold DState.shown; rw [hen]]
  rfl

theorem container_props {E : TextEnv} {L : Lib} {H : Heap} {S : Nat → Prop}
    {f : PVal → SState → Except Err (Xml × SState)} {g : Xml → DState → Except Err (DVal × DState)}
    (hp : SimPlain E f g) (hg : GoodGraph E L H S) {a : Nat} (ha : S a) (hcon : (H a).data.IsContainer) {sA s1 s2 : SState} {xsA xsE : List Xml}
    (hA : serProps f (H a).adapted sA = .ok (xsA, s1)) (hE : serProps f (H a).extended s1 = .ok (xsE, s2)) :
    s2 = sA ∧ ∀ t, serProps f (H a).adapted t = .ok (xsA, t) ∧ serProps f (H a).extended t = .ok (xsE, t) := by
  have ok := hg.objs a ha
  have hpl := ok.plain hcon
  have hvA : ∀ q ∈ (H a).adapted, q.2.Ok E := fun q hq => ok.vals _ (by
    unfold PObj.values
    exact List.mem_append_left _ (List.mem_append_left _ (List.mem_map.mpr ⟨q, hq, rfl⟩)))
  have hvE : ∀ q ∈ (H a).extended, q.2.Ok E := fun q hq => ok.vals _ (by
    unfold PObj.values
    exact List.mem_append_left _ (List.mem_append_right _ (List.mem_map.mpr ⟨q, hq, rfl⟩)))
  obtain ⟨rfl, tA⟩ := plain_props hp _ _ _ _ (fun q hq => hpl q (List.mem_append_left _ hq)) hvA hA
  obtain ⟨rfl, tE⟩ := plain_props hp _ _ _ _ (fun q hq => hpl q (List.mem_append_right _ hq)) hvE hE
  exact ⟨rfl, fun t => ⟨tA t, tE t⟩⟩

theorem fold_push_list (l dvs : List DVal) : dvs.foldl (fun e v => e.push v) (.list l) = DData.list (l ++ dvs) := by
  induction dvs generalizing l with
  | nil => simp
  | cons v dvs ih => rw [List.foldl_cons, DData.push, ih, List.append_assoc]; rfl

theorem fold_push_queue (l dvs : List DVal) : dvs.foldl (fun e v => e.push v) (.queue l) = DData.queue (l ++ dvs) := by
  induction dvs generalizing l with
  | nil => simp
  | cons v dvs ih => rw [List.foldl_cons, DData.push, ih, List.append_assoc]; rfl

theorem currentClass_eq {L : Lib} (test : ClassKind → Bool) {b : Nat} {s : DState} {d : DObj} (h : s.heap[b]? = some d)
    (t : Option PyStr) (p m : List Xml) :
    currentClass L test ⟨some b, t, p, m⟩ s = .ok (match d.cls with
      | none => none
      | some cls => if test (L.info cls).kind then some (b, cls) else none) := by
  unfold currentClass
  dsimp only
  rw [h]
  dsimp only
  cases d.cls <;> rfl

theorem values_list {o : PObj} {k : ListKind} {items : List PVal} (h : o.data = .list k items) :
    ∀ v ∈ items, v ∈ o.values := by
  intro v hv
  unfold PObj.values
  rw [h]
  exact List.mem_append_right _ hv

theorem values_queue {o : PObj} {items : List PVal} (h : o.data = .queue items) :
    ∀ v ∈ items, v ∈ o.values := by
  intro v hv
  unfold PObj.values
  rw [h]
  exact List.mem_append_right _ hv

theorem values_dict {o : PObj} {es : List (PVal × PVal)} (h : o.data = .dict es) :
    ∀ e ∈ es, e.1 ∈ o.values ∧ e.2 ∈ o.values := by
  intro e he
  unfold PObj.values
  rw [h]
  exact ⟨List.mem_append_right _ (List.mem_append_left _ (List.mem_map.mpr ⟨e, he, rfl⟩)),
    List.mem_append_right _ (List.mem_append_right _ (List.mem_map.mpr ⟨e, he, rfl⟩))⟩

section

variable {E : TextEnv} {L : Lib} {H : Heap} {S : Nat → Prop} {f : PVal → SState → Except Err (Xml × SState)}
  {g : Xml → DState → Except Err (DVal × DState)} (hs : Sim E L H S f g) (hp : SimPlain E f g)
  (hn : Nameless g) (hsub : ∀ p : Prim, p.Ok E → ∀ ds, g (primXml E p) ds = .ok (.prim p.norm, ds))
  (std : L.Standard) (hg : GoodGraph E L H S) {ss : SState} {ds : DState} {φ : Nat → Option Nat}
  (hi : Inv L H S ss ds φ) {a : Nat} (ha : S a) {r : Nat} {ss1 : SState}
  (hr : getRefId (H a).key ss = (r, false, ss1)) {x : Xml} {ss' : SState}
  (he : serBody E f a r (H a) ss1 = .ok (x, ss'))

include hs hn hg hi ha hr he

theorem body_none (hd : (H a).data = .none) :
    ∃ dv ds' φ', readObj L g x ds = .ok (dv, ds') ∧ Step L H S none ss ds φ ss' ds' φ' ∧
      VMatch φ' (.ref a) dv := by
  obtain ⟨xsA, s1, xsE, s2, c, ds1, tn, hA, hE, hc, hh, hm, hsh, htn, hread⟩ := body_reduce g hg hi ha hr he
  have hcl : ds1.Clean L := fun c m e => hi.clean c m (by rw [← hsh]; exact e)
  have ok := hg.objs a ha
  have hw : writtenTypes (H a) = (H a).types := by unfold writtenTypes; rw [hd]
  rw [hw, hd] at hread
  have hstart : ∃ d, L.start (H a).types = .value d ∧ d.cls = resultClass L (H a) ∧ L.enumClass d = none ∧ d.data = .none ∧
      d.toStr = none ∧ d.adapted = ((L.declared (H a)).adapted.map fun n => (n, DVal.nil)) ∧
      d.extended = ((L.declared (H a)).extended.map fun n => (n, DVal.nil)) ∧
      ((H a).types = [] → d.types = match resultClass L (H a) with
        | some c => L.names c
        | none => []) := by
    unfold Lib.start
    cases hre : L.reg.rehydrate (H a).types with
    | plain ns =>
      have hrc : resultClass L (H a) = none := by unfold resultClass; rw [hd, hre]
      refine ⟨_, rfl, hrc.symm, rfl, rfl, rfl, by rw [declared_none hrc]; rfl, by rw [declared_none hrc]; rfl,
        fun h0 => ?_⟩
      rw [hrc, rehydrate_plain hre, h0]; rfl
    | instance_ cl =>
      have hrc : resultClass L (H a) = some cl := by unfold resultClass; rw [hd, hre]
      have hk := (ok.cls cl hre).2
      rw [hd] at hk
      dsimp only at hk ⊢
      rw [hk]
      refine ⟨_, rfl, hrc.symm, enumClass_none rfl (by rw [hk]; rfl), by simp only [Lib.instance, hk]; rfl, rfl, ?_, ?_,
        fun h0 => ?_⟩
      · exact instance_adapted hrc
      · exact instance_extended hrc
      · rw [h0] at hre; cases hre
  obtain ⟨d, hst, hcls, hen, hdata, hts, pA, pE, hty⟩ := hstart
  have ho := open1 hg hi ha hr hh hm hsh htn d
  have hrs : readStart L (H a).types (some (natStr r)) ds1 = ({ value := some ds1.heap.length },
      (ds1.alloc d).register (some (natStr r)) (.ref ds1.heap.length)) := by
    unfold readStart; rw [hst]
  rw [hrs] at hread
  have hread := hread ds1.heap.length _ rfl
  unfold serContent at hc
  rw [hd] at hc
  dsimp only at hc
  obtain ⟨rfl, rfl⟩ : serString (H a).toStr = c ∧ s2 = ss' := by
    cases hc; exact ⟨rfl, rfl⟩
  have hread := hread _ _ (readChildren_string L g _ _ (H a).toStr ok.string _ rfl _)
  obtain ⟨ds', φ', hf, st, hv⟩ := finish_close (names := L.startNames (H a).types ds1)
    (toStr := if (H a).toStr = some [] then none else (H a).toStr) hs hn hg hi ha ho.hb (lt_of_get ho.get) ho.low (.refl ho.inv) ho.get
    hA hE pA pE hcls hen (types_eq hcl (by intro p h; rw [hd] at h; cases h) ok.cls d.types hty) (by
      rw [dress_toStr _ _ hts]; unfold resultString; rw [hd]) (by rw [hd]; exact hdata)
  exact ⟨_, ds', φ', by rw [hread]; exact hf, st, hv⟩

include hsub std

theorem body_ext {p : Prim} (hd : (H a).data = .ext p) :
    ∃ dv ds' φ', readObj L g x ds = .ok (dv, ds') ∧ Step L H S none ss ds φ ss' ds' φ' ∧
      VMatch φ' (.ref a) dv := by
  obtain ⟨xsA, s1, xsE, s2, c, ds1, tn, hA, hE, hc, hh, hm, hsh, htn, hread⟩ := body_reduce g hg hi ha hr he
  have hcl : ds1.Clean L := fun c m e => hi.clean c m (by rw [← hsh]; exact e)
  have ok := hg.objs a ha
  have hw : writtenTypes (H a) = [] := by unfold writtenTypes; rw [hd]
  have hrc : resultClass L (H a) = some p.norm.cls := by unfold resultClass; rw [hd]
  rw [hw, hd] at hread
  have hrs : readStart L [] (some (natStr r)) ds1 = ({ value := some ds1.heap.length },
      (ds1.alloc { types := [] }).register (some (natStr r)) (.ref ds1.heap.length)) := rfl
  have ho0 := open1 hg hi ha hr hh hm hsh htn { types := [] }
  have ho := open2 hg hi ha hr hh hm hsh htn { types := [] }
    { L.instance p.norm.cls with data := .prim p.norm, types := L.names p.norm.cls }
  rw [hrs] at hread
  have hread := hread _ _ (readSub_value (dst := { types := [] }) rfl (hsub p (ok.own p (.inl hd))) ho0.get rfl _)
  unfold serContent at hc
  rw [hd] at hc
  dsimp only at hc
  obtain ⟨rfl, rfl⟩ : [] = c ∧ s2 = ss' := by cases hc; exact ⟨rfl, rfl⟩
  have hread := hread _ _ rfl
  obtain ⟨ds', φ', hf, st, hv⟩ := finish_close (names := L.startNames [] ds1) (toStr := none) hs hn hg hi ha ho.hb
    (lt_of_get ho.get) ho.low (.refl ho.inv) ho.get hA hE (instance_adapted hrc)
    (instance_extended hrc) hrc.symm (enumClass_none rfl (std.prim _))
    (by unfold resultTypes; rw [hd]; rfl) (by rw [dress_toStr _ _ rfl]; unfold resultString; rw [hd]) (by rw [hd]; rfl)
  exact ⟨_, ds', φ', by rw [hread]; exact hf, st, hv⟩

theorem body_enum {p : Prim} (hd : (H a).data = .enum p) :
    ∃ dv ds' φ', readObj L g x ds = .ok (dv, ds') ∧ Step L H S none ss ds φ ss' ds' φ' ∧
      VMatch φ' (.ref a) dv := by
  obtain ⟨xsA, s1, xsE, s2, c, ds1, tn, hA, hE, hc, hh, hm, hsh, htn, hread⟩ := body_reduce g hg hi ha hr he
  have hcl : ds1.Clean L := fun c m e => hi.clean c m (by rw [← hsh]; exact e)
  have ok := hg.objs a ha
  have hw : writtenTypes (H a) = (H a).types := by unfold writtenTypes; rw [hd]
  rw [hw, hd] at hread
  unfold serContent at hc
  rw [hd] at hc
  dsimp only at hc
  obtain ⟨rfl, rfl⟩ : serString (H a).toStr = c ∧ s2 = ss' := by cases hc; exact ⟨rfl, rfl⟩
  have hne : ∀ q, (H a).data ≠ .ext q := by intro q h; rw [hd] at h; cases h
  cases hre : L.reg.rehydrate (H a).types with
  | plain ns =>
    have hrc : resultClass L (H a) = some p.norm.cls := by unfold resultClass; rw [hd, hre]
    have hst : L.start (H a).types = .value { types := ns } := by unfold Lib.start; rw [hre]
    have hrs : readStart L (H a).types (some (natStr r)) ds1 = ({ value := some ds1.heap.length },
        (ds1.alloc { types := ns }).register (some (natStr r)) (.ref ds1.heap.length)) := by
      unfold readStart; rw [hst]
    have ho0 := open1 hg hi ha hr hh hm hsh htn { types := ns }
    have ho := open2 hg hi ha hr hh hm hsh htn { types := ns }
      { L.instance p.norm.cls with data := .prim p.norm, types := if ns = [] then L.names p.norm.cls else ns }
    rw [hrs] at hread
    have hread := hread _ _ (readSub_value hst (hsub p (ok.own p (.inr hd))) ho0.get rfl _)
    have hread := hread _ _ (readChildren_string L g _ _ (H a).toStr ok.string _ rfl _)
    obtain ⟨ds', φ', hf, st, hv⟩ := finish_close (names := L.startNames (H a).types ds1)
      (toStr := if (H a).toStr = some [] then none else (H a).toStr) hs hn hg hi ha ho.hb
      (lt_of_get ho.get) ho.low (.refl ho.inv) ho.get hA hE (instance_adapted hrc)
      (instance_extended hrc) hrc.symm (enumClass_none rfl (std.prim _))
      (types_eq hcl hne ok.cls _ (fun h0 => by
        rw [hrc]
        have := rehydrate_plain hre
        rw [h0] at this
        exact if_pos this))
      (by rw [dress_toStr _ _ rfl]; unfold resultString; rw [hd]) (by rw [hd]; rfl)
    exact ⟨_, ds', φ', by rw [hread]; exact hf, st, hv⟩
  | instance_ cl =>
    have hrc : resultClass L (H a) = some cl := by unfold resultClass; rw [hd, hre]
    have hk := (ok.cls cl hre).2
    rw [hd] at hk
    obtain ⟨⟨mem, k, v, hk, hpn, hmem⟩, ha0, he0⟩ := hk
    rw [ha0] at hA
    cases hA
    rw [he0] at hE
    cases hE
    have hst : L.start (H a).types = .enum cl mem := by unfold Lib.start; rw [hre]; dsimp only; rw [hk]
    have hrs : readStart L (H a).types (some (natStr r)) ds1 = ({ value := none }, ds1) := by
      unfold readStart; rw [hst]
    have ho := open1 hg hi ha hr hh hm hsh htn { L.instance cl with data := .prim p.norm }
    rw [hrs] at hread
    have hread := hread _ _ (by
      rw [serSub, readChildren_one, readChild_prim]
      unfold readSub
      rw [hsub p (ok.own p (.inr hd)) _]
      dsimp only
      rw [hst]
      dsimp only
      rw [show memberFor mem (hashKey ds1 (.prim p.norm)) = some p.norm by rw [hpn]; exact hmem])
    have hread := hread _ _ (readChildren_string L g _ _ (H a).toStr ok.string _ rfl _)
    obtain ⟨ds', φ', hf, st, hv⟩ := finish_enum (g := g) (names := L.startNames (H a).types ds1)
      (toStr := if (H a).toStr = some [] then none else (H a).toStr) hi ho.hb ho.low ho.inv ho.get (cl := cl)
      (by unfold Lib.enumClass; show (if (L.info cl).kind.isEnum = true then some cl else none) = _; rw [hk]; rfl)
      (startNames_instance hcl hre)
      { cls := hrc.symm
        types := by
          unfold resultTypes
          rw [hd, hre]
          cases ht : (H a).types with
          | nil => rw [ht] at hre; cases hre
          | cons t ts => rfl
        string := .inl ⟨p, cl, hd, hre⟩
        data := by rw [hd]; rfl
        adapted := by
          show All2 _ (arranged _ _ (H a).adapted) (L.instance cl).adapted
          rw [ha0, instance_adapted hrc]
          exact blank_match _ _
        extended := by
          show All2 _ (arranged _ _ (H a).extended) (L.instance cl).extended
          rw [he0, instance_extended hrc]
          exact blank_match _ _ }
    exact ⟨_, ds', φ', by rw [hread]; exact hf, st, hv⟩

omit hsub
include hp

theorem body_list {k : ListKind} {items : List PVal} (hd : (H a).data = .list k items) :
    ∃ dv ds' φ', readObj L g x ds = .ok (dv, ds') ∧ Step L H S none ss ds φ ss' ds' φ' ∧
      VMatch φ' (.ref a) dv := by
  obtain ⟨xsA, s1, xsE, s2, c, ds1, tn, hA, hE, hc, hh, hm, hsh, htn, hread⟩ := body_reduce g hg hi ha hr he
  have hcl : ds1.Clean L := fun c m e => hi.clean c m (by rw [← hsh]; exact e)
  have ok := hg.objs a ha
  have hw : writtenTypes (H a) = (H a).types := by unfold writtenTypes; rw [hd]
  rw [hw, hd] at hread
  obtain ⟨rfl, hprops⟩ := container_props hp hg ha (by rw [hd]; trivial) hA hE
  unfold serContent at hc
  rw [hd] at hc
  dsimp only at hc
  have hne : ∀ q, (H a).data ≠ .ext q := by intro q h; rw [hd] at h; cases h
  cases hit : serItems f items { ss1 with tnRefs := tn } with
  | error e => rw [hit] at hc; cases hc
  | ok q =>
    obtain ⟨xs, s3⟩ := q
    rw [hit] at hc
    obtain ⟨rfl, rfl⟩ : [.node k.tag {} [] xs] = c ∧ s3 = ss' := by cases hc; exact ⟨rfl, rfl⟩
    obtain ⟨d0, rc, hst, hcc, hrc, hkind⟩ : ∃ d0 rc, L.start (H a).types = .value d0 ∧
        (((match d0.cls with
          | none => none
          | some cls => if ClassKind.isList (L.info cls).kind then some (ds1.heap.length, cls) else none).map
            Prod.snd).getD k.cls = rc) ∧ resultClass L (H a) = some rc ∧ (L.info rc).kind = .list k := by
      cases hre : L.reg.rehydrate (H a).types with
      | plain ns =>
        refine ⟨{ types := ns }, k.cls, ?_, rfl, ?_, std.list k⟩
        · unfold Lib.start; rw [hre]
        · unfold resultClass; rw [hd, hre]
      | instance_ cl =>
        have hk := (ok.cls cl hre).2
        rw [hd] at hk
        dsimp only at hk
        refine ⟨L.instance cl, cl, ?_, ?_, ?_, hk⟩
        · unfold Lib.start; rw [hre]; dsimp only; rw [hk]
        · simp only [Lib.instance, hk, ClassKind.isList, ↓reduceIte]; rfl
        · unfold resultClass; rw [hd, hre]
    have hrs : readStart L (H a).types (some (natStr r)) ds1 = ({ value := some ds1.heap.length },
        (ds1.alloc d0).register (some (natStr r)) (.ref ds1.heap.length)) := by
      unfold readStart; rw [hst]
    have ho0 := open1 hg hi ha hr hh hm hsh htn d0
    have ho := open2 hg hi ha hr hh hm hsh htn d0 (L.instance rc)
    rw [hrs] at hread
    have hread := hread _ _ rfl
    obtain ⟨dvs, dsC, φC, hri, st, hall, hget⟩ := items_sim hs items _ xs s3 _ _ _ _
      (fun b h => hg.closed a b ha (values_list hd _ h)) (fun v h => ok.vals v (values_list hd v h))
      ho.inv ho.get hit
    have hread := hread ⟨some ((ds1.alloc d0).register (some (natStr r)) (.ref ds1.heap.length)).heap.length, none, xsA, xsE⟩
      dsC (by
        rw [readChildren_one]
        have : ∀ c s, readChild L g (H a).types (some (natStr r)) (.node k.tag {} [] xs) c s =
            readList L g k (some (natStr r)) (.node k.tag {} [] xs) c s := by
          intro c s; cases k <;> rfl
        rw [this]
        unfold readList
        rw [currentClass_eq _ ho0.get]
        dsimp only
        rw [hcc]
        unfold renew
        simp only [Xml.kids]
        rw [hri])
    have hblank : (L.instance rc).data = .list [] := by simp only [Lib.instance, hkind]; rfl
    obtain ⟨ds', φ', hf, st, hv⟩ := finish_close (names := L.startNames (H a).types ds1)
      (toStr := none) hs hn hg hi ha ho.hb
      (lt_of_get ho.get) ho.low st hget (hprops s3).1 (hprops s3).2 (instance_adapted hrc)
      (instance_extended hrc) hrc.symm (enumClass_none rfl (by rw [hkind]; rfl))
      (types_eq hcl hne ok.cls _ (fun h0 => by rw [hrc]; rfl))
      (by rw [dress_toStr _ _ rfl]; unfold resultString; rw [hd])
      (by rw [hd, hblank, fold_push_list]; exact ⟨_, rfl, hall⟩)
    exact ⟨_, ds', φ', by rw [hread]; exact hf, st, hv⟩

theorem body_dict {es : List (PVal × PVal)} (hd : (H a).data = .dict es) :
    ∃ dv ds' φ', readObj L g x ds = .ok (dv, ds') ∧ Step L H S none ss ds φ ss' ds' φ' ∧
      VMatch φ' (.ref a) dv := by
  obtain ⟨xsA, s1, xsE, s2, c, ds1, tn, hA, hE, hc, hh, hm, hsh, htn, hread⟩ := body_reduce g hg hi ha hr he
  have hcl : ds1.Clean L := fun c m e => hi.clean c m (by rw [← hsh]; exact e)
  have ok := hg.objs a ha
  have hw : writtenTypes (H a) = (H a).types := by unfold writtenTypes; rw [hd]
  rw [hw, hd] at hread
  obtain ⟨rfl, hprops⟩ := container_props hp hg ha (by rw [hd]; trivial) hA hE
  unfold serContent at hc
  rw [hd] at hc
  dsimp only at hc
  have hne : ∀ q, (H a).data ≠ .ext q := by intro q h; rw [hd] at h; cases h
  cases hit : serEntries f es { ss1 with tnRefs := tn } with
  | error e => rw [hit] at hc; cases hc
  | ok q =>
    obtain ⟨xs, s3⟩ := q
    rw [hit] at hc
    obtain ⟨rfl, rfl⟩ : [.node .DCT {} [] xs] = c ∧ s3 = ss' := by cases hc; exact ⟨rfl, rfl⟩
    obtain ⟨d0, rc, hst, hcc, hrc, hkind⟩ : ∃ d0 rc, L.start (H a).types = .value d0 ∧
        (((match d0.cls with
          | none => none
          | some cls => if ClassKind.isDict (L.info cls).kind then some (ds1.heap.length, cls) else none).map
            Prod.snd).getD (txt! "PSDict") = rc) ∧ resultClass L (H a) = some rc ∧ (L.info rc).kind = .dict := by
      cases hre : L.reg.rehydrate (H a).types with
      | plain ns =>
        refine ⟨{ types := ns }, txt! "PSDict", ?_, rfl, ?_, std.dict⟩
        · unfold Lib.start; rw [hre]
        · unfold resultClass; rw [hd, hre]
      | instance_ cl =>
        have hk := (ok.cls cl hre).2
        rw [hd] at hk
        dsimp only at hk
        refine ⟨L.instance cl, cl, ?_, ?_, ?_, hk⟩
        · unfold Lib.start; rw [hre]; dsimp only; rw [hk]
        · simp only [Lib.instance, hk, ClassKind.isDict, ↓reduceIte]; rfl
        · unfold resultClass; rw [hd, hre]
    have hrs : readStart L (H a).types (some (natStr r)) ds1 = ({ value := some ds1.heap.length },
        (ds1.alloc d0).register (some (natStr r)) (.ref ds1.heap.length)) := by
      unfold readStart; rw [hst]
    have ho0 := open1 hg hi ha hr hh hm hsh htn d0
    have ho := open2 hg hi ha hr hh hm hsh htn d0 (L.instance rc)
    have hblank : (L.instance rc).data = .dict [] := by simp only [Lib.instance, hkind]; rfl
    rw [hrs] at hread
    have hread := hread _ _ rfl
    obtain ⟨l, dsC, φC, hri, st, hall, hget⟩ := entries_sim hs hp hn es [] [] _ xs s3 _ _ _ _
      (fun b h => by
        obtain ⟨e, he, heq⟩ := List.mem_map.mp h
        exact hg.closed a b ha (heq ▸ (values_dict hd e he).2))
      (fun e he => ⟨ok.vals _ (values_dict hd e he).1, ok.vals _ (values_dict hd e he).2⟩)
      (ok.keys es hd) .nil hblank ho.inv ho.get hit
    have hread := hread ⟨some ((ds1.alloc d0).register (some (natStr r)) (.ref ds1.heap.length)).heap.length, none, xsA, xsE⟩
      dsC (by
        rw [readChildren_one]
        show readDict _ _ _ _ _ _ = _
        unfold readDict
        rw [currentClass_eq _ ho0.get]
        dsimp only
        rw [hcc]
        unfold renew
        simp only [Xml.kids]
        rw [hri])
    obtain ⟨ds', φ', hf, st, hv⟩ := finish_close (names := L.startNames (H a).types ds1)
      (toStr := none) hs hn hg hi ha ho.hb
      (lt_of_get ho.get) ho.low st hget (hprops s3).1 (hprops s3).2 (instance_adapted hrc)
      (instance_extended hrc) hrc.symm (enumClass_none rfl (by rw [hkind]; rfl))
      (types_eq hcl hne ok.cls _ (fun h0 => by rw [hrc]; rfl))
      (by rw [dress_toStr _ _ rfl]; unfold resultString; rw [hd])
      (by rw [hd]; exact ⟨_, rfl, hall⟩)
    exact ⟨_, ds', φ', by rw [hread]; exact hf, st, hv⟩

theorem body_queue {items : List PVal} (hd : (H a).data = .queue items) :
    ∃ dv ds' φ', readObj L g x ds = .ok (dv, ds') ∧ Step L H S none ss ds φ ss' ds' φ' ∧
      VMatch φ' (.ref a) dv := by
  obtain ⟨xsA, s1, xsE, s2, c, ds1, tn, hA, hE, hc, hh, hm, hsh, htn, hread⟩ := body_reduce g hg hi ha hr he
  have hcl : ds1.Clean L := fun c m e => hi.clean c m (by rw [← hsh]; exact e)
  have ok := hg.objs a ha
  have hw : writtenTypes (H a) = (H a).types := by unfold writtenTypes; rw [hd]
  rw [hw, hd] at hread
  obtain ⟨rfl, hprops⟩ := container_props hp hg ha (by rw [hd]; trivial) hA hE
  -- the queue was not met before
  obtain ⟨k, hkey⟩ := Option.ne_none_iff_exists'.mp (ok.queue items hd)
  obtain ⟨hnew, hss1⟩ : ss.objRef.get? k = none ∧
      ss1 = { ss with objRef := ss.objRef.set k ss.nextId, nextId := ss.nextId + 1 } := by
    rcases getRefId_cases hi (H a).key with ⟨_, _, _, _, e⟩ | ⟨e0, _⟩ | ⟨k', hk', hnone, e⟩
    · rw [e] at hr; cases hr
    · rw [hkey] at e0; cases e0
    · rw [hkey] at hk'; cases hk'
      rw [e] at hr; cases hr
      exact ⟨hnone, rfl⟩
  have hfresh : ss1.drained.contains a = false := by
    rw [getRefId_drained hr]
    cases hcon : ss.drained.contains a with
    | false => rfl
    | true =>
      obtain ⟨k', hk', hne⟩ := hi.drained a (by simpa using hcon)
      rw [hkey] at hk'; cases hk'
      exact absurd hnew hne
  unfold serContent at hc
  rw [hd] at hc
  dsimp only at hc
  rw [hfresh] at hc
  simp only [Bool.false_eq_true, ↓reduceIte] at hc
  have hne : ∀ q, (H a).data ≠ .ext q := by intro q h; rw [hd] at h; cases h
  have hdr : ∀ {dsO : DState} {φO : Nat → Option Nat}, Inv L H S { ss1 with tnRefs := tn } dsO φO →
      Inv L H S { ss1 with tnRefs := tn, drained := a :: ss1.drained } dsO φO := by
    intro dsO φO h
    refine { h with drained := fun b hb => ?_ }
    rcases List.mem_cons.mp hb with rfl | hb
    · refine ⟨k, hkey, ?_⟩
      rw [hss1]
      dsimp only
      rw [Dict.get?_set_self]; simp
    · exact h.drained b hb
  cases hit : serItems f items { ss1 with tnRefs := tn, drained := a :: ss1.drained } with
  | error e => rw [hit] at hc; cases hc
  | ok q =>
    obtain ⟨xs, s3⟩ := q
    rw [hit] at hc
    obtain ⟨rfl, rfl⟩ : [.node .QUE {} [] xs] = c ∧ s3 = ss' := by cases hc; exact ⟨rfl, rfl⟩
    cases hre : L.reg.rehydrate (H a).types with
    | plain ns =>
      have hrc : resultClass L (H a) = some (txt! "PSQueue") := by unfold resultClass; rw [hd, hre]
      have hst : L.start (H a).types = .value { types := ns } := by unfold Lib.start; rw [hre]
      have hrs : readStart L (H a).types (some (natStr r)) ds1 = ({ value := some ds1.heap.length },
          (ds1.alloc { types := ns }).register (some (natStr r)) (.ref ds1.heap.length)) := by
        unfold readStart; rw [hst]
      have ho0 := open1 hg hi ha hr hh hm hsh htn { types := ns }
      have ho := open2 hg hi ha hr hh hm hsh htn { types := ns } (L.instance (txt! "PSQueue"))
      rw [hrs] at hread
      have hread := hread _ _ rfl
      obtain ⟨dvs, dsC, φC, hri, st, hall, hget⟩ := items_sim hs items _ xs s3 _ _ _ _
        (fun b h => hg.closed a b ha (values_queue hd _ h)) (fun v h => ok.vals v (values_queue hd v h))
        (hdr ho.inv) ho.get hit
      have hread := hread ⟨some ((ds1.alloc { types := ns }).register (some (natStr r)) (.ref ds1.heap.length)).heap.length, none, xsA, xsE⟩
        dsC (by
          rw [readChildren_one]
          show readQueue _ _ _ _ _ _ = _
          unfold readQueue
          rw [currentClass_eq _ ho0.get]
          dsimp only
          unfold renew
          simp only [Xml.kids]
          rw [hri])
      have hblank : (L.instance (txt! "PSQueue")).data = .queue [] := by
        unfold Lib.instance; dsimp only; rw [std.queue]; rfl
      obtain ⟨ds', φ', hf, st, hv⟩ := finish_close (names := L.startNames (H a).types ds1)
        (toStr := none) hs hn hg hi ha ho.hb
        (lt_of_get ho.get) ho.low st hget (hprops s3).1 (hprops s3).2 (instance_adapted hrc)
        (instance_extended hrc) hrc.symm (enumClass_none rfl (by rw [std.queue]; rfl))
        (types_eq hcl hne ok.cls _ (fun h0 => by rw [hrc]; rfl))
        (by rw [dress_toStr _ _ rfl]; unfold resultString; rw [hd])
        (by rw [hd, hblank, fold_push_queue]; exact ⟨_, rfl, hall⟩)
      exact ⟨_, ds', φ', by rw [hread]; exact hf, st, hv⟩
    | instance_ cl =>
      have hrc : resultClass L (H a) = some cl := by unfold resultClass; rw [hd, hre]
      have hk := (ok.cls cl hre).2
      rw [hd] at hk
      dsimp only at hk
      have hst : L.start (H a).types = .value (L.instance cl) := by
        unfold Lib.start; rw [hre]; dsimp only; rw [hk]
      have hrs : readStart L (H a).types (some (natStr r)) ds1 = ({ value := some ds1.heap.length },
          (ds1.alloc (L.instance cl)).register (some (natStr r)) (.ref ds1.heap.length)) := by
        unfold readStart; rw [hst]
      have ho := open1 hg hi ha hr hh hm hsh htn (L.instance cl)
      rw [hrs] at hread
      have hread := hread _ _ rfl
      obtain ⟨dvs, dsC, φC, hri, st, hall, hget⟩ := items_sim hs items _ xs s3 _ _ _ _
        (fun b h => hg.closed a b ha (values_queue hd _ h)) (fun v h => ok.vals v (values_queue hd v h))
        (hdr ho.inv) ho.get hit
      have hread := hread ⟨some ds1.heap.length, none, xsA, xsE⟩
        dsC (by
          rw [readChildren_one]
          show readQueue _ _ _ _ _ _ = _
          unfold readQueue
          rw [currentClass_eq _ ho.get]
          simp only [Lib.instance, hk, ClassKind.isQueue, ↓reduceIte, Xml.kids]
          unfold Lib.instance at hri
          simp only [hk] at hri
          rw [hri])
      have hblank : (L.instance cl).data = .queue [] := by simp only [Lib.instance, hk]; rfl
      obtain ⟨ds', φ', hf, st, hv⟩ := finish_close (names := L.startNames (H a).types ds1)
        (toStr := none) hs hn hg hi ha ho.hb
        (lt_of_get ho.get) ho.low st hget (hprops s3).1 (hprops s3).2 (instance_adapted hrc)
        (instance_extended hrc) hrc.symm (enumClass_none rfl (by rw [hk]; rfl))
        (types_eq hcl hne ok.cls _ (fun h0 => by rw [hrc]; rfl))
        (by rw [dress_toStr _ _ rfl]; unfold resultString; rw [hd])
        (by rw [hd, hblank, fold_push_queue]; exact ⟨_, rfl, hall⟩)
      exact ⟨_, ds', φ', by rw [hread]; exact hf, st, hv⟩

end

/-! ## The recursion -/

theorem simPlain_ser {E : TextEnv} (hE : ExtendsAscii E.uni) (L : Lib) (H : Heap) (n m : Nat) :
    SimPlain E (ser E H n) (deser E L (m + 1)) := by
  intro v ss x ss' hp hok h
  cases n with
  | zero => cases h
  | succ n =>
    cases v with
    | ref a => cases hp
    | nil => cases h; exact ⟨rfl, fun _ => rfl, fun _ => rfl⟩
    | bool b =>
      cases h
      refine ⟨rfl, fun _ => rfl, fun ds => ?_⟩
      cases b <;> rfl
    | prim p =>
      cases h
      exact ⟨rfl, fun _ => rfl, fun ds => deser_prim hE L hok m ds⟩

theorem sim_ser {E : TextEnv} (hE : ExtendsAscii E.uni) {L : Lib} (std : L.Standard) {H : Heap} {S : Nat → Prop}
    (hg : GoodGraph E L H S) : ∀ n m, n < m → Sim E L H S (ser E H n) (deser E L m) := by
  intro n
  induction n with
  | zero => intro m _ v ss x ss' ds φ _ _ _ h; cases h
  | succ n ih =>
    intro m hm
    obtain ⟨m, rfl⟩ : ∃ k, m = k + 1 := ⟨m - 1, by omega⟩
    obtain ⟨m, rfl⟩ : ∃ k, m = k + 1 := ⟨m - 1, by omega⟩
    intro v ss x ss' ds φ hS hok hi h
    cases v with
    | nil => cases h; exact ⟨_, ds, φ, rfl, .refl hi, rfl⟩
    | bool b =>
      cases h
      refine ⟨.bool b, ds, φ, ?_, .refl hi, rfl⟩
      cases b <;> rfl
    | prim p => cases h; exact ⟨_, ds, φ, deser_prim hE L hok _ ds, .refl hi, rfl⟩
    | ref a =>
      have ha := hS a rfl
      have ok := hg.objs a ha
      have hs := ih (m + 1) (by omega)
      have hp : SimPlain E (ser E H n) (deser E L (m + 1)) := simPlain_ser hE L H n m
      have hn : Nameless (deser E L (m + 1)) := fun k x s => deser_setName E L (m + 1) k x s
      have hsub : ∀ p : Prim, p.Ok E → ∀ ds, deser E L (m + 1) (primXml E p) ds = .ok (.prim p.norm, ds) :=
        fun p hp ds => deser_prim hE L hp m ds
      change serObj E (ser E H n) a (H a) ss = .ok (x, ss') at h
      unfold serObj at h
      have hbare : bareExt (H a) = none := by
        unfold bareExt
        cases hd : (H a).data with
        | ext p =>
          dsimp only
          refine if_neg fun hc => ?_
          rcases ok.ext p hd with h' | h'
          · exact h' hc.2
          · have : (H a).adapted.length ≤ p.ownProps := hc.1
            cases p <;> simp only [Prim.ownProps] at this <;> dsimp only at h' <;> omega
        | _ => rfl
      rw [hbare] at h
      dsimp only at h
      have fresh : ∀ r ss1, getRefId (H a).key ss = (r, false, ss1) →
          ∃ dv ds' φ', deser E L (m + 1 + 1) x ds = .ok (dv, ds') ∧ Step L H S none ss ds φ ss' ds' φ' ∧
            VMatch φ' (.ref a) dv := by
        intro r ss1 hr
        rw [hr] at h
        simp only [Bool.false_eq_true, ↓reduceIte] at h
        have htag : deser E L (m + 1 + 1) x ds = readObj L (deser E L (m + 1)) x ds := by
          obtain ⟨_, _, _, _, _, _, _, _, rfl⟩ := serBody_ok h
          rfl
        rw [htag]
        cases hd : (H a).data with
        | none => exact body_none hs hn hg hi ha hr h hd
        | ext p => exact body_ext hs hn hsub std hg hi ha hr h hd
        | enum p => exact body_enum hs hn hsub std hg hi ha hr h hd
        | list k l => exact body_list hs hp hn std hg hi ha hr h hd
        | queue l => exact body_queue hs hp hn std hg hi ha hr h hd
        | dict l => exact body_dict hs hp hn std hg hi ha hr h hd
      rcases getRefId_cases hi (H a).key with ⟨k, r, hk, hget, e⟩ | ⟨_, e⟩ | ⟨_, _, _, e⟩
      · rw [e] at h
        simp only [↓reduceIte] at h
        cases h
        obtain ⟨_, a', b, ha', hk', hm, hφ⟩ := hi.refs k r hget
        have : a' = a := hg.keys a' a ha' ha (by rw [hk']; simp) (by rw [hk', hk])
        subst this
        refine ⟨.ref b, ds, φ, ?_, .refl hi, ⟨b, rfl, hφ⟩⟩
        show (match ds.objMap.get? (natStr r) with
          | none => .error .keyError
          | some v => .ok (v, ds) : Except Err (DVal × DState)) = _
        rw [hm]
      · exact fresh _ _ e
      · exact fresh _ _ e

theorem clean_meta {L : Lib} {s : DState} (h : s.Clean L) (c : PyStr) : (s.classMeta L c).types = L.names c ∧
    (s.classMeta L c).adapted = (L.instance c).adapted ∧ (s.classMeta L c).extended = (L.instance c).extended := by
  unfold DState.classMeta
  cases e : s.shared.get? c with
  | none => exact ⟨rfl, rfl, rfl⟩
  | some m => exact h c m e

/-- Only members of registered enum classes come back as enum members. -/
theorem member_of_enum {E : TextEnv} {L : Lib} (std : L.Standard) {o : PObj} (ok : o.Ok E L) {c : PyStr}
    (h : resultClass L o = some c) (hk : (L.info c).kind.isEnum = true) :
    ∃ p, o.data = .enum p ∧ L.reg.rehydrate o.types = .instance_ c := by
  unfold resultClass at h
  cases hd : o.data with
  | ext p =>
    rw [hd] at h
    cases h
    rw [std.prim] at hk; cases hk
  | enum p =>
    rw [hd] at h
    cases hr : L.reg.rehydrate o.types with
    | instance_ c' => rw [hr] at h; cases h; exact ⟨p, rfl, rfl⟩
    | plain ns => rw [hr] at h; cases h; rw [std.prim] at hk; cases hk
  | none =>
    rw [hd] at h
    cases hr : L.reg.rehydrate o.types with
    | instance_ c' =>
      rw [hr] at h; cases h
      have := (ok.cls c hr).2
      rw [hd] at this; dsimp only at this; rw [this] at hk; cases hk
    | plain ns => rw [hr] at h; cases h
  | list k items =>
    rw [hd] at h
    cases hr : L.reg.rehydrate o.types with
    | instance_ c' =>
      rw [hr] at h; cases h
      have := (ok.cls c hr).2
      rw [hd] at this; dsimp only at this; rw [this] at hk; cases hk
    | plain ns => rw [hr] at h; cases h; rw [std.list] at hk; cases hk
  | queue items =>
    rw [hd] at h
    cases hr : L.reg.rehydrate o.types with
    | instance_ c' =>
      rw [hr] at h; cases h
      have := (ok.cls c hr).2
      rw [hd] at this; dsimp only at this; rw [this] at hk; cases hk
    | plain ns => rw [hr] at h; cases h; rw [std.queue] at hk; cases hk
  | dict es =>
    rw [hd] at h
    cases hr : L.reg.rehydrate o.types with
    | instance_ c' =>
      rw [hr] at h; cases h
      have := (ok.cls c hr).2
      rw [hd] at this; dsimp only at this; rw [this] at hk; cases hk
    | plain ns => rw [hr] at h; cases h; rw [std.dict] at hk; cases hk

/-- What is shown of an object matches as the object does. -/
theorem shown_match {E : TextEnv} {L : Lib} (std : L.Standard) {s : DState} (hcl : s.Clean L) {o : PObj}
    (ok : o.Ok E L) {φ : Nat → Option Nat} {d : DObj} (m : OMatch L φ o d) : OMatch L φ o (s.shown L d) := by
  unfold DState.shown
  cases he : L.enumClass d with
  | none => exact m
  | some c =>
    have hc : d.cls = some c ∧ (L.info c).kind.isEnum = true := by
      unfold Lib.enumClass at he
      cases hd : d.cls with
      | none => rw [hd] at he; cases he
      | some c' =>
        rw [hd] at he
        dsimp only at he
        cases hk : (L.info c').kind.isEnum with
        | false => rw [hk] at he; cases he
        | true => rw [hk] at he; cases he; exact ⟨rfl, hk⟩
    have hrc : resultClass L o = some c := by rw [← m.cls]; exact hc.1
    obtain ⟨p, hp, hr⟩ := member_of_enum std ok hrc hc.2
    have hcls := (ok.cls c hr).2
    rw [hp] at hcls
    obtain ⟨_, ha0, he0⟩ := hcls
    obtain ⟨h1, h2, h3⟩ := clean_meta hcl c
    refine { cls := m.cls, types := ?_, string := .inl ⟨p, c, hp, hr⟩, data := m.data, adapted := ?_, extended := ?_ }
    · show (s.classMeta L c).types = _
      rw [h1]
      unfold resultTypes
      rw [hp, hr]
      cases ht : o.types with
      | nil => rw [ht] at hr; cases hr
      | cons t ts => rfl
    · show All2 _ (arranged _ _ o.adapted) (s.classMeta L c).adapted
      rw [h2, ha0, instance_adapted hrc]; exact blank_match _ _
    · show All2 _ (arranged _ _ o.extended) (s.classMeta L c).extended
      rw [h3, he0, instance_extended hrc]; exact blank_match _ _

theorem inv_empty (L : Lib) (H : Heap) (S : Nat → Prop) : Inv L H S {} {} fun _ => none where
  refs := fun _ _ h => by cases h
  tns := fun i _ h => by simp at h
  dom := fun _ _ h => by cases h
  keyed := fun _ _ _ h => by cases h
  drained := fun _ h => by cases h
  clean := fun _ _ h => by cases h

theorem good_reach {E : TextEnv} {L : Lib} {H : Heap} {roots : List PVal} (h : GraphOk E L H roots) :
    GoodGraph E L H (Reach H roots) where
  objs := h.objs
  closed := fun _ _ ha hb => .step ha hb
  keys := h.keys
  types := h.types

end Verif
