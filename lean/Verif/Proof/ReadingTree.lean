import Verif.Proof.Reading
import Verif.Proof.SerializerShared

/-! # Reading progress records, dicts and enums -/

namespace Verif

/-! ## Progress records -/

theorem findText_iff (kids : List Xml) (tag : Tag) (o : Option PyStr) : findText kids tag = o ↔ ChildText kids tag o := by
  have key : ChildText kids tag (findText kids tag) := by
    unfold findText
    cases hf : kids.find? (·.tag = tag) with
    | none =>
      exact .absent fun x hx => by simpa using List.find?_eq_none.mp hf x hx
    | some x =>
      obtain ⟨hx, pre, post, hk, hp⟩ := List.find?_eq_some_iff_append.mp hf
      dsimp only
      by_cases he : x.text = []
      · rw [if_pos he]
        exact .empty hk (fun y hy => by simpa using hp y hy) (by simpa using hx) he
      · rw [if_neg he]
        exact .text hk (fun y hy => by simpa using hp y hy) (by simpa using hx) he
  have find : ∀ {pre post : List Xml} {x : Xml}, kids = pre ++ x :: post → (∀ y ∈ pre, y.tag ≠ tag) → x.tag = tag →
      kids.find? (·.tag = tag) = some x := by
    intro pre post x hk hp ht
    exact List.find?_eq_some_iff_append.mpr ⟨by simpa using ht, pre, post, hk, fun y hy => by simpa using hp y hy⟩
  constructor
  · rintro rfl; exact key
  · intro h
    unfold findText
    cases h with
    | absent h => rw [List.find?_eq_none.mpr (fun x hx => by simpa using h x hx)]
    | empty hk hp ht he => rw [find hk hp ht]; dsimp only; rw [if_pos he]
    | text hk hp ht he => rw [find hk hp ht]; dsimp only; rw [if_neg he]

theorem progressInt_iff (kids : List Xml) (tag : Tag) (o : Option Int) : readProgressInt kids tag = .ok o ↔
    (o = none ∧ ChildText kids tag none) ∨
      ∃ v t, o = some v ∧ ChildText kids tag (some t) ∧ IntegerText v t ∧ IntKind.psInt.InRange v := by
  unfold readProgressInt
  simp only [← findText_iff]
  cases findText kids tag with
  | none =>
    constructor
    · intro h; cases h; exact .inl ⟨rfl, rfl⟩
    · rintro (⟨rfl, _⟩ | ⟨v, t, _, h, _⟩)
      · rfl
      · cases h
  | some t =>
    dsimp only
    cases hi : intOfText t with
    | error e =>
      dsimp only
      constructor
      · intro h; cases h
      · rintro (⟨_, h⟩ | ⟨v, t', _, h, ht, _⟩)
        · cases h
        · cases h; rw [(intOfText_iff _ _).mpr ht] at hi; cases hi
    | ok v =>
      dsimp only
      have hv := (intOfText_iff _ _).mp hi
      constructor
      · intro h
        cases hn : IntKind.psInt.new (.number v) with
        | error e => rw [hn] at h; cases h
        | ok w =>
          rw [hn] at h
          obtain ⟨rfl, hr⟩ := (IntKind.new_number _ _ _).mp hn
          cases h
          exact .inr ⟨_, t, rfl, rfl, hv, hr⟩
      · rintro (⟨_, h⟩ | ⟨w, t', rfl, h, ht, hr⟩)
        · cases h
        · cases h
          rw [(intOfText_iff _ _).mpr ht] at hi
          cases hi
          rw [(IntKind.new_number _ _ _).mpr ⟨rfl, hr⟩]; rfl

theorem progressText_iff (kids : List Xml) (tag : Tag) (o : Option PyStr) : readProgressText kids tag = .ok o ↔
    (o = none ∧ ChildText kids tag none) ∨ ∃ s, o = some s ∧ TextIs kids tag s := by
  unfold readProgressText TextIs
  simp only [← findText_iff]
  cases findText kids tag with
  | none =>
    constructor
    · intro h; cases h; exact .inl ⟨rfl, rfl⟩
    · rintro (⟨rfl, _⟩ | ⟨s, _, t, h, _⟩)
      · rfl
      · cases h
  | some t =>
    dsimp only
    constructor
    · intro h
      cases hd : deserializeString t with
      | error e => rw [hd] at h; cases h
      | ok s => rw [hd] at h; cases h; exact .inr ⟨s, rfl, t, rfl, hd⟩
    · rintro (⟨_, h⟩ | ⟨s, rfl, t', h, hd⟩)
      · cases h
      · cases h; rw [hd]; rfl

theorem progressType_iff (kids : List Xml) (b : Bool) : readProgressType kids = .ok b ↔
    (b = false ∧ (ChildText kids .T none ∨ TextIs kids .T (txt! "Processing"))) ∨
      (b = true ∧ TextIs kids .T (txt! "Completed")) := by
  have key := progressText_iff kids .T
  unfold readProgressType
  constructor
  · intro h
    cases ht : readProgressText kids .T with
    | error e => rw [ht] at h; cases h
    | ok o =>
      rw [ht] at h
      rcases (key o).mp ht with ⟨rfl, h1⟩ | ⟨s, rfl, h1⟩
      · cases h; exact .inl ⟨rfl, .inl h1⟩
      · dsimp only at h
        split at h
        · rename_i e; cases h; rw [e] at h1; exact .inl ⟨rfl, .inr h1⟩
        · split at h
          · rename_i e; cases h; rw [e] at h1; exact .inr ⟨rfl, h1⟩
          · cases h
  · rintro (⟨rfl, h | h⟩ | ⟨rfl, h⟩)
    · rw [(key none).mpr (.inl ⟨rfl, h⟩)]
    · rw [(key (some _)).mpr (.inr ⟨_, rfl, h⟩)]; rfl
    · rw [(key (some _)).mpr (.inr ⟨_, rfl, h⟩)]; rfl

theorem numberOr_iff (kids : List Xml) (tag : Tag) (v : Int) : (∃ o, readProgressInt kids tag = .ok o ∧ v = o.getD (-1)) ↔
    NumberOr kids tag (-1) v := by
  unfold NumberOr
  constructor
  · rintro ⟨o, h, rfl⟩
    rcases (progressInt_iff _ _ _).mp h with ⟨rfl, h'⟩ | ⟨w, t, rfl, h'⟩
    · exact .inl ⟨h', rfl⟩
    · exact .inr ⟨t, h'⟩
  · rintro (⟨h, rfl⟩ | ⟨t, h⟩)
    · exact ⟨none, (progressInt_iff _ _ _).mpr (.inl ⟨rfl, h⟩), rfl⟩
    · exact ⟨some v, (progressInt_iff _ _ _).mpr (.inr ⟨v, t, rfl, h⟩), rfl⟩

theorem readProgress_iff (kids : List Xml) (r : Progress) : readProgress kids = .ok r ↔ ProgressOf kids r := by
  constructor
  · intro h
    unfold readProgress at h
    cases h1 : readProgressText kids .AV with
    | error e => rw [h1] at h; cases h
    | ok activity =>
    rw [h1] at h; dsimp only at h
    cases h2 : readProgressInt kids .AI with
    | error e => rw [h2] at h; cases h
    | ok id =>
    rw [h2] at h; dsimp only at h
    cases h3 : readProgressText kids .S with
    | error e => rw [h3] at h; cases h
    | ok operation =>
    rw [h3] at h; dsimp only at h
    cases h4 : readProgressInt kids .PI with
    | error e => rw [h4] at h; cases h
    | ok parent =>
    rw [h4] at h; dsimp only at h
    cases h5 : readProgressInt kids .PC with
    | error e => rw [h5] at h; cases h
    | ok percent =>
    rw [h5] at h; dsimp only at h
    cases h6 : readProgressType kids with
    | error e => rw [h6] at h; cases h
    | ok completed =>
    rw [h6] at h; dsimp only at h
    cases h7 : readProgressInt kids .SR with
    | error e => rw [h7] at h; cases h
    | ok seconds =>
    rw [h7] at h; dsimp only at h
    cases h8 : readProgressText kids .SD with
    | error e => rw [h8] at h; cases h
    | ok status =>
    rw [h8] at h; dsimp only at h
    unfold newProgress at h
    split at h
    · rename_i i a d
      cases h
      refine ⟨?_, ?_, ?_, ?_, ⟨_, rfl, (numberOr_iff _ _ _).mp ⟨_, h4, rfl⟩⟩, ⟨_, rfl, (numberOr_iff _ _ _).mp ⟨_, h5, rfl⟩⟩,
        ⟨_, rfl, (numberOr_iff _ _ _).mp ⟨_, h7, rfl⟩⟩, (progressType_iff _ _).mp h6⟩
      · rcases (progressText_iff _ _ _).mp h1 with ⟨e, _⟩ | ⟨s, e, h⟩ <;> cases e
        exact h
      · rcases (progressText_iff _ _ _).mp h8 with ⟨e, _⟩ | ⟨s, e, h⟩ <;> cases e
        exact h
      · rcases (progressInt_iff _ _ _).mp h2 with ⟨e, _⟩ | ⟨v, t, e, h⟩ <;> cases e
        exact ⟨_, t, rfl, h⟩
      · rcases (progressText_iff _ _ _).mp h3 with ⟨e, h⟩ | ⟨s, e, h⟩
        · exact .inl ⟨h, e⟩
        · exact .inr ⟨s, e, h⟩
    · cases h
  · rintro ⟨ha, hs, ⟨i, t, hi, hit⟩, ho, ⟨pa, hpa, hpa'⟩, ⟨pc, hpc, hpc'⟩, ⟨se, hse, hse'⟩, hty⟩
    obtain ⟨o4, h4, e4⟩ := (numberOr_iff _ _ _).mpr hpa'
    obtain ⟨o5, h5, e5⟩ := (numberOr_iff _ _ _).mpr hpc'
    obtain ⟨o7, h7, e7⟩ := (numberOr_iff _ _ _).mpr hse'
    have h3 : readProgressText kids .S = .ok r.operation := by
      rcases ho with ⟨h, e⟩ | ⟨s, e, h⟩
      · rw [e]; exact (progressText_iff _ _ _).mpr (.inl ⟨rfl, h⟩)
      · rw [e]; exact (progressText_iff _ _ _).mpr (.inr ⟨s, rfl, h⟩)
    have h1 := (progressText_iff _ _ _).mpr (.inr ⟨_, rfl, ha⟩)
    have h8 := (progressText_iff _ _ _).mpr (.inr ⟨_, rfl, hs⟩)
    have h2 := (progressInt_iff _ _ _).mpr (.inr ⟨_, _, rfl, hit⟩)
    have h6 := (progressType_iff _ _).mpr hty
    unfold readProgress
    rw [h1]; dsimp only
    rw [h2]; dsimp only
    rw [h3]; dsimp only
    rw [h4]; dsimp only
    rw [h5]; dsimp only
    rw [h6]; dsimp only
    rw [h7]; dsimp only
    rw [h8]
    cases r
    dsimp only at *
    unfold newProgress
    simp only [hi, hpa, hpc, hse, e4, e5, e7]

/-! ## Dicts -/

theorem SameKey.symm {k l : DVal} (h : SameKey k l) : SameKey l k := by
  cases h with
  | number hk hl => exact .number hl hk
  | text => exact .text
  | bytes => exact .bytes
  | infinite hk hl => exact .infinite hl hk
  | guid => exact .guid
  | date h t => exact .date h.symm t.symm
  | nil => exact .nil

theorem NumberKey.hash {k : DVal} {n : Rat} (h : NumberKey k n) (s : DState) : hashKey s k = .ok (.num n) := by
  cases h with
  | bool => rename_i b; cases b <;> rfl
  | int => rfl
  | plain => rfl
  | char => rfl
  | decimal => show Except.ok (HKey.num _) = _; rw [signedRat_decimal]
  | float => show Except.ok (HKey.num _) = _; rw [signedRat_float]

theorem InfiniteKey.hash {k : DVal} {neg : Bool} (h : InfiniteKey k neg) (s : DState) : hashKey s k = .ok (.infinity neg) := by
  cases h <;> rfl

theorem SameKey.hash {k l : DVal} (h : SameKey k l) (s : DState) :
    ∃ x, hashKey s k = .ok x ∧ hashKey s l = .ok x ∧ x ≠ .nan := by
  cases h with
  | number hk hl => exact ⟨_, hk.hash s, hl.hash s, by simp⟩
  | text => exact ⟨_, rfl, rfl, by simp⟩
  | bytes => exact ⟨_, rfl, rfl, by simp⟩
  | infinite hk hl => exact ⟨_, hk.hash s, hl.hash s, by simp⟩
  | guid => exact ⟨_, rfl, rfl, by simp⟩
  | date h t =>
    rename_i v w
    exact ⟨.date v.offset.isSome v.instantMicros, by rw [← micros_eq]; rfl, by rw [t, h, ← micros_eq]; rfl, by simp⟩
  | nil => exact ⟨_, rfl, rfl, by simp⟩

/-- A key that is like itself, and its hash. -/
inductive KeyHash : DVal → HKey → Prop
  | number {k : DVal} {n : Rat} (h : NumberKey k n) : KeyHash k (.num n)
  | text {i : StrKind} {s : PyStr} : KeyHash (.prim (.str i s)) (.text s)
  | bytes {b : Bytes} : KeyHash (.prim (.bytes b)) (.bytes b)
  | infinite {k : DVal} {neg : Bool} (h : InfiniteKey k neg) : KeyHash k (.infinity neg)
  | guid {n : Nat} : KeyHash (.prim (.guid n)) (.prim (.guid n))
  | date {v : DateFields} : KeyHash (.prim (.date v)) (.date v.offset.isSome v.instantMicros)
  | nil : KeyHash .nil .nil

theorem KeyHash.eq {k : DVal} {x : HKey} (h : KeyHash k x) (s : DState) : hashKey s k = .ok x := by
  cases h with
  | number h => exact h.hash s
  | infinite h => exact h.hash s
  | date => rw [← micros_eq]; rfl
  | _ => rfl

theorem SameKey.keyHash {k : DVal} (h : SameKey k k) : ∃ x, KeyHash k x := by
  generalize hl : k = l at h
  cases h with
  | number hk _ => exact ⟨_, .number hk⟩
  | text => exact ⟨_, .text⟩
  | bytes => exact ⟨_, .bytes⟩
  | infinite hk _ => exact ⟨_, .infinite hk⟩
  | guid => exact ⟨_, .guid⟩
  | date => exact ⟨_, .date⟩
  | nil => exact ⟨_, .nil⟩

theorem KeyHash.same {k l : DVal} {x : HKey} (hk : KeyHash k x) (hl : KeyHash l x) : SameKey k l := by
  cases hk with
  | number h => cases hl with | number h' => exact .number h h'
  | text => cases hl with | text => exact .text
  | bytes => cases hl with | bytes => exact .bytes
  | infinite h => cases hl with | infinite h' => exact .infinite h h'
  | guid => cases hl with | guid => exact .guid
  | date =>
    generalize hx : HKey.date _ _ = x at hl
    cases hl with
    | date => injection hx with h1 h2; exact .date h1 h2
    | _ => cases hx
  | nil => cases hl with | nil => exact .nil

theorem sameKey_of_hash {k l : DVal} (hk : SameKey k k) (hl : SameKey l l) (s : DState) (h : hashKey s k = hashKey s l) :
    SameKey k l := by
  obtain ⟨x, hx⟩ := hk.keyHash
  obtain ⟨y, hy⟩ := hl.keyHash
  rw [hx.eq, hy.eq] at h
  cases h
  exact hx.same hy

theorem SameKey.refl_left {k l : DVal} (h : SameKey k l) : SameKey k k := by
  cases h with
  | number hk hl => exact .number hk hk
  | text => exact .text
  | bytes => exact .bytes
  | infinite hk hl => exact .infinite hk hk
  | guid => exact .guid
  | date h t => exact .date rfl rfl
  | nil => exact .nil

theorem SameKey.trans {k l m : DVal} (h : SameKey k l) (h' : SameKey l m) : SameKey k m := by
  obtain ⟨x, h1, h2, _⟩ := h.hash {}
  obtain ⟨y, h3, h4, _⟩ := h'.hash {}
  rw [h2] at h3; cases h3
  exact sameKey_of_hash h.refl_left h'.symm.refl_left {} (h1.trans h4.symm)

theorem firstKey_snoc (es : List (DVal × DVal)) (k v k0 : DVal) : FirstKey (es ++ [(k, v)]) k0 ↔
    FirstKey es k0 ∨ (k0 = k ∧ ∀ e ∈ es, ¬ SameKey e.1 k) := by
  constructor
  · rintro ⟨pre, w, post, he, hp⟩
    rcases List.eq_nil_or_concat post with rfl | ⟨post, z, rfl⟩
    · have := List.append_inj' he rfl
      obtain ⟨rfl, h2⟩ := this
      cases h2
      exact .inr ⟨rfl, hp⟩
    · rw [List.concat_eq_append, ← List.cons_append, ← List.append_assoc] at he
      exact .inl ⟨pre, w, post, (List.append_inj' he rfl).1, hp⟩
  · rintro (⟨pre, w, post, rfl, hp⟩ | ⟨rfl, h⟩)
    · exact ⟨pre, w, post ++ [(k, v)], by simp, hp⟩
    · exact ⟨es, v, [], rfl, h⟩

theorem lastValue_snoc (es : List (DVal × DVal)) (k v k0 v0 : DVal) : LastValue (es ++ [(k, v)]) k0 v0 ↔
    (SameKey k k0 ∧ v0 = v) ∨ (¬ SameKey k k0 ∧ LastValue es k0 v0) := by
  constructor
  · rintro ⟨pre, l, post, he, hs, hp⟩
    rcases List.eq_nil_or_concat post with rfl | ⟨post, z, rfl⟩
    · obtain ⟨rfl, h2⟩ := List.append_inj' he rfl
      cases h2
      exact .inl ⟨hs, rfl⟩
    · rw [List.concat_eq_append, ← List.cons_append, ← List.append_assoc] at he
      obtain ⟨h1, h2⟩ := List.append_inj' he rfl
      cases h2
      exact .inr ⟨hp (k, v) (by simp), pre, l, post, h1, hs, fun e he => hp e (by simp [he])⟩
  · rintro (⟨hs, rfl⟩ | ⟨hn, pre, l, post, rfl, hs, hp⟩)
    · exact ⟨es, k, [], rfl, hs, by simp⟩
    · refine ⟨pre, l, post ++ [(k, v)], by simp, hs, ?_⟩
      intro e he
      rcases List.mem_append.mp he with he | he
      · exact hp e he
      · cases List.mem_singleton.mp he; exact hn

theorem dictSet_fresh (s : DState) {h : HKey} {k v : DVal} : ∀ {ds : List (DVal × DVal)},
    (∀ e ∈ ds, hashKey s e.1 ≠ .ok h) → dictSet s h k v ds = ds ++ [(k, v)]
  | [], _ => rfl
  | (k', v') :: ds, hd => by
    rw [dictSet, if_neg (fun hc => hd (k', v') (by simp) hc.1), dictSet_fresh s (fun e he => hd e (by simp [he]))]; rfl

theorem dictSet_old (s : DState) {h : HKey} {k v k' v' : DVal} : ∀ {a c : List (DVal × DVal)},
    (∀ e ∈ a, hashKey s e.1 ≠ .ok h) → hashKey s k' = .ok h ∧ h ≠ .nan →
    dictSet s h k v (a ++ (k', v') :: c) = a ++ (k', v) :: c
  | [], _, _, hk => by rw [List.nil_append, dictSet, if_pos hk]; rfl
  | (l, w) :: a, c, hd, hk => by
    rw [List.cons_append, dictSet, if_neg (fun hc => hd (l, w) (by simp) hc.1), dictSet_old s (fun e he => hd e (by simp [he])) hk]; rfl

/-- The dict so far, and that no key is missing. -/
structure DictInv (es ds : List (DVal × DVal)) : Prop where
  dict : DictOf es ds
  keys : ∀ e ∈ es, SameKey e.1 e.1
  cover : ∀ e ∈ es, ∃ d ∈ ds, SameKey d.1 e.1

theorem DictInv.from_ {es ds : List (DVal × DVal)} (h : DictInv es ds) {d : DVal × DVal} (hd : d ∈ ds) :
    ∃ e ∈ es, e.1 = d.1 := by
  have := h.dict.order.subset (List.mem_map_of_mem hd)
  obtain ⟨e, he, h1⟩ := List.mem_map.mp this
  exact ⟨e, he, h1⟩

theorem dict_step {es ds : List (DVal × DVal)} (H : DictInv es ds) (s : DState) {k v : DVal} {h : HKey}
    (hk : SameKey k k) (hh : hashKey s k = .ok h) : DictInv (es ++ [(k, v)]) (dictSet s h k v ds) := by
  have hkeys : ∀ e ∈ es ++ [(k, v)], SameKey e.1 e.1 := by
    intro e he
    rcases List.mem_append.mp he with he | he
    · exact H.keys e he
    · cases List.mem_singleton.mp he; exact hk
  have same : ∀ d ∈ ds, (hashKey s d.1 = .ok h ↔ SameKey d.1 k) := by
    intro d hd
    obtain ⟨e, he, e1⟩ := H.from_ hd
    have hdk := H.keys e he
    rw [e1] at hdk
    constructor
    · intro hx; exact sameKey_of_hash hdk hk s (hx.trans hh.symm)
    · intro hx
      obtain ⟨y, h1, h2, _⟩ := hx.hash s
      rw [h2] at hh; cases hh; exact h1
  have nan : h ≠ .nan := by
    obtain ⟨y, h1, _, h3⟩ := hk.hash s
    rw [h1] at hh; cases hh; exact h3
  by_cases hn : ∀ d ∈ ds, ¬ SameKey d.1 k
  · rw [dictSet_fresh s (fun e he hx => hn e he ((same e he).mp hx))]
    have hes : ∀ e ∈ es, ¬ SameKey e.1 k := by
      intro e he hx
      obtain ⟨d, hd, hd'⟩ := H.cover e he
      exact hn d hd (hd'.trans hx)
    refine ⟨⟨?_, ?_, ?_⟩, hkeys, ?_⟩
    · intro k0 v0
      rw [firstKey_snoc, lastValue_snoc, List.mem_append]
      constructor
      · rintro (h0 | h0)
        · obtain ⟨f, l⟩ := (H.dict.entry k0 v0).mp h0
          exact ⟨.inl f, .inr ⟨fun hx => hn _ h0 hx.symm, l⟩⟩
        · cases List.mem_singleton.mp h0
          exact ⟨.inr ⟨rfl, hes⟩, .inl ⟨hk, rfl⟩⟩
      · rintro ⟨f | ⟨rfl, _⟩, ⟨hs, rfl⟩ | ⟨hs, l⟩⟩
        · obtain ⟨pre, w, post, e, _⟩ := f
          exact absurd hs.symm (hes (k0, w) (by rw [e]; simp))
        · exact .inl ((H.dict.entry k0 v0).mpr ⟨f, l⟩)
        · exact .inr (by simp)
        · exact absurd hk hs
    · rw [List.pairwise_append]
      exact ⟨H.dict.once, by simp, fun a ha b hb => by cases List.mem_singleton.mp hb; exact hn a ha⟩
    · rw [List.map_append, List.map_append]
      exact List.Sublist.append H.dict.order (List.Sublist.refl _)
    · intro e he
      rcases List.mem_append.mp he with he | he
      · obtain ⟨d, hd, hx⟩ := H.cover e he
        exact ⟨d, by simp [hd], hx⟩
      · cases List.mem_singleton.mp he
        exact ⟨(k, v), by simp, hk⟩
  · obtain ⟨⟨k', v'⟩, hd, hx⟩ : ∃ d ∈ ds, SameKey d.1 k := by
      apply Classical.byContradiction
      intro hc
      exact hn fun d hd hs => hc ⟨d, hd, hs⟩
    obtain ⟨a, c, hac⟩ := List.append_of_mem hd
    have once := H.dict.once
    rw [hac, List.pairwise_append, List.pairwise_cons] at once
    obtain ⟨oa, ⟨oc, occ⟩, oac⟩ := once
    have na : ∀ e ∈ a, ¬ SameKey e.1 k := fun e he hs => oac e he (k', v') (by simp) (hs.trans hx.symm)
    have nc : ∀ e ∈ c, ¬ SameKey e.1 k := fun e he hs => oc e he (hx.trans hs.symm)
    have hset : dictSet s h k v ds = a ++ (k', v) :: c := by
      rw [hac]
      refine dictSet_old s (fun e he hy => na e he ?_) ⟨(same _ hd).mpr hx, nan⟩
      exact (same e (by rw [hac]; simp [he])).mp hy
    rw [hset]
    have hkeysd : (a ++ (k', v) :: c).map Prod.fst = ds.map Prod.fst := by rw [hac]; simp
    obtain ⟨e0, he0, e1⟩ := H.from_ hd
    have hfirst : ∀ k0, FirstKey (es ++ [(k, v)]) k0 ↔ FirstKey es k0 := by
      intro k0
      rw [firstKey_snoc]
      refine ⟨fun h => h.elim id fun h => ?_, .inl⟩
      exact absurd (by rw [e1]; exact hx) (h.2 e0 he0)
    refine ⟨⟨?_, ?_, ?_⟩, hkeys, ?_⟩
    · intro k0 v0
      rw [hfirst, lastValue_snoc]
      constructor
      · intro hm
        rcases List.mem_append.mp hm with hm | hm
        · obtain ⟨f, l⟩ := (H.dict.entry k0 v0).mp (by rw [hac]; simp [hm])
          exact ⟨f, .inr ⟨fun hs => na _ hm hs.symm, l⟩⟩
        · rcases List.mem_cons.mp hm with hm | hm
          · cases hm
            exact ⟨((H.dict.entry k' v').mp hd).1, .inl ⟨hx.symm, rfl⟩⟩
          · obtain ⟨f, l⟩ := (H.dict.entry k0 v0).mp (by rw [hac]; simp [hm])
            exact ⟨f, .inr ⟨fun hs => nc _ hm hs.symm, l⟩⟩
      · rintro ⟨f, ⟨hs, rfl⟩ | ⟨hs, l⟩⟩
        · -- the first key that is the same as the new one is `k'`
          obtain ⟨pre, w, post, e, hp⟩ := f
          obtain ⟨pre', w', post', e', hp'⟩ := ((H.dict.entry k' v').mp hd).1
          have hkk : SameKey k' k0 := hx.trans hs
          have : k0 = k' := by
            rw [e] at e'
            rcases List.append_eq_append_iff.mp e' with ⟨as, h1, h2⟩ | ⟨bs, h1, h2⟩
            · cases as with
              | nil => cases h2; rfl
              | cons z as =>
                cases h2
                exact absurd hkk.symm (hp' (k0, w) (by rw [h1]; simp))
            · cases bs with
              | nil => cases h2; rfl
              | cons z bs =>
                cases h2
                exact absurd hkk (hp (k', w') (by rw [h1]; simp))
          rw [this]; simp
        · have hm := (H.dict.entry k0 v0).mpr ⟨f, l⟩
          rw [hac] at hm
          rcases List.mem_append.mp hm with hm | hm
          · simp [hm]
          · rcases List.mem_cons.mp hm with hm | hm
            · cases hm; exact absurd hx.symm hs
            · simp [hm]
    · rw [List.pairwise_append, List.pairwise_cons]
      refine ⟨oa, ⟨fun b hb => oc b hb, occ⟩, ?_⟩
      intro x hxa y hy
      rcases List.mem_cons.mp hy with rfl | hy
      · exact oac x hxa (k', v') (by simp)
      · exact oac x hxa y (by simp [hy])
    · rw [hkeysd, List.map_append]
      exact H.dict.order.trans (List.sublist_append_left _ _)
    · intro e he
      have : ∃ d ∈ ds, SameKey d.1 e.1 := by
        rcases List.mem_append.mp he with he | he
        · exact H.cover e he
        · cases List.mem_singleton.mp he; exact ⟨_, hd, hx⟩
      obtain ⟨d, hd, hy⟩ := this
      have := List.mem_map_of_mem (f := Prod.fst) hd
      rw [← hkeysd] at this
      obtain ⟨d', h1, h2⟩ := List.mem_map.mp this
      exact ⟨d', h1, by rw [h2]; exact hy⟩

theorem dict_start : DictInv [] [] := by
  refine ⟨⟨?_, .nil, List.Sublist.refl _⟩, by simp, by simp⟩
  intro k v
  constructor
  · intro h; cases h
  · rintro ⟨⟨pre, w, post, h, _⟩, _⟩
    cases pre <;> cases h

/-- The elements of the entries, each of which is read without an effect on the state. -/
def Reads (g : Xml → DState → Except Err (DVal × DState)) (x : Xml) (e : DVal × DVal) : Prop :=
  ∃ xk xv, findNamed (txt! "Key") x = .ok xk ∧ findNamed (txt! "Value") x = .ok xv ∧
    (∀ s, g xk s = .ok (e.1, s)) ∧ ∀ s, g xv s = .ok (e.2, s)

theorem read_entries {g : Xml → DState → Except Err (DVal × DState)} {b : Nat} {xs : List Xml} {new : List (DVal × DVal)}
    (hx : All2 (Reads g) xs new) (hk : ∀ e ∈ new, SameKey e.1 e.1) : ∀ (s : DState) (d : DObj) (old ds : List (DVal × DVal)),
    s.heap[b]? = some d → d.data = .dict ds → DictInv old ds →
    ∃ s' d' ds', readEntries g b xs s = .ok s' ∧ s'.heap[b]? = some d' ∧ d'.data = .dict ds' ∧ d'.cls = d.cls ∧
      DictInv (old ++ new) ds' := by
  induction hx with
  | nil =>
    intro s d old ds hb hd hi
    exact ⟨s, d, ds, rfl, hb, hd, rfl, by rw [List.append_nil]; exact hi⟩
  | @cons x e xs new h hx ih =>
    intro s d old ds hb hd hi
    obtain ⟨xk, xv, h1, h2, h3, h4⟩ := h
    have he := hk e (by simp)
    obtain ⟨hh, hs, _⟩ := he.hash s
    rw [readEntries, h1]; dsimp only
    rw [h2]; dsimp only
    rw [h4]; dsimp only
    rw [h3]; dsimp only
    rw [hs]; dsimp only
    have hb' : (s.update b fun d => { d with data := d.data.put s hh e.1 e.2 }).heap[b]? =
        some { d with data := d.data.put s hh e.1 e.2 } := by
      unfold DState.update
      dsimp only
      rw [List.getElem?_modify, hb]
      simp
    obtain ⟨s', d', ds', r1, r2, r3, r4, r5⟩ := ih (fun e he => hk e (by simp [he])) _ _ (old ++ [e]) _ hb'
      (by dsimp only; rw [hd]; rfl) (dict_step hi s he hs)
    refine ⟨s', d', ds', r1, r2, r3, r4, ?_⟩
    rw [List.append_assoc] at r5
    exact r5

theorem readObj_typed {L : Lib} {g : Xml → DState → Except Err (DVal × DState)} {x : Xml} {s s1 : DState} {types : List PyStr}
    (h : readTypes x.kids s = .ok (types, s1)) : readObj L g x s =
      match readChildren L g types x.attrs.refId x.kids (readStart L types x.attrs.refId s1).1
        (readStart L types x.attrs.refId s1).2 with
      | .error e => .error e
      | .ok (c, s') => readFinish L g (L.startNames types s1) c s' := by
  unfold readObj
  rw [h]
  rfl

theorem read_dict (E : TextEnv) (L : Lib) (std : L.Standard) (n : Nat) (ref da : Attrs) (xs : List Xml)
    (es : List (DVal × DVal)) (hx : All2 (Reads (deser E L n)) xs es) (hk : ∀ e ∈ es, SameKey e.1 e.1) (s : DState) :
    ∃ b d ds s', deser E L (n + 1) (.node .Obj ref [] [.node .DCT da [] xs]) s = .ok (.ref b, s') ∧ s'.heap[b]? = some d ∧
      d.cls = some (txt! "PSDict") ∧ d.data = .dict ds ∧ DictOf es ds := by
  have hty : readTypes [.node .DCT da [] xs] s = .ok ([], s) := by
    unfold readTypes findTypes
    simp [Xml.tag]
  have hst : L.start [] = .value { types := [] } := rfl
  let s1 := (s.alloc { types := [] }).register ref.refId (.ref s.heap.length)
  have hl1 : s1.heap.length = s.heap.length + 1 := by simp [s1, register_heap, DState.alloc]
  have hb1 : s1.heap[s.heap.length]? = some { types := [] } := by simp [s1, register_heap, DState.alloc]
  let s2 := renew L ref.refId (txt! "PSDict") s1
  have hb2 : s2.heap[s1.heap.length]? = some (L.instance (txt! "PSDict")) := by
    simp [s2, renew, register_heap, DState.alloc]
  have hblank : (L.instance (txt! "PSDict")).data = .dict [] := by
    unfold Lib.instance
    dsimp only
    rw [std.dict]; rfl
  obtain ⟨s3, d, ds, r1, r2, r3, r4, r5⟩ := read_entries hx hk s2 _ [] [] hb2 hblank dict_start
  have hne : L.enumClass d = none := by
    unfold Lib.enumClass
    rw [r4]
    show (if (L.info (txt! "PSDict")).kind.isEnum then _ else _) = _
    rw [std.dict]; rfl
  refine ⟨s1.heap.length, dress [] none d, ds, s3.edit L s1.heap.length (dress [] none), ?_, ?_, ?_, ?_, ?_⟩
  · rw [deser]
    show readObj L (deser E L n) _ s = _
    rw [readObj_typed (x := .node .Obj ref [] [.node .DCT da [] xs]) hty]
    have hstart : readStart L [] ref.refId s = ({ value := some s.heap.length }, s1) := rfl
    show (match readChildren L (deser E L n) [] ref.refId [.node .DCT da [] xs] (readStart L [] ref.refId s).1
        (readStart L [] ref.refId s).2 with | .error e => _ | .ok (c, s') => _) = _
    rw [hstart]
    have hcc : currentClass L ClassKind.isDict { value := some s.heap.length } s1 = .ok none := by
      unfold currentClass
      dsimp only
      rw [hb1]
    have hrd : readDict L (deser E L n) ref.refId (.node .DCT da [] xs) { value := some s.heap.length } s1 =
        .ok ({ value := some s1.heap.length }, s3) := by
      unfold readDict
      rw [hcc]
      dsimp only
      show (match readEntries (deser E L n) s1.heap.length xs s2 with | .error e => _ | .ok s' => _) = _
      rw [r1]
    have hrc : readChildren L (deser E L n) [] ref.refId [.node .DCT da [] xs] { value := some s.heap.length } s1 =
        .ok ({ value := some s1.heap.length }, s3) := by
      rw [readChildren]
      show (match readDict L (deser E L n) ref.refId (.node .DCT da [] xs) { value := some s.heap.length } s1 with
        | .error e => _ | .ok (c, s) => _) = _
      rw [hrd]
      rfl
    rw [hrc]
    rfl
  · rw [edit_own r2 hne]
    unfold DState.update
    dsimp only
    rw [List.getElem?_modify, r2]
    simp
  · rw [show (dress [] none d).cls = d.cls from rfl, r4]; rfl
  · exact r3
  · exact r5.dict

/-! ## Enums -/

theorem read_int_elem (E : TextEnv) (L : Lib) (n : Nat) (k : IntKind) (a : Attrs) {t : PyStr} {v : Int} (hv : IntegerText v t)
    (hr : k.InRange v) (kids : List Xml) (s : DState) :
    deser E L (n + 1) (.node (.int k) a t kids) s = .ok (.prim (.int k v), s) := by
  have := (readInt_iff k t (.int k v)).mpr ⟨v, rfl, .inr ⟨hv, hr⟩⟩
  rw [deser]
  show (match readPrim E (.int k) t kids with | some (.ok p) => _ | some (.error e) => _ | none => _) = _
  show (match some (readInt k t) with | some (.ok p) => _ | some (.error e) => _ | none => _) = _
  rw [this]

theorem findTypes_enum (tn : PyStr) (names : List PyStr) (rest : List Xml) (hr : ∀ x ∈ rest, x.tag ≠ .TN) :
    findTypes (.node .TN { refId := some tn } [] (names.map fun n => .node .T {} n []) :: rest) = names := by
  have h1 : rest.filter (·.tag = .TN) = [] := List.filter_eq_nil_iff.mpr fun x hx => by simpa using hr x hx
  have h2 : (names.map fun n => Xml.node .T {} n []).filter (·.tag = .T) = names.map fun n => Xml.node .T {} n [] := by
    rw [List.filter_eq_self]
    intro x hx
    obtain ⟨n, _, rfl⟩ := List.mem_map.mp hx
    rfl
  unfold findTypes
  rw [List.filter_cons, if_pos (by rfl), h1]
  simp only [List.flatMap_cons, List.flatMap_nil, List.append_nil, Xml.kids]
  rw [h2, List.map_map]
  exact List.map_id' _

theorem read_enum (E : TextEnv) (L : Lib) (n : Nat) (ref : Attrs) (tn name : PyStr) (more : List PyStr) (str : Option PyStr)
    (k : IntKind) (t : PyStr) (v : Int) (hv : IntegerText v t) (hr : k.InRange v)
    (hstr : ∀ u ∈ str, ∃ w, deserializeString u = .ok w) (cls : PyStr) (member : Int → Option Prim)
    (hst : L.start (name :: more) = .enum cls member) (hcl : (L.info cls).kind = .enum member) (s : DState) :
    (∀ p, member v = some p → ∃ b d s', deser E L (n + 2) (enumXml ref tn name more str k t) s = .ok (.ref b, s') ∧
      s'.heap[b]? = some d ∧ d.cls = some cls ∧ d.data = .prim p) ∧
    (member v = none → deser E L (n + 2) (enumXml ref tn name more str k t) s = .error .valueError) := by
  let rest : List Xml := (str.toList.map fun u => .node .ToString {} u []) ++ [.node (.int k) {} t []]
  have hrest : ∀ x ∈ rest, x.tag ≠ .TN := by
    intro x hx
    rcases List.mem_append.mp hx with hx | hx
    · obtain ⟨u, _, rfl⟩ := List.mem_map.mp hx
      exact fun h => by cases h
    · cases List.mem_singleton.mp hx
      exact fun h => by cases h
  let tnx : Xml := .node .TN { refId := some tn } [] ((name :: more).map fun n => .node .T {} n [])
  let s1 : DState := { s with tnMap := s.tnMap.set tn (name :: more) }
  have hty : readTypes (tnx :: rest) s = .ok (name :: more, s1) := by
    unfold readTypes
    rw [findTypes_enum tn (name :: more) rest hrest, if_pos (by simp), List.find?_cons_of_pos (by rfl)]
    rfl
  have hstart : readStart L (name :: more) ref.refId s1 = ({ value := none }, s1) := by
    unfold readStart; rw [hst]
  have hint := read_int_elem E L n k {} hv hr [] s1
  have hkids : ∃ ts, readChildren L (deser E L (n + 1)) (name :: more) ref.refId (tnx :: rest) { value := none } s1 =
      readChildren L (deser E L (n + 1)) (name :: more) ref.refId [.node (.int k) {} t []] { value := none, toStr := ts } s1 := by
    cases str with
    | none => exact ⟨none, rfl⟩
    | some u =>
      obtain ⟨w, hw⟩ := hstr u rfl
      refine ⟨some w, ?_⟩
      show readChildren L _ _ _ [.node .ToString {} u [], .node (.int k) {} t []] _ _ = _
      rw [readChildren]
      have : readChild L (deser E L (n + 1)) (name :: more) ref.refId (.node .ToString {} u []) { value := none } s1 =
          .ok ({ value := none, toStr := some w }, s1) := by
        show (match deserializeString u with | .error e => _ | .ok t => _) = _
        rw [hw]
      rw [this]
  obtain ⟨ts, hkids⟩ := hkids
  have hobj : deser E L (n + 2) (enumXml ref tn name more str k t) s =
      (match readChildren L (deser E L (n + 1)) (name :: more) ref.refId [.node (.int k) {} t []]
          { value := none, toStr := ts } s1 with
        | .error e => .error e
        | .ok (c, s') => readFinish L (deser E L (n + 1)) (L.startNames (name :: more) s1) c s') := by
    rw [deser]
    show readObj L (deser E L (n + 1)) (.node .Obj ref [] (tnx :: rest)) s = _
    rw [readObj_typed (x := .node .Obj ref [] (tnx :: rest)) hty]
    show (match readChildren L (deser E L (n + 1)) (name :: more) ref.refId (tnx :: rest)
        (readStart L (name :: more) ref.refId s1).1 (readStart L (name :: more) ref.refId s1).2 with
        | .error e => _ | .ok (c, s') => _) = _
    rw [hstart]
    dsimp only
    rw [hkids]
  have hsub : readSub L (deser E L (n + 1)) (name :: more) ref.refId (.node (.int k) {} t []) { value := none, toStr := ts } s1 =
      (match member v with
      | some p =>
        .ok ({ value := some s1.heap.length, toStr := ts },
          (s1.alloc { L.instance cls with data := .prim p }).register ref.refId (.ref s1.heap.length))
      | none => .error .valueError) := by
    unfold readSub
    rw [hint]
    dsimp only
    rw [hst]
    rfl
  have hch : readChildren L (deser E L (n + 1)) (name :: more) ref.refId [.node (.int k) {} t []]
      { value := none, toStr := ts } s1 = (match member v with
      | some p =>
        .ok ({ value := some s1.heap.length, toStr := ts },
          (s1.alloc { L.instance cls with data := .prim p }).register ref.refId (.ref s1.heap.length))
      | none => .error .valueError) := by
    rw [readChildren]
    show (match readSub L (deser E L (n + 1)) (name :: more) ref.refId (.node (.int k) {} t [])
      { value := none, toStr := ts } s1 with | .error e => _ | .ok (c, s) => _) = _
    rw [hsub]
    cases member v <;> rfl
  rw [hobj, hch]
  constructor
  · intro p hp
    rw [hp]
    dsimp only
    let s2 := (s1.alloc { L.instance cls with data := .prim p }).register ref.refId (.ref s1.heap.length)
    have hb2 : s2.heap[s1.heap.length]? = some { L.instance cls with data := .prim p } := by
      simp [s2, register_heap, DState.alloc]
    have he : L.enumClass { L.instance cls with data := .prim p } = some cls := by
      unfold Lib.enumClass
      show (if (L.info cls).kind.isEnum then _ else _) = _
      rw [hcl]; rfl
    refine ⟨s1.heap.length, { L.instance cls with data := .prim p }, s2.edit L s1.heap.length
      (dress (L.startNames (name :: more) s1) ts), rfl, ?_, rfl, rfl⟩
    rw [edit_member hb2 he]
    exact hb2
  · intro hp
    rw [hp]

end Verif
