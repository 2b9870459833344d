import Verif.Proof.ReadingKept

/-! # Reading dicts and lists of any values -/

namespace Verif

theorem findNamed_ok {n : PyStr} {x y : Xml} (h : findNamed n x = .ok y) : FirstNamed n x y := by
  unfold findNamed at h
  split at h
  next z hz =>
    cases h
    obtain ⟨h1, pre, post, h2, h3⟩ := List.find?_eq_some_iff_append.mp hz
    exact ⟨pre, post, h2, by simpa using h1, fun z hz => by simpa using h3 z hz⟩
  · cases h

theorem findNamed_error {n : PyStr} {x : Xml} {e : Err} (h : findNamed n x = .error e) :
    e = .valueError ∧ ∀ y ∈ x.kids, y.attrs.name ≠ some n := by
  unfold findNamed at h
  split at h
  · cases h
  next hz =>
    cases h
    exact ⟨rfl, fun y hy => by simpa using List.find?_eq_none.mp hz y hy⟩

theorem prim_unhashable {p : Prim} {e : Err} (h : p.hashKey = .error e) : UnhashablePrim p := by
  cases p with
  | duration d => exact .duration
  | version v => exact .version
  | decimal d =>
    cases d with
    | nan neg sig payload =>
      cases sig with
      | true => exact .signaling
      | false => cases h
    | finite _ _ _ => cases h
    | infinity _ => cases h
  | _ => cases h

theorem hashKey_error {s : DState} {k : DVal} {e : Err} (h : hashKey s k = .error e) : Unhashable s k := by
  cases k with
  | nil => cases h
  | bool b => cases h
  | prim p => exact .prim (prim_unhashable h)
  | ref b =>
    unfold hashKey at h
    dsimp only at h
    split at h
    next d hd =>
      unfold DObj.hashKey at h
      split at h
      next p hp =>
        split at h
        · cases h
        · exact .ext hd hp (prim_unhashable h)
      next l hl => exact .list hd hl
      next l hl => exact .dict hd hl
      · cases h
    next hn => exact .missing hn

variable {L : Lib} {g : Xml → DState → Except Err (DVal × DState)}

theorem entries_read (hg : Keeps L g) {b : Nat} : ∀ (xs : List Xml) (s s' : DState) (d : DObj) (ds : List (DVal × DVal)),
    s.heap[b]? = some d → (∀ c, d.cls = some c → (L.info c).kind.isQueue = false) → d.data = .dict ds →
    readEntries g b xs s = .ok s' → ∃ es d' ds', All2 (EntryRead g) xs es ∧ s'.heap[b]? = some d' ∧ d'.cls = d.cls ∧
      d'.data = .dict ds' ∧ ∀ old, DictInv old ds → (∀ e ∈ es, SameKey e.1 e.1) → DictInv (old ++ es) ds'
  | [], s, s', d, ds, hb, hq, hd, h => by
    cases h
    exact ⟨[], d, ds, .nil, hb, rfl, hd, fun old ho _ => by rw [List.append_nil]; exact ho⟩
  | x :: xs, s, s', d, ds, hb, hq, hd, h => by
    rw [readEntries] at h
    split at h
    · cases h
    next xk hk =>
    split at h
    · cases h
    next xv hv =>
    split at h
    · cases h
    next v s1 h1 =>
    split at h
    · cases h
    next k s2 h2 =>
    split at h
    · cases h
    next hh h3 =>
    have hlt : b < s.heap.length := (List.getElem?_eq_some_iff.mp hb).1
    have k1 := hg _ s v s1 h1
    obtain ⟨d1, a1, a2, a3⟩ := (k1.trans ((hg _ s1 k s2 h2).less k1.grows)).same b d hlt hb
    have hb' : (s2.update b fun d => { d with data := d.data.put s2 hh k v }).heap[b]? =
        some { d1 with data := d1.data.put s2 hh k v } := by
      unfold DState.update
      dsimp only
      rw [List.getElem?_modify, a1]
      simp
    obtain ⟨es, d', ds', r1, r2, r3, r4, r5⟩ := entries_read hg xs _ s' _ (dictSet s2 hh k v ds) hb'
      (by dsimp only; rw [a2]; exact hq) (by dsimp only; rw [a3 hq, hd]; rfl) h
    refine ⟨(k, v) :: es, d', ds', .cons ⟨xk, xv, s, s1, s2, findNamed_ok hk, findNamed_ok hv, h1, h2⟩ r1, r2,
      r3.trans a2, r4, ?_⟩
    intro old ho he
    have := r5 (old ++ [(k, v)]) (dict_step ho s2 (he (k, v) (by simp)) h3) (fun e h => he e (by simp [h]))
    rw [List.append_assoc] at this
    exact this

theorem entries_refused {b : Nat} {err : Err} : ∀ (xs : List Xml) (s : DState),
    readEntries g b xs s = .error err → ∃ x ∈ xs, EntryRefused g x err
  | [], s, h => by cases h
  | x :: xs, s, h => by
    rw [readEntries] at h
    split at h
    next e hk =>
      cases h
      obtain ⟨h1, h2⟩ := findNamed_error hk
      exact ⟨x, by simp, .inl ⟨h1, _, .inl rfl, h2⟩⟩
    next xk hk =>
    split at h
    next e hv =>
      cases h
      obtain ⟨h1, h2⟩ := findNamed_error hv
      exact ⟨x, by simp, .inl ⟨h1, _, .inr rfl, h2⟩⟩
    next xv hv =>
    split at h
    next e h1 =>
      cases h
      exact ⟨x, by simp, .inr (.inl ⟨_, xv, s, .inr rfl, findNamed_ok hv, h1⟩)⟩
    next v s1 h1 =>
    split at h
    next e h2 =>
      cases h
      exact ⟨x, by simp, .inr (.inl ⟨_, xk, s1, .inl rfl, findNamed_ok hk, h2⟩)⟩
    next k s2 h2 =>
    split at h
    next e h3 =>
      exact ⟨x, by simp, .inr (.inr ⟨xk, s1, k, s2, findNamed_ok hk, h2, hashKey_error h3⟩)⟩
    · obtain ⟨y, hy, hr⟩ := entries_refused xs _ h
      exact ⟨y, by simp [hy], hr⟩

theorem items_read (hg : Keeps L g) {b : Nat} : ∀ (xs : List Xml) (s s' : DState) (d : DObj) (old : List DVal),
    s.heap[b]? = some d → (∀ c, d.cls = some c → (L.info c).kind.isQueue = false) → d.data = .list old →
    readItems g b xs s = .ok s' → ∃ vs d', All2 (fun x v => ∃ s1 s2, g x s1 = .ok (v, s2)) xs vs ∧
      s'.heap[b]? = some d' ∧ d'.cls = d.cls ∧ d'.data = .list (old ++ vs)
  | [], s, s', d, old, hb, hq, hd, h => by
    cases h
    exact ⟨[], d, .nil, hb, rfl, by rw [List.append_nil]; exact hd⟩
  | x :: xs, s, s', d, old, hb, hq, hd, h => by
    rw [readItems] at h
    split at h
    · cases h
    next v s1 h1 =>
    have hlt : b < s.heap.length := (List.getElem?_eq_some_iff.mp hb).1
    obtain ⟨d1, a1, a2, a3⟩ := (hg _ s v s1 h1).same b d hlt hb
    have hb' : (s1.update b fun d => { d with data := d.data.push v }).heap[b]? =
        some { d1 with data := d1.data.push v } := by
      unfold DState.update
      dsimp only
      rw [List.getElem?_modify, a1]
      simp
    obtain ⟨vs, d', r1, r2, r3, r4⟩ := items_read hg xs _ s' _ (old ++ [v]) hb'
      (by dsimp only; rw [a2]; exact hq) (by dsimp only; rw [a3 hq, hd]; rfl) h
    exact ⟨v :: vs, d', .cons ⟨s, s1, h1⟩ r1, r2, r3.trans a2, by rw [r4, List.append_assoc]; rfl⟩

theorem items_refused {b : Nat} {err : Err} : ∀ (xs : List Xml) (s : DState),
    readItems g b xs s = .error err → ∃ x ∈ xs, ∃ s1, g x s1 = .error err
  | [], s, h => by cases h
  | x :: xs, s, h => by
    rw [readItems] at h
    split at h
    next e h1 => cases h; exact ⟨x, by simp, s, h1⟩
    · obtain ⟨y, hy, hr⟩ := items_refused xs _ h
      exact ⟨y, by simp [hy], hr⟩

/-- An object of which all there is is one element. -/
theorem one_child (E : TextEnv) (L : Lib) (n : Nat) (ref da : Attrs) (t : Tag) (xs : List Xml) (s : DState)
    (ht : t ≠ .TN ∧ t ≠ .TNRef) :
    deser E L (n + 1) (.node .Obj ref [] [.node t da [] xs]) s =
      match readChild L (deser E L n) [] ref.refId (.node t da [] xs) { value := some s.heap.length }
        ((s.alloc { types := [] }).register ref.refId (.ref s.heap.length)) with
      | .error e => .error e
      | .ok (c, s') => readFinish L (deser E L n) (L.startNames [] s) c s' := by
  have hty : readTypes [.node t da [] xs] s = .ok ([], s) := by
    unfold readTypes findTypes
    simp [Xml.tag, ht.1, ht.2]
  rw [deser]
  show readObj L (deser E L n) _ s = _
  rw [readObj_typed (x := .node .Obj ref [] [.node t da [] xs]) hty]
  show (match readChildren L (deser E L n) [] ref.refId [.node t da [] xs] { value := some s.heap.length }
      ((s.alloc { types := [] }).register ref.refId (.ref s.heap.length)) with | .error e => _ | .ok (c, s') => _) = _
  rw [readChildren]
  cases readChild L (deser E L n) [] ref.refId (.node t da [] xs) { value := some s.heap.length }
    ((s.alloc { types := [] }).register ref.refId (.ref s.heap.length)) with
  | error e => rfl
  | ok r => rfl

theorem blank_class (L : Lib) (test : ClassKind → Bool) (s : DState) (r : Option PyStr) (v : DVal) :
    currentClass L test { value := some s.heap.length } ((s.alloc { types := [] }).register r v) = .ok none := by
  have hb : ((s.alloc { types := [] }).register r v).heap[s.heap.length]? = some { types := [] } := by
    simp [register_heap, DState.alloc]
  unfold currentClass
  dsimp only
  rw [hb]

theorem finish_plain (L : Lib) (g : Xml → DState → Except Err (DVal × DState)) (s s0 : DState) (b : Nat) {d : DObj}
    (hd : s.heap[b]? = some d) (hc : L.enumClass d = none) : ∃ s', readFinish L g (L.startNames [] s0)
      { value := some b } s = .ok (.ref b, s') ∧ ∃ d', s'.heap[b]? = some d' ∧ d'.cls = d.cls ∧ d'.data = d.data := by
  refine ⟨_, rfl, ?_⟩
  rw [edit_own hd hc]
  unfold DState.update
  dsimp only
  rw [List.getElem?_modify, hd]
  exact ⟨_, by simp; rfl, rfl, rfl⟩

theorem instance_data (L : Lib) {cls : PyStr} {k : ClassKind} (h : (L.info cls).kind = k) :
    (L.instance cls).data = k.blank := by
  unfold Lib.instance
  dsimp only
  rw [h]

/-- An address of a new container. -/
theorem renew_at (L : Lib) (r : Option PyStr) (c : PyStr) (s : DState) :
    (renew L r c s).heap[s.heap.length]? = some (L.instance c) := by
  simp [renew, register_heap, DState.alloc]

theorem read_dict_any (E : TextEnv) (L : Lib) (std : L.Standard) (n : Nat) (ref da : Attrs) (xs : List Xml) (s : DState) :
    (∀ v s', deser E L (n + 1) (.node .Obj ref [] [.node .DCT da [] xs]) s = .ok (v, s') →
      ∃ b d es ds, v = .ref b ∧ s'.heap[b]? = some d ∧ d.cls = some (txt! "PSDict") ∧ d.data = .dict ds ∧
        All2 (EntryRead (deser E L n)) xs es ∧ ((∀ e ∈ es, SameKey e.1 e.1) → DictOf es ds)) ∧
    ∀ err, deser E L (n + 1) (.node .Obj ref [] [.node .DCT da [] xs]) s = .error err →
      ∃ x ∈ xs, EntryRefused (deser E L n) x err := by
  rw [one_child E L n ref da .DCT xs s (by simp)]
  generalize hs1 : (s.alloc { types := [] }).register ref.refId (.ref s.heap.length) = s1
  have hcc := blank_class L ClassKind.isDict s ref.refId (.ref s.heap.length)
  rw [hs1] at hcc
  have hrd : readChild L (deser E L n) [] ref.refId (.node .DCT da [] xs) { value := some s.heap.length } s1 =
      match readEntries (deser E L n) s1.heap.length xs (renew L ref.refId (txt! "PSDict") s1) with
      | .error e => .error e
      | .ok s' => .ok ({ value := some s1.heap.length }, s') := by
    show readDict L (deser E L n) ref.refId (.node .DCT da [] xs) { value := some s.heap.length } s1 = _
    unfold readDict
    rw [hcc]
    rfl
  rw [hrd]
  cases hre : readEntries (deser E L n) s1.heap.length xs (renew L ref.refId (txt! "PSDict") s1) with
  | error e =>
    refine ⟨fun v s' h => by simp at h, fun err h => ?_⟩
    cases h
    exact entries_refused _ _ hre
  | ok s3 =>
    have hq : ∀ c, (L.instance (txt! "PSDict")).cls = some c → (L.info c).kind.isQueue = false := by
      intro c hc
      cases hc
      rw [std.dict]; rfl
    obtain ⟨es, d', ds', r1, r2, r3, r4, r5⟩ := entries_read (deser_keeps E L n) xs _ s3 _ [] (renew_at L _ _ s1) hq
      (by rw [instance_data L std.dict]; rfl) hre
    have hne : L.enumClass d' = none := by
      unfold Lib.enumClass
      rw [r3]
      show (if (L.info (txt! "PSDict")).kind.isEnum then _ else _) = _
      rw [std.dict]; rfl
    obtain ⟨s4, f1, d4, f2, f3, f4⟩ := finish_plain L (deser E L n) s3 s s1.heap.length r2 hne
    dsimp only
    rw [f1]
    refine ⟨fun v s' h => ?_, fun err h => by cases h⟩
    cases h
    exact ⟨_, d4, es, ds', rfl, f2, by rw [f3, r3]; rfl, by rw [f4, r4], r1, fun he => (r5 [] dict_start he).dict⟩

theorem read_list_any (E : TextEnv) (L : Lib) (std : L.Standard) (n : Nat) (k : ListKind) (ref da : Attrs) (xs : List Xml)
    (s : DState) :
    (∀ v s', deser E L (n + 1) (.node .Obj ref [] [.node k.tag da [] xs]) s = .ok (v, s') →
      ∃ b d vs, v = .ref b ∧ s'.heap[b]? = some d ∧ d.cls = some k.cls ∧ d.data = .list vs ∧
        All2 (fun x v => ∃ s1 s2, deser E L n x s1 = .ok (v, s2)) xs vs) ∧
    ∀ err, deser E L (n + 1) (.node .Obj ref [] [.node k.tag da [] xs]) s = .error err →
      ∃ x ∈ xs, ∃ s1, deser E L n x s1 = .error err := by
  rw [one_child E L n ref da k.tag xs s (by cases k <;> simp [ListKind.tag])]
  generalize hs1 : (s.alloc { types := [] }).register ref.refId (.ref s.heap.length) = s1
  have hcc := blank_class L ClassKind.isList s ref.refId (.ref s.heap.length)
  rw [hs1] at hcc
  have hrd : readChild L (deser E L n) [] ref.refId (.node k.tag da [] xs) { value := some s.heap.length } s1 =
      match readItems (deser E L n) s1.heap.length xs (renew L ref.refId k.cls s1) with
      | .error e => .error e
      | .ok s' => .ok ({ value := some s1.heap.length }, s') := by
    have : readChild L (deser E L n) [] ref.refId (.node k.tag da [] xs) { value := some s.heap.length } s1 =
        readList L (deser E L n) k ref.refId (.node k.tag da [] xs) { value := some s.heap.length } s1 := by
      cases k <;> rfl
    rw [this]
    unfold readList
    rw [hcc]
    rfl
  rw [hrd]
  cases hre : readItems (deser E L n) s1.heap.length xs (renew L ref.refId k.cls s1) with
  | error e =>
    refine ⟨fun v s' h => by simp at h, fun err h => ?_⟩
    cases h
    exact items_refused _ _ hre
  | ok s3 =>
    have hq : ∀ c, (L.instance k.cls).cls = some c → (L.info c).kind.isQueue = false := by
      intro c hc
      cases hc
      rw [std.list]; rfl
    obtain ⟨vs, d', r1, r2, r3, r4⟩ := items_read (deser_keeps E L n) xs _ s3 _ [] (renew_at L _ _ s1) hq
      (by rw [instance_data L (std.list k)]; rfl) hre
    have hne : L.enumClass d' = none := by
      unfold Lib.enumClass
      rw [r3]
      show (if (L.info k.cls).kind.isEnum then _ else _) = _
      rw [std.list]; rfl
    obtain ⟨s4, f1, d4, f2, f3, f4⟩ := finish_plain L (deser E L n) s3 s s1.heap.length r2 hne
    dsimp only
    rw [f1]
    refine ⟨fun v s' h => ?_, fun err h => by cases h⟩
    cases h
    exact ⟨_, d4, vs, rfl, f2, by rw [f3, r3]; rfl, by rw [f4, r4]; rfl, r1⟩

end Verif
