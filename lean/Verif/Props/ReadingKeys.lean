import Verif.Props.Reading

/-!
# C69: a dict is never read with a key that has no hash
-/

namespace Verif

private theorem prim_refuses {p : Prim} (h : UnhashablePrim p) : p.hashKey = .error .typeError := by
  cases h <;> rfl

private theorem key_refuses {s : DState} {k : DVal} (h : Unhashable s k) : ∃ e, hashKey s k = .error e := by
  cases h with
  | prim h => exact ⟨_, prim_refuses h⟩
  | ext hd hp h =>
    refine ⟨.typeError, ?_⟩
    unfold hashKey DObj.hashKey
    simp only [hd, hp, prim_refuses h]
  | list hd hl =>
    refine ⟨.typeError, ?_⟩
    unfold hashKey DObj.hashKey
    simp only [hd, hl]
  | dict hd hl =>
    refine ⟨.typeError, ?_⟩
    unfold hashKey DObj.hashKey
    simp only [hd, hl]
  | missing h =>
    refine ⟨.keyError, ?_⟩
    unfold hashKey
    simp only [h]

private theorem entries_hashed {g : Xml → DState → Except Err (DVal × DState)} {b : Nat} :
    ∀ (xs : List Xml) (s s' : DState), readEntries g b xs s = .ok s' →
      ∀ x ∈ xs, ∃ xk s1 k s2, FirstNamed (txt! "Key") x xk ∧ g xk s1 = .ok (k, s2) ∧ ¬ Unhashable s2 k
  | [], _, _, _ => by simp
  | x :: xs, s, s', h => by
    rw [readEntries] at h
    split at h
    · cases h
    next xk hk =>
    split at h
    · cases h
    next xv hv =>
    split at h
    · cases h
    next v s1 h1 =>
    split at h
    · cases h
    next k s2 h2 =>
    split at h
    · cases h
    next hh h3 =>
    intro y hy
    rcases List.mem_cons.mp hy with rfl | hy
    · refine ⟨xk, s1, k, s2, findNamed_ok hk, h2, fun hu => ?_⟩
      obtain ⟨e, he⟩ := key_refuses hu
      rw [h3] at he
      cases he
    · exact entries_hashed xs _ s' h y hy

/-- C69, dicts: when a dict is read, then every entry has a `Key` child, and what was read for it was, when it was put into
the dict, a value Python has a hash for: not a list or dict, nor a duration, a version or a signaling NaN, with or without
properties. -/
theorem C69_keys_hashed (E : TextEnv) (L : Lib) (std : L.Standard) (n : Nat) (ref da : Attrs) (xs : List Xml) (s s' : DState)
    (v : DVal) (h : deser E L (n + 1) (.node .Obj ref [] [.node .DCT da [] xs]) s = .ok (v, s')) :
    ∀ x ∈ xs, ∃ xk s1 k s2, FirstNamed (txt! "Key") x xk ∧ deser E L n xk s1 = .ok (k, s2) ∧ ¬ Unhashable s2 k := by
  rw [one_child E L n ref da .DCT xs s (by simp)] at h
  generalize hs1 : (s.alloc { types := [] }).register ref.refId (.ref s.heap.length) = s1 at h
  have hcc := blank_class L ClassKind.isDict s ref.refId (.ref s.heap.length)
  rw [hs1] at hcc
  have hrd : readChild L (deser E L n) [] ref.refId (.node .DCT da [] xs) { value := some s.heap.length } s1 =
      match readEntries (deser E L n) s1.heap.length xs (renew L ref.refId (txt! "PSDict") s1) with
      | .error e => .error e
      | .ok s' => .ok ({ value := some s1.heap.length }, s') := by
    show readDict L (deser E L n) ref.refId (.node .DCT da [] xs) { value := some s.heap.length } s1 = _
    unfold readDict
    rw [hcc]
    rfl
  rw [hrd] at h
  cases hre : readEntries (deser E L n) s1.heap.length xs (renew L ref.refId (txt! "PSDict") s1) with
  | error e => rw [hre] at h; cases h
  | ok s3 => exact entries_hashed _ _ _ hre

/-- C69, dicts: so a dict with an entry whose `Key` is read as a duration, a version or a signaling NaN is refused. -/
theorem C69_key_refused (E : TextEnv) (L : Lib) (std : L.Standard) (n : Nat) (ref da : Attrs) (xs : List Xml) (x xk : Xml)
    (p : Prim) (hx : x ∈ xs) (hk : FirstNamed (txt! "Key") x xk) (hr : ∀ s, deser E L n xk s = .ok (.prim p, s))
    (hp : UnhashablePrim p) (s : DState) :
    ∃ err, deser E L (n + 1) (.node .Obj ref [] [.node .DCT da [] xs]) s = .error err := by
  cases hd : deser E L (n + 1) (.node .Obj ref [] [.node .DCT da [] xs]) s with
  | error e => exact ⟨e, rfl⟩
  | ok r =>
    obtain ⟨v, s'⟩ := r
    obtain ⟨yk, s1, k, s2, h1, h2, h3⟩ := C69_keys_hashed E L std n ref da xs s s' v hd x hx
    have same : yk = xk := by
      obtain ⟨pre, post, e1, n1, f1⟩ := h1
      obtain ⟨pre', post', e2, n2, f2⟩ := hk
      have a : x.kids.find? (fun z => decide (z.attrs.name = some (txt! "Key"))) = some yk :=
        List.find?_eq_some_iff_append.mpr ⟨by simpa using n1, pre, post, e1, fun z hz => by simpa using f1 z hz⟩
      have b : x.kids.find? (fun z => decide (z.attrs.name = some (txt! "Key"))) = some xk :=
        List.find?_eq_some_iff_append.mpr ⟨by simpa using n2, pre', post', e2, fun z hz => by simpa using f2 z hz⟩
      rw [a] at b
      exact Option.some.inj b
    rw [same, hr s1] at h2
    cases h2
    exact absurd (.prim hp) h3

/-! ## Cases -/

/-- A dict with a key "a" and a signaling NaN as a second key. -/
private def signalingDict : List Xml :=
  [keyEntry (.node .S { name := some (txt! "Key") } (txt! "a") []) (.node .Nil { name := some (txt! "Value") } [] []),
    keyEntry (.node .D { name := some (txt! "Key") } (txt! "sNaN") []) (.node .Nil { name := some (txt! "Value") } [] [])]

example (E : TextEnv) (s : DState) :
    ∃ err, deser E library 3 (.node .Obj {} [] [.node .DCT {} [] signalingDict]) s = .error err :=
  C69_key_refused E library library_standard 2 {} {} signalingDict _ (.node .D { name := some (txt! "Key") } (txt! "sNaN") [])
    (.decimal (.nan false true 0)) (by simp [signalingDict]; exact .inr rfl) ⟨[], _, rfl, rfl, by simp⟩ (fun _ => rfl) .signaling s

example (E : TextEnv) : ∃ v s', deser E library 3 (.node .Obj {} [] [.node .DCT {} [] (signalingDict.take 1)]) {} = .ok (v, s') :=
  ⟨_, _, rfl⟩

end Verif
