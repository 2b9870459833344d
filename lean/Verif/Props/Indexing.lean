import Verif.Proof.Indexing

/-! # C88: indexing -/

namespace Verif

variable {V : Type}

private def noScript : Scripts Nat := ⟨fun _ _ => .ok none, fun _ o _ => (o, .ok ())⟩

private def withNote : PsObj Nat := { extended := [{ name := txt! "p", body := .note (some (some 7)) }] }

/-- C88, names: in brackets a name is what it is behind a dot (C34), read or written, unless the object is a dict with the name as a key;
what the object holds does not change. -/
theorem C88_names (env : Scripts V) (fuel : Nat) (h : ItemObj V) (n : PyStr) :
    ((∀ d v, h.held = .dict d → d.get? (.name n) ≠ some v) → h.getItem env fuel (.name n) = (h.obj.getAttr env fuel n).map .value) ∧
    ((∀ d, h.held ≠ .dict d) → ∀ v, (h.setItem env (.name n) v).1.obj = (h.obj.setAttr env n v).1 ∧
      (h.setItem env (.name n) v).1.held = h.held ∧ (h.setItem env (.name n) v).2 = (h.obj.setAttr env n v).2) := by
  obtain ⟨held, obj⟩ := h
  constructor
  · intro hd
    cases held with
    | dict d =>
      unfold ItemObj.getItem
      dsimp only
      rw [if_pos (show (ItemKey.name n).hashable = true from rfl)]
      cases hg : d.get? (.name n) with
      | none => rfl
      | some v => exact absurd hg (hd d v rfl)
    | plain => rfl
    | list items => rfl
    | text s => rfl
    | bytes b => rfl
  · intro hd v
    cases held with
    | dict d => exact absurd rfl (hd d)
    | plain => exact ⟨rfl, rfl, rfl⟩
    | list items => exact ⟨rfl, rfl, rfl⟩
    | text s => exact ⟨rfl, rfl, rfl⟩
    | bytes b => exact ⟨rfl, rfl, rfl⟩

example : (ItemObj.mk (.list [some 1]) withNote).getItem noScript 9 (.name (txt! "p")) = .ok (.value (some 7)) ∧
    (ItemObj.mk (.dict [(.name (txt! "q"), some 1)]) withNote).getItem noScript 9 (.name (txt! "p")) = .ok (.value (some 7)) ∧
    (ItemObj.mk (.dict [(.name (txt! "p"), some 1)]) withNote).getItem noScript 9 (.name (txt! "p")) = .ok (.value (some 1)) := by decide +kernel

/-- C88, lists and stacks: an index reads and replaces the item that Python's lists have there, from the front or from the end, and an index
without an item is an `IndexError` that changes nothing. A slice gives the items from the one place to the other. -/
theorem C88_list (env : Scripts V) (fuel : Nat) (o : PsObj V) (items : List (Option V)) (i : Int) :
    (∀ k x, AtIndex items.length i k → items[k]? = some x → (ItemObj.mk (.list items) o).getItem env fuel (.index i) = .ok (.value x) ∧
      ∀ v, (ItemObj.mk (.list items) o).setItem env (.index i) v = (⟨.list (items.set k v), o⟩, .ok ())) ∧
    ((∀ k, ¬ AtIndex items.length i k) → (ItemObj.mk (.list items) o).getItem env fuel (.index i) = .error .indexError ∧
      ∀ v, (ItemObj.mk (.list items) o).setItem env (.index i) v = (⟨.list items, o⟩, .error .indexError)) ∧
    (∀ a b, (ItemObj.mk (.list items) o).getItem env fuel (.slice a b) = .ok (.values (Between items a b))) := by
  refine ⟨?_, ?_, fun a b => by unfold ItemObj.getItem; dsimp only; rw [sliceOf_eq]⟩
  · intro k x hk hx
    refine ⟨?_, fun v => ?_⟩
    · unfold ItemObj.getItem
      dsimp only
      rw [(placeOf_get items i x).mpr ⟨k, hk, hx⟩]
    · unfold ItemObj.setItem
      dsimp only
      rw [(placeOf_iff _ _ _).mpr hk]
  · intro hk
    refine ⟨?_, fun v => ?_⟩
    · unfold ItemObj.getItem
      dsimp only
      rw [(placeOf_get_none items i).mpr hk]
    · unfold ItemObj.setItem
      dsimp only
      rw [(placeOf_none _ _).mpr hk]

example : AtIndex 3 (-1) 2 ∧ (∀ k, ¬ AtIndex 3 (-4) k) ∧ ∀ k, ¬ AtIndex 3 3 k := by
  refine ⟨by unfold AtIndex; omega, ?_, ?_⟩ <;> intro k <;> unfold AtIndex <;> omega

/-- C88, written entries are read: an entry that was written to a list or a dict is read back, entries of other keys and attributes are as
before. -/
theorem C88_read_back (env : Scripts V) (fuel : Nat) (h h' : ItemObj V) (key : ItemKey) (v : Option V) (hk : key.isEntry h.held)
    (hs : h.setItem env key v = (h', .ok ())) :
    h'.getItem env fuel key = .ok (.value v) ∧ (∀ key', ¬ SameEntry h.held key key' → h'.getItem env fuel key' = h.getItem env fuel key') ∧
      h'.obj = h.obj := by
  obtain ⟨held, o⟩ := h
  cases held with
  | plain => cases key <;> exact hk.elim
  | text s => cases key <;> exact hk.elim
  | bytes b => cases key <;> exact hk.elim
  | list items =>
    cases key with
    | index i =>
      unfold ItemObj.setItem at hs
      dsimp only at hs
      cases hp : placeOf items.length i with
      | none => rw [hp] at hs; exact nomatch (Prod.ext_iff.mp hs).2
      | some k =>
        rw [hp] at hs
        obtain ⟨rfl, _⟩ := Prod.ext_iff.mp hs
        have hat := (placeOf_iff _ _ _).mp hp
        refine ⟨?_, fun key' hne => ?_, rfl⟩
        · unfold ItemObj.getItem
          dsimp only
          rw [List.length_set, hp]
          simp only [Option.bind_some]
          rw [List.getElem?_set_self hat.1]
        · cases key' with
          | index j =>
            unfold ItemObj.getItem
            dsimp only
            rw [List.length_set]
            cases hj : placeOf items.length j with
            | none => rfl
            | some k' =>
              simp only [Option.bind_some]
              rw [List.getElem?_set_ne]
              intro he
              subst he
              exact hne ⟨k, hat, (placeOf_iff _ _ _).mp hj⟩
          | name n => rfl
          | slice a b => exact absurd trivial hne
          | other n b => rfl
    | name n => exact hk.elim
    | slice a b => exact hk.elim
    | other n b => exact hk.elim
  | dict d =>
    unfold ItemObj.setItem at hs
    dsimp only at hs
    by_cases hh : key.hashable = true
    · rw [if_pos hh] at hs
      obtain ⟨rfl, _⟩ := Prod.ext_iff.mp hs
      refine ⟨?_, fun key' hne => ?_, rfl⟩
      · unfold ItemObj.getItem
        dsimp only
        rw [if_pos hh, Dict.get?_set_self]
      · have hne' : key ≠ key' := fun h => hne (by subst h; cases key <;> rfl)
        unfold ItemObj.getItem
        dsimp only
        rw [Dict.get?_set_ne d v hne']
        rfl
    · rw [if_neg hh] at hs
      exact nomatch (Prod.ext_iff.mp hs).2

example : ((ItemObj.mk (.dict [(.index 1, some 1)]) withNote).setItem noScript (.name (txt! "p")) (some 5)).2 = .ok () ∧
    ItemKey.isEntry (.name (txt! "p")) (Contents.dict [(.index 1, some 1)]) ∧
    ((ItemObj.mk (.list [some 1, some 2]) withNote).setItem noScript (.index (-1)) (some 5)).2 = .ok () ∧
    ItemKey.isEntry (.index (-1)) (Contents.list [some 1, some 2]) := ⟨rfl, trivial, rfl, trivial⟩

/-- Dicts of Python raise `KeyError` for a key they do not have. These never do: it is `AttributeError` for a name, unless an attribute,
a method or a property has the name, and `TypeError` for any other key. So `except KeyError` does not help. -/
theorem C88_missing_violated (env : Scripts V) (fuel : Nat) (o : PsObj V) (d : Dict ItemKey (Option V)) (key : ItemKey)
    (hk : d.get? key = none) :
    (ItemObj.mk (.dict d) o).getItem env fuel key = match key with
      | .name n => match o.pyAttr n, o.propOf n with
        | none, none => .error .attributeError
        | _, _ => (o.getAttr env fuel n).map .value
      | _ => .error .typeError := by
  unfold ItemObj.getItem
  dsimp only
  rw [hk]
  cases key with
  | name n =>
    rw [if_pos (show (ItemKey.name n).hashable = true from rfl)]
    dsimp only [ItemObj.attrItem]
    cases h1 : o.pyAttr n with
    | some v => rfl
    | none =>
      cases h2 : o.propOf n with
      | some p => rfl
      | none =>
        dsimp only
        unfold PsObj.getAttr
        rw [h1, h2]
        rfl
  | index i => rfl
  | slice a b => rfl
  | other n b => cases b <;> rfl

example : (ItemObj.mk (.dict [(.index 1, some 1)]) withNote).getItem noScript 9 (.index 2) = .error .typeError ∧
    (ItemObj.mk (.dict [(.index 1, some 1)]) withNote).getItem noScript 9 (.name (txt! "q")) = .error .attributeError := by decide +kernel

/-- C88, strings: an index gives the string of the one character that is there, a slice the characters from the one place to the other. -/
theorem C88_text (env : Scripts V) (fuel : Nat) (o : PsObj V) (s : PyStr) :
    (∀ i k c, AtIndex s.length i k → s[k]? = some c → (ItemObj.mk (.text s) o).getItem env fuel (.index i) = .ok (.text [c])) ∧
    (∀ i, (∀ k, ¬ AtIndex s.length i k) → (ItemObj.mk (.text s) o).getItem env fuel (.index i) = .error .indexError) ∧
    (∀ a b, (ItemObj.mk (.text s) o).getItem env fuel (.slice a b) = .ok (.text (Between s a b))) := by
  refine ⟨fun i k c hk hc => ?_, fun i hk => ?_, fun a b => ?_⟩
  · unfold ItemObj.getItem
    dsimp only
    rw [(placeOf_get s i c).mpr ⟨k, hk, hc⟩]
  · unfold ItemObj.getItem
    dsimp only
    rw [(placeOf_get_none s i).mpr hk]
  · unfold ItemObj.getItem
    dsimp only
    rw [sliceOf_eq]

example : (ItemObj.mk (.text (txt! "abcd")) withNote).getItem noScript 9 (.index (-1)) = .ok (.text (txt! "d")) ∧
    (ItemObj.mk (.text (txt! "abcd")) withNote).getItem noScript 9 (.slice (some 1) (some (-1))) = .ok (.text (txt! "bc")) ∧
    (ItemObj.mk (.text (txt! "abcd")) withNote).getItem noScript 9 (.slice (some (-9)) (some 9)) = .ok (.text (txt! "abcd")) := by decide +kernel

/-- C88, byte arrays (full statement: an index gives the byte that is there; see `C88_bytes_violated`). Slices give the bytes from the one
place to the other, an index without a byte is an `IndexError`. -/
theorem C88_bytes_partial (env : Scripts V) (fuel : Nat) (o : PsObj V) (s : Bytes) :
    (∀ i, (∀ k, ¬ AtIndex s.length i k) → (ItemObj.mk (.bytes s) o).getItem env fuel (.index i) = .error .indexError) ∧
    (∀ a b, (ItemObj.mk (.bytes s) o).getItem env fuel (.slice a b) = .ok (.bytes (Between s a b))) := by
  refine ⟨fun i hk => ?_, fun a b => ?_⟩
  · unfold ItemObj.getItem
    dsimp only
    rw [(placeOf_get_none s i).mpr hk]
  · unfold ItemObj.getItem
    dsimp only
    rw [sliceOf_eq]

example : (ItemObj.mk (.bytes [1, 2, 3]) withNote).getItem noScript 9 (.slice none (some 2)) = .ok (.bytes [1, 2]) ∧
    (ItemObj.mk (.bytes [1, 2, 3]) withNote).getItem noScript 9 (.index 3) = .error .indexError := by decide +kernel

/-- An index of a byte array never gives the byte that is there, neither as a number nor as a byte array of it: it gives as many zero bytes
as the byte says. -/
theorem C88_bytes_violated (env : Scripts V) (fuel : Nat) (o : PsObj V) (s : Bytes) (i : Int) (k : Nat) (x : UInt8)
    (hk : AtIndex s.length i k) (hx : s[k]? = some x) :
    (ItemObj.mk (.bytes s) o).getItem env fuel (.index i) = .ok (.bytes (List.replicate x.toNat 0)) ∧ List.replicate x.toNat 0 ≠ [x] := by
  constructor
  · unfold ItemObj.getItem
    dsimp only
    rw [(placeOf_get s i x).mpr ⟨k, hk, hx⟩]
  · intro h
    have h1 := congrArg List.length h
    have h2 : x ∈ List.replicate x.toNat 0 := by rw [h]; exact List.mem_singleton_self x
    have h3 := List.eq_of_mem_replicate h2
    subst h3
    simp at h1

example : AtIndex 2 (-1) 1 ∧ (ItemObj.mk (.bytes [1, 5]) withNote).getItem noScript 9 (.index (-1)) = .ok (.bytes [0, 0, 0, 0, 0]) :=
  ⟨by unfold AtIndex; omega, by decide +kernel⟩

private theorem hashable_iff (key : ItemKey) : key.hashable = true ↔ key.IsKey := by
  constructor
  · intro h
    cases key with
    | index i => exact .index
    | name n => exact .name
    | slice a b => cases h
    | other n b => cases b with
      | true => exact .other
      | false => cases h
  · intro h
    cases h <;> rfl

/-- C88, dicts: a key the dict has is read as its value, whatever attributes and properties the object has; an assignment to a key sets it
and nothing else. What cannot be a key is a `TypeError`, and changes nothing. -/
theorem C88_dict (env : Scripts V) (fuel : Nat) (o : PsObj V) (d : Dict ItemKey (Option V)) (key : ItemKey) :
    (key.IsKey → (∀ v, d.get? key = some v → (ItemObj.mk (.dict d) o).getItem env fuel key = .ok (.value v)) ∧
      ∀ v, (ItemObj.mk (.dict d) o).setItem env key v = (⟨.dict (Dict.set d key v), o⟩, .ok ())) ∧
    (¬ key.IsKey → (ItemObj.mk (.dict d) o).getItem env fuel key = .error .typeError ∧
      ∀ v, (ItemObj.mk (.dict d) o).setItem env key v = (⟨.dict d, o⟩, .error .typeError)) := by
  refine ⟨fun h => ?_, fun h => ?_⟩
  · have hk := (hashable_iff key).mpr h
    refine ⟨fun v hv => ?_, fun v => ?_⟩
    · unfold ItemObj.getItem
      dsimp only
      rw [if_pos hk, hv]
    · unfold ItemObj.setItem
      dsimp only
      rw [if_pos hk]
  · have hk : ¬ key.hashable = true := fun e => h ((hashable_iff key).mp e)
    refine ⟨?_, fun v => ?_⟩
    · unfold ItemObj.getItem
      dsimp only
      rw [if_neg hk]
    · unfold ItemObj.setItem
      dsimp only
      rw [if_neg hk]

example : ItemKey.IsKey (.other 3 true) ∧ ¬ ItemKey.IsKey (.other 3 false) ∧
    (ItemObj.mk (.dict [(.other 3 true, some 1)]) withNote).getItem noScript 9 (.other 3 true) = .ok (.value (some 1)) :=
  ⟨.other, (fun h => nomatch h), by decide +kernel⟩

/-- C88: what is neither a key of the object nor a name is a `TypeError`, for reading and for assigning, and changes nothing. -/
theorem C88_foreign (env : Scripts V) (fuel : Nat) (h : ItemObj V) (key : ItemKey) (hk : key.Foreign h.held) :
    h.getItem env fuel key = .error .typeError ∧ ∀ v, h.setItem env key v = (h, .error .typeError) := by
  obtain ⟨held, o⟩ := h
  cases hk with
  | other hd =>
    cases held with
    | dict d => exact absurd rfl (hd d)
    | plain => exact ⟨rfl, fun _ => rfl⟩
    | list items => exact ⟨rfl, fun _ => rfl⟩
    | text s => exact ⟨rfl, fun _ => rfl⟩
    | bytes s => exact ⟨rfl, fun _ => rfl⟩
  | index => exact ⟨rfl, fun _ => rfl⟩
  | slice => exact ⟨rfl, fun _ => rfl⟩

example : ItemKey.Foreign (.other 1 true) (Contents.list [some 1]) ∧ ItemKey.Foreign (.index 0) (Contents.plain : Contents Nat) :=
  ⟨.other (fun d h => nomatch h), .index⟩

/-- C88: nothing is assigned to places of strings and byte arrays; it is a `TypeError`, as for the Python types, and changes nothing. -/
theorem C88_immutable (env : Scripts V) (o : PsObj V) (c : Contents V) (hc : (∃ s, c = .text s) ∨ ∃ s, c = .bytes s) (v : Option V) :
    (∀ i, (ItemObj.mk c o).setItem env (.index i) v = (⟨c, o⟩, .error .typeError)) ∧
    ∀ a b, (ItemObj.mk c o).setItem env (.slice a b) v = (⟨c, o⟩, .error .typeError) := by
  rcases hc with ⟨s, rfl⟩ | ⟨s, rfl⟩ <;> exact ⟨fun _ => rfl, fun _ _ => rfl⟩

example : ((ItemObj.mk (.text (txt! "ab")) withNote).setItem noScript (.index 0) (some 1)).2 = .error .typeError ∧
    ((ItemObj.mk (.text (txt! "ab")) withNote).setItem noScript (.name (txt! "p")) (some 1)).2 = .ok () := ⟨rfl, rfl⟩

end Verif
