import Verif.Props.Reading

/-!
# C69: numbers that are no integers are no values of an enum
-/

namespace Verif

/-- `enumXml` with a decimal, a double or a single in place of an integer. -/
def enumNumberXml (ref : Attrs) (tn : PyStr) (name : PyStr) (more : List PyStr) (str : Option PyStr) (tag : Tag) (t : PyStr) : Xml :=
  .node .Obj ref []
    (.node .TN { refId := some tn } [] ((name :: more).map fun n => .node .T {} n []) ::
      (str.toList.map fun u => .node .ToString {} u []) ++ [.node tag {} t []])

private theorem memberFor_fraction {member : Int → Option Prim} {s : DState} {v : DVal} {r : Rat} (h : NumberKey v r)
    (hr : ∀ i : Int, r ≠ i) : memberFor member (hashKey s v) = none := by
  rw [h.hash s]
  unfold memberFor
  dsimp only
  rw [if_neg]
  intro hd
  exact hr r.num (Rat.ext rfl hd)

/-- C69, enums: a number that is no integer, in the element of a decimal, a double or a single, is no value of an enum type
and is refused. -/
theorem C69_enum_fraction (E : TextEnv) (n : Nat) (e : EnumType) (he : e ∈ enumTypes) (ref : Attrs) (tn : PyStr) (more : List PyStr)
    (str : Option PyStr) (tag : Tag) (htag : tag = .D ∨ tag = .Db ∨ tag = .Sg) (t : PyStr) (v : DVal) (r : Rat)
    (hv : ∀ s, deser E library (n + 1) (.node tag {} t []) s = .ok (v, s)) (hn : NumberKey v r) (hr : ∀ i : Int, r ≠ i) (s : DState) :
    ∃ err, deser E library (n + 2) (enumNumberXml ref tn e.name more str tag t) s = .error err := by
  obtain ⟨m, hst, _, _⟩ := enum_start e he more
  let rest : List Xml := (str.toList.map fun u => .node .ToString {} u []) ++ [.node tag {} t []]
  have hrest : ∀ x ∈ rest, x.tag ≠ .TN := by
    intro x hx
    rcases List.mem_append.mp hx with hx | hx
    · obtain ⟨u, _, rfl⟩ := List.mem_map.mp hx
      exact fun h => by cases h
    · cases List.mem_singleton.mp hx
      show tag ≠ .TN
      rcases htag with rfl | rfl | rfl <;> exact fun h => by cases h
  let tnx : Xml := .node .TN { refId := some tn } [] ((e.name :: more).map fun n => .node .T {} n [])
  let s1 : DState := { s with tnMap := s.tnMap.set tn (e.name :: more) }
  have hty : readTypes (tnx :: rest) s = .ok (e.name :: more, s1) := by
    unfold readTypes
    rw [findTypes_enum tn (e.name :: more) rest hrest, if_pos (by simp), List.find?_cons_of_pos (by rfl)]
    rfl
  have hstart : readStart library (e.name :: more) ref.refId s1 = ({ value := none }, s1) := by
    unfold readStart; rw [hst]
  have hlast : ∀ c, readChildren library (deser E library (n + 1)) (e.name :: more) ref.refId [.node tag {} t []] c s1 =
      .error .valueError := by
    intro c
    rw [readChildren]
    have : readChild library (deser E library (n + 1)) (e.name :: more) ref.refId (.node tag {} t []) c s1 =
        readSub library (deser E library (n + 1)) (e.name :: more) ref.refId (.node tag {} t []) c s1 := by
      rcases htag with rfl | rfl | rfl <;> rfl
    rw [this]
    unfold readSub
    rw [hv s1]
    dsimp only
    rw [hst]
    dsimp only
    rw [memberFor_fraction hn hr]
  have hkids : ∃ err, readChildren library (deser E library (n + 1)) (e.name :: more) ref.refId (tnx :: rest) { value := none } s1 =
      .error err := by
    cases str with
    | none => exact ⟨_, hlast _⟩
    | some u =>
      show ∃ err, readChildren library _ _ _ [.node .ToString {} u [], .node tag {} t []] _ _ = .error err
      rw [readChildren]
      have : readChild library (deser E library (n + 1)) (e.name :: more) ref.refId (.node .ToString {} u []) { value := none } s1 =
          match deserializeString u with
          | .error e => .error e
          | .ok w => .ok ({ value := none, toStr := some w }, s1) := rfl
      rw [this]
      cases deserializeString u with
      | error er => exact ⟨er, rfl⟩
      | ok w => exact ⟨_, hlast _⟩
  obtain ⟨err, hkids⟩ := hkids
  refine ⟨err, ?_⟩
  rw [deser]
  show readObj library (deser E library (n + 1)) (.node .Obj ref [] (tnx :: rest)) s = _
  rw [readObj_typed (x := .node .Obj ref [] (tnx :: rest)) hty]
  show (match readChildren library (deser E library (n + 1)) (e.name :: more) ref.refId (tnx :: rest)
      (readStart library (e.name :: more) ref.refId s1).1 (readStart library (e.name :: more) ref.refId s1).2 with
      | .error e => _ | .ok (c, s') => _) = _
  rw [hstart]
  dsimp only
  rw [hkids]

/-- Half a colour. -/
example (E : TextEnv) (s : DState) : ∃ err, deser E library 2
    (enumNumberXml {} (natStr 0) (txt! "System.ConsoleColor") [] none .D (txt! "1.5")) s = .error err := by
  have he : (⟨txt! "System.ConsoleColor", txt! "ConsoleColor", false, [0, 1, 2, 3, 4, 5, 6, 7, 8, 9, 10, 11, 12, 13, 14, 15]⟩ : EnumType) ∈
    enumTypes := by unfold enumTypes; simp
  refine C69_enum_fraction E 0 _ he {} (natStr 0) [] none .D (.inl rfl) (txt! "1.5") (.prim (.decimal (.finite false 15 (-1)))) _
    (fun _ => rfl) .decimal ?_ s
  intro i h
  have h1 : decimalValue false 15 (-1) = (3 / 2 : Rat) := by decide +kernel
  rw [h1] at h
  have := congrArg Rat.den h
  rw [Rat.den_intCast] at this
  exact absurd this (by decide +kernel)

end Verif
