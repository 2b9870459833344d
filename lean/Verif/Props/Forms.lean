import Verif.Spec.Forms
import Verif.Proof.Forms
import Verif.Props.XmlText

/-! # C68: values are written in the forms of the protocol -/

namespace Verif

theorem doc_element (xs : List Xml) (h : xs ≠ []) : rootText elementTree xs =
    element (txt! "Objs") (attrib (txt! "Version") (txt! "1.1.0.1") ++
      attrib (txt! "xmlns") (txt! "http://schemas.microsoft.com/powershell/2004/04")) (writeAll xs) := by
  unfold rootText element
  rw [if_neg h, if_neg fun e => h (writeAll_eq_nil.mp e)]
  simp [attrib, valueChar, textChar, elementTree]

theorem doc_empty : rootText elementTree [] =
    element (txt! "Objs") (attrib (txt! "Version") (txt! "1.1.0.1") ++
      attrib (txt! "xmlns") (txt! "http://schemas.microsoft.com/powershell/2004/04")) [] := by decide

/-- C68 for values whose texts are not spoilt by an error the other properties describe (see `Prim.Formal`): the
document has one element for each value, in the form of its type, with the attribute of its stream; objects are written
with their value, type names, properties and content in this order. Whatever `serialize_clixml` writes is meant, whether it
can be read again or not. -/
theorem C68_partial (E : TextEnv) (H : Heap) (n : Nat) (vs : List (PVal × Option ClixmlStream))
    (ok : GraphFormal E H (vs.map Prod.fst)) (t : PyStr) (h : serializeClixml E elementTree H n vs = .ok t) :
    DocForm H vs t := by
  unfold serializeClixml at h
  split at h
  · cases h
  · rename_i xs s hs
    cases h
    obtain ⟨ts, h1, h2, h3⟩ := doc_shapes E H n (vs.map Prod.fst) ok.objs vs
      (fun v hv => ok.vals _ (List.mem_map_of_mem hv)) (fun v hv a e => .root (by rw [← e]; exact List.mem_map_of_mem hv)) _ _ _ hs
    refine ⟨ts, h1, ?_⟩
    rw [← h2]
    by_cases hx : xs = []
    · subst hx; exact doc_empty
    · exact doc_element xs hx

/-- A value that is no decimal and not NaN. -/
def NoDecimal : Prim → Prop
  | .decimal _ => False
  | .float _ .nan => False
  | _ => True

/-- Values that come back (C41) have a form, up to decimals and NaN (C82, C83). -/
theorem formal_of_ok {E : TextEnv} {L : Lib} {H : Heap} {roots : List PVal} (ok : GraphOk E L H roots)
    (hr : ∀ p, .prim p ∈ roots → NoDecimal p) (ho : ∀ a, Reach H roots a → (∀ p, .prim p ∈ (H a).values → NoDecimal p) ∧
      ∀ p, (H a).data = .ext p ∨ (H a).data = .enum p → NoDecimal p) :
    GraphFormal E H roots := by
  have sound : ∀ {s : PyStr}, TextOk s → Sound s := fun h => ⟨h.1, h.2.1⟩
  have prim : ∀ p : Prim, p.Ok E → NoDecimal p → p.Formal E := by
    intro p h hn
    cases p with
    | plainInt v => exact h
    | str k s => exact sound h
    | date d => exact ⟨h.1, h.2.1, h.2.2.1⟩
    | duration d =>
      have : d.totalNs / 100 * 100 = d.totalNs := by have := h.2.1; omega
      change ¬ TensOfSeconds (d.totalNs / 100 * 100)
      rw [this]
      exact h.2.2
    | version v => exact h.1
    | progress r =>
      obtain ⟨h1, _, h2, _, h3, h4⟩ := h
      exact ⟨sound h1, sound h2, fun t e => sound (h3 t e).1, fun v hv e => by
        obtain ⟨i, hi, _⟩ := h4 v hv
        rw [e] at hi; cases hi⟩
    | int _ _ => trivial
    | char _ => trivial
    | bytes _ => trivial
    | guid _ => exact h
    | decimal _ => cases hn
    | float k x => exact ⟨h, fun e => by rw [e] at hn; exact hn⟩
    | secure _ => trivial
  have val : ∀ v : PVal, v.Ok E → (∀ p, v = .prim p → NoDecimal p) → v.Formal E := by
    intro v h hn
    cases v with
    | prim p => exact prim p h (hn p rfl)
    | _ => trivial
  exact ⟨fun v hv => val v (ok.vals v hv) fun p e => hr p (e ▸ hv), fun a ha =>
    have o := ok.objs a ha
    ⟨fun v hv => val v (o.vals v hv) fun p e => (ho a ha).1 p (e ▸ hv), fun p hp => prim p (o.own p hp) ((ho a ha).2 p hp),
      fun q hq => sound (o.names q hq)⟩⟩

/-! ### Cases -/

/-- The same as a check. -/
def noDecimal : Prim → Bool
  | .decimal _ => false
  | .float _ .nan => false
  | _ => true

theorem noDecimal_iff {p : Prim} : noDecimal p = true ↔ NoDecimal p := by
  unfold noDecimal NoDecimal
  split <;> simp

/-- The same for a value. -/
def PVal.noDecimal : PVal → Bool
  | .prim p => Verif.noDecimal p
  | _ => true

/-- Beside `C68_partial`: the graph of C41, with cycles, sharing, a list, a dict and an enum member. -/
example : ∃ t, serializeClixml plainEnv elementTree exampleHeap 8 [(.ref 0, some .output)] = .ok t ∧
    DocForm exampleHeap [(.ref 0, some .output)] t := by
  obtain ⟨t, h⟩ : ∃ t, serializeClixml plainEnv elementTree exampleHeap 8 [(.ref 0, some .output)] = .ok t := ⟨_, rfl⟩
  refine ⟨t, h, C68_partial _ _ _ _ (formal_of_ok example_ok (fun p hp => by simp at hp) fun a ha => ?_) t h⟩
  have hm : a ∈ [0, 1, 2, 3, 4] := reach_within (by decide +kernel) (by decide +kernel) ha
  have all : ∀ a ∈ [0, 1, 2, 3, 4], (∀ v ∈ (exampleHeap a).values, v.noDecimal = true) ∧
      (match (exampleHeap a).data with | .ext p => noDecimal p | .enum p => noDecimal p | _ => true) = true := by decide +kernel
  refine ⟨fun p hp => noDecimal_iff.mp ((all a hm).1 _ hp), fun p hp => ?_⟩
  have := (all a hm).2
  rcases hp with e | e <;> (rw [e] at this; exact noDecimal_iff.mp this)

/-- Some documents letter by letter. -/
example : serializeClixml plainEnv elementTree exampleHeap 2 [(.bool false, none), (.nil, some .error)] = .ok (rootStart ++
    (txt! "><B>false</B><Nil S=\"error\" /></Objs>")) := by decide +kernel
example : serializeClixml plainEnv elementTree exampleHeap 2 [(.prim (.decimal (.finite true 12300 (-2))), none),
    (.prim (.float .double (.infinity true)), none), (.prim (.guid 255), none)] = .ok (rootStart ++
    (txt! "><D>-123.00</D><Db>-INF</Db><G>00000000-0000-0000-0000-0000000000ff</G></Objs>")) := by decide +kernel
example : serializeClixml plainEnv elementTree exampleHeap 2 [(.prim (.str .string (txt! "a<_x\n")), some .debug)] =
    .ok (rootStart ++ (txt! "><S S=\"debug\">a&lt;_x005F_x_x000A_</S></Objs>")) := by decide +kernel
example : serializeClixml plainEnv elementTree (fun _ => { data := .dict [(.prim (.plainInt (-7)), .prim (.bytes [1, 2]))] }) 2
    [(.ref 0, none)] = .ok (rootStart ++
      (txt! "><Obj RefId=\"0\"><DCT><En><I32 N=\"Key\">-7</I32><BA N=\"Value\">AQI=</BA></En></DCT></Obj></Objs>")) := by
  decide +kernel

/-- The conditions on decimals and floats. -/
example : Prim.Formal plainEnv (.decimal (.finite true 12300 (-2))) ∧ Prim.Formal plainEnv (.float .single (.finite false 1)) :=
  ⟨⟨true, 12300, -2, _, rfl, decimal_natStr 12300, by decide, by decide +kernel⟩, ⟨1, 0, by decide, by decide, rfl⟩, by simp⟩

/-- The conditions on dates, durations and versions. -/
example : Prim.Formal plainEnv (.duration ⟨1, 61, 0, 0⟩) ∧ Prim.Formal plainEnv (.version ⟨2, 3, none, none⟩) ∧
    Prim.Formal plainEnv (.date ⟨2024, 2, 29, 23, 59, 59, 1, 230, some (-34200)⟩) := by
  refine ⟨?_, fun _ => rfl, ?_, ?_, ?_⟩
  · unfold Prim.Formal TensOfSeconds; decide
  · unfold DateFields.Valid DayOfMonth LeapYear
    refine ⟨by decide, by decide, by decide, by decide, by decide, by decide, by decide, by decide, ?_⟩
    intro o e; cases e; decide
  · intro o e; cases e; decide
  · exact C52_years _ (by decide)

/-! ### Ints -/

/-- C68 for plain ints: they have a form exactly if they are at least -2^31 and fit an `Int64`. -/
theorem C68_int_exact (E : TextEnv) (H : Heap) (n : Nat) (v : Int) : ∃ t,
    serializeClixml E elementTree H (n + 1) [(.prim (.plainInt v), none)] = .ok t ∧
    (DocForm H [(.prim (.plainInt v), none)] t ↔ -(2 ^ 31) ≤ v ∧ v < 2 ^ 63) := by
  refine ⟨_, rfl, ?_, fun h => ?_⟩
  · rintro ⟨ts, h, _⟩
    cases h with
    | cons h _ =>
      cases h with
      | prim h => obtain ⟨h | h, _⟩ := h <;> omega
  · refine C68_partial E H (n + 1) _ ⟨?_, ?_⟩ _ rfl
    · intro w hw
      cases List.mem_singleton.mp hw
      exact h
    · intro a ha
      exfalso
      have : ∀ a, ¬ Reach H [PVal.prim (.plainInt v)] a := by
        intro a ha
        induction ha with
        | root h => simp at h
        | step _ _ ih => exact ih
      exact this a ha

/-- A plain int below -2^31 is written as an `I32`, which cannot hold it. -/
theorem C68_violated (E : TextEnv) (H : Heap) (n : Nat) (v : Int) (hv : v < -(2 ^ 31)) :
    serializeClixml E elementTree H (n + 1) [(.prim (.plainInt v), none)] =
      .ok (rootStart ++ (txt! "><I32>") ++ intStr v ++ (txt! "</I32></Objs>")) ∧
    ¬ IntKind.psInt.InRange v := by
  constructor
  · have h1 : serializeClixml E elementTree H (n + 1) [(.prim (.plainInt v), none)] =
        .ok (rootText elementTree [primXml E (.plainInt v)]) := rfl
    rw [h1, doc_element _ (by simp)]
    congr 1
    have hk : plainKind v = .psInt := by
      unfold plainKind
      rw [if_neg]
      have : IntKind.psInt.maxValue = 2 ^ 31 - 1 := by decide
      omega
    have hw : writeAll [primXml E (.plainInt v)] = element (txt! "I32") [] (intStr v) := by
      unfold primXml writePrim
      dsimp only
      rw [hk, writeAll_cons, writeAll, List.append_nil]
      exact (bare_writes (.int .psInt) (signed_intStr v).bare).plain
    rw [hw]
    unfold element
    rw [if_neg (intStr_ne_nil v), if_neg (by simp)]
    simp [attrib, valueChar, textChar, rootStart]
  · intro h
    have : -(2 ^ 31) ≤ v := h.1
    omega

end Verif
