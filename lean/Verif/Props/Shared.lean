import Verif.Spec.Shared
import Verif.Proof.SerializerShared
import Verif.Props.Serializer

/-! # C70: documents do not change each other -/

namespace Verif

theorem after_clean {E : TextEnv} (hE : ExtendsAscii E.uni) {L : Lib} (std : L.Standard) {n : Nat}
    {docs : List (List Xml)} {sh : Dict PyStr DObj} (h : After E L n docs sh)
    (hd : ∀ xs ∈ docs, Harmless E L n xs) : DState.Clean L { shared := sh } := by
  induction h with
  | none => intro c m e; cases e
  | @doc docs sh xs vs s h r ih =>
    have hc := ih fun ys hy => hd ys (List.mem_append_left _ hy)
    rcases hd xs (by simp) with ht | ⟨H, ws, m, s', ok, hm, hs⟩
    · exact (readDoc_keep E std n xs _ vs s ht r).clean hc
    · obtain ⟨dvs, ds, φ, h1, st, _⟩ := doc_sim hE std (good_reach ok) hm ws {} xs s' { shared := sh } (fun _ => none)
        (fun v hv a e => .root (by rw [← e]; exact List.mem_map_of_mem hv))
        (fun v hv => ok.vals _ (List.mem_map_of_mem hv)) { inv_empty L H _ with clean := hc } hs
      rw [h1] at r
      cases r
      exact st.inv.clean

theorem clean_same {L : Lib} {sh : Dict PyStr DObj} (h : DState.Clean L { shared := sh }) :
    SameS L {} { shared := sh } where
  heap := rfl
  objMap := rfl
  tnMap := rfl
  types := fun c => by
    unfold DState.classMeta
    cases e : sh.get? c with
    | none => rfl
    | some m => exact (h c m e).1
  adapted := fun c => by
    unfold DState.classMeta
    cases e : sh.get? c with
    | none => rfl
    | some m => exact (h c m e).2.1
  extended := fun c => by
    unfold DState.classMeta
    cases e : sh.get? c with
    | none => rfl
    | some m => exact (h c m e).2.2

theorem same_alike {L : Lib} {s t : DState} (h : SameS L s t) (d : DObj) :
    (s.shown L d).Alike (t.shown L d) ∧ (L.enumClass d = none → s.shown L d = t.shown L d) := by
  unfold DState.shown
  cases L.enumClass d with
  | none => exact ⟨⟨rfl, rfl, rfl, rfl, rfl⟩, fun _ => rfl⟩
  | some c =>
    exact ⟨⟨rfl, rfl, (h.types c).symm, (h.adapted c).symm, (h.extended c).symm⟩, fun e => by cases e⟩

/-- C70 for a reader that read any number of documents before, each of which gives no properties to an enum
class or was written by this library: any document `xs` whatever, well-formed or not, is read as by a reader that read
nothing before. It gives the same values with the same objects, or the same error. Only the string forms of enum
members may differ. -/
theorem C70_partial (E : TextEnv) (hE : ExtendsAscii E.uni) (L : Lib) (std : L.Standard) (n : Nat)
    (docs : List (List Xml)) (hd : ∀ xs ∈ docs, Harmless E L n xs) (sh : Dict PyStr DObj) (h : After E L n docs sh)
    (m : Nat) (xs : List Xml) :
    SameReading L (readDoc E L m xs {}) (readDoc E L m xs { shared := sh }) := by
  rcases readDoc_rel E L m xs _ _ (clean_same (after_clean hE std h hd)) with ⟨e, h1, h2⟩ | ⟨vs, s, t, h1, h2, h3⟩
  · rw [h1, h2]; rfl
  · rw [h1, h2]; exact ⟨t, rfl, h3.heap, fun b d _ => same_alike h3 d⟩

/-! ### Two members of an enum class -/

/-- `<Obj><TN RefId="0"><T>System.ConsoleColor</T></TN><I32>v</I32>...</Obj>`. -/
def colorDoc (v : Nat) (more : List Xml) : List Xml :=
  [.node .Obj {} [] (.node .TN { refId := some (natStr 0) } [] [.node .T {} (txt! "System.ConsoleColor") []] ::
    .node (.int .psInt) {} (natStr v) [] :: more)]

/-- The same with an extended property. -/
def colorNote : List Xml :=
  colorDoc 12 [.node .MS {} [] [.node .S { name := some (txt! "Note") } (txt! "mine") []]]

set_option maxRecDepth 20000 in
theorem read_note (E : TextEnv) (n : Nat) : ∃ vs s, readDoc E library (n + 2) colorNote { shared := [] } = .ok (vs, s) ∧
    (s.shared.get? (txt! "ConsoleColor")).map (·.extended) = some [(txt! "Note", .prim (.str .string (txt! "mine")))] := by
  rw [library_loaded]
  exact ⟨_, _, rfl, rfl⟩

set_option maxRecDepth 20000 in
theorem read_color (E : TextEnv) (n : Nat) (sh : Dict PyStr DObj) : ∃ vs s d,
    readDoc E library (n + 2) (colorDoc 9 []) { shared := sh } = .ok (vs, s) ∧ s.heap[0]? = some d ∧
    (s.shown library d).extended = (DState.classMeta { shared := sh } library (txt! "ConsoleColor")).extended := by
  have h : ∃ vs s d m, readDoc E library (n + 2) (colorDoc 9 []) { shared := sh } = .ok (vs, s) ∧ s.heap[0]? = some d ∧
    library.enumClass d = some (txt! "ConsoleColor") ∧ s.shared = sh.set (txt! "ConsoleColor") m ∧
    m.extended = (DState.classMeta { shared := sh } library (txt! "ConsoleColor")).extended := by
    rw [library_loaded]
    exact ⟨_, _, _, _, rfl, rfl, rfl, rfl, rfl⟩
  obtain ⟨vs, s, d, m, h1, h2, h3, h4, h5⟩ := h
  refine ⟨vs, s, d, h1, h2, ?_⟩
  rw [← h5]
  unfold DState.shown DState.classMeta
  rw [h3]
  dsimp only
  rw [h4, Dict.get?_set_self]
  rfl

set_option maxRecDepth 20000 in
/-- C70 does not hold: after a member of `ConsoleColor` with a property was read, another member that is read from
another document has that property. -/
theorem C70_violated (E : TextEnv) (n m : Nat) : ∃ sh, After E library (n + 2) [colorNote] sh ∧
    ¬ SameReading library (readDoc E library (m + 2) (colorDoc 9 []) {})
      (readDoc E library (m + 2) (colorDoc 9 []) { shared := sh }) := by
  obtain ⟨vs, s, h1, h2⟩ := read_note E n
  obtain ⟨vs1, s1, d1, a1, a2, a3⟩ := read_color E m []
  obtain ⟨vs2, s2, d2, b1, b2, b3⟩ := read_color E m s.shared
  refine ⟨s.shared, .doc (docs := []) .none h1, fun h => ?_⟩
  rw [show ({} : DState) = { shared := [] } from rfl, a1, b1] at h
  obtain ⟨s', e, hh, hal⟩ := h
  cases e
  rw [hh, a2] at b2
  cases b2
  have := (hal 0 d1 a2).1.2.2.2.2
  rw [a3, b3] at this
  unfold DState.classMeta at this
  dsimp only at this
  cases hm : s.shared.get? (txt! "ConsoleColor") with
  | none => rw [hm] at h2; cases h2
  | some mt =>
    rw [hm] at h2 this
    have h2 : mt.extended = _ := Option.some.inj h2
    have this : _ = mt.extended := this
    rw [h2] at this
    cases this


set_option maxRecDepth 20000 in
/-- String forms of enum members always stay: a member that was written without string form has that of a member
that was read from another document. -/
theorem C70_violated_string (E : TextEnv) (n m : Nat) : ∃ sh vs s d,
    After E library (n + 2) [colorDoc 12 [.node .ToString {} (txt! "Red") []]] sh ∧
    readDoc E library (m + 2) (colorDoc 9 []) { shared := sh } = .ok (vs, s) ∧ s.heap[0]? = some d ∧
    d.data = .prim (.int .psInt 9) ∧ (s.shown library d).toStr = some (txt! "Red") := by
  have h : ∃ vs s, readDoc E library (n + 2) (colorDoc 12 [.node .ToString {} (txt! "Red") []]) { shared := [] } = .ok (vs, s) ∧
      (s.shared.get? (txt! "ConsoleColor")).map (·.toStr) = some (some (txt! "Red")) := by
    rw [library_loaded]
    exact ⟨_, _, rfl, rfl⟩
  obtain ⟨vs, s, h1, h2⟩ := h
  have h : ∃ vs s' d m', readDoc E library (m + 2) (colorDoc 9 []) { shared := s.shared } = .ok (vs, s') ∧
      s'.heap[0]? = some d ∧ d.data = .prim (.int .psInt 9) ∧
      library.enumClass d = some (txt! "ConsoleColor") ∧ s'.shared = s.shared.set (txt! "ConsoleColor") m' ∧
      m'.toStr = (DState.classMeta { shared := s.shared } library (txt! "ConsoleColor")).toStr := by
    generalize s.shared = sh
    rw [library_loaded]
    exact ⟨_, _, _, _, rfl, rfl, rfl, rfl, rfl, rfl⟩
  obtain ⟨vs', s', d, m', k1, k2, k3, k4, k5, k6⟩ := h
  refine ⟨s.shared, vs', s', d, .doc (docs := []) .none h1, k1, k2, k3, ?_⟩
  unfold DState.shown DState.classMeta
  rw [k4]
  dsimp only
  rw [k5, Dict.get?_set_self]
  show m'.toStr = _
  rw [k6]
  unfold DState.classMeta
  dsimp only
  cases hm : s.shared.get? (txt! "ConsoleColor") with
  | none => rw [hm] at h2; cases h2
  | some mt => rw [hm] at h2; exact Option.some.inj h2

/-! ### Beside `C70_partial` -/

/-- A check for `NoEnum`. -/
def noEnumB (L : Lib) (types : List PyStr) : Bool :=
  match L.reg.rehydrate types with
  | .plain _ => true
  | .instance_ c => !(L.info c).kind.isEnum

/-- A check for `PlainObj`. -/
def plainObjB (L : Lib) (kids : List Xml) : Bool :=
  kids.all (fun k => decide (k.tag ≠ .Obj ∧ k.tag ≠ .Ref)) &&
  (kids.all (fun k => !decide (k.tag = .Props ∨ k.tag = .MS) || k.kids.isEmpty) ||
   ((decide (findTypes kids ≠ []) || kids.all fun k => decide (k.tag ≠ .TNRef)) && noEnumB L (findTypes kids)) ||
   kids.all fun k => k.tag.isPart)

/-- A check for `Tame`, for elements that nest less than a number. -/
def tameB (L : Lib) : Nat → Xml → Bool
  | 0, _ => false
  | n + 1, x => (!decide (x.tag = .Obj) || plainObjB L x.kids) && x.kids.all (tameB L n)

theorem plainObjB_ok {L : Lib} {kids : List Xml} (h : plainObjB L kids = true) : PlainObj L kids := by
  unfold plainObjB at h
  rw [Bool.and_eq_true] at h
  obtain ⟨h1, h2⟩ := h
  refine ⟨fun k hk => by simpa using List.all_eq_true.mp h1 k hk, ?_⟩
  rw [Bool.or_eq_true, Bool.or_eq_true] at h2
  rcases h2 with (h2 | h2) | h2
  · refine .inl fun k hk ht => ?_
    have := List.all_eq_true.mp h2 k hk
    rw [Bool.or_eq_true] at this
    rcases this with h | h
    · rw [decide_eq_true ht] at h; cases h
    · exact List.isEmpty_iff.mp h
  · rw [Bool.and_eq_true] at h2
    refine .inr (.inl ⟨?_, ?_⟩)
    · have := h2.1
      rw [Bool.or_eq_true] at this
      rcases this with h | h
      · exact .inl (of_decide_eq_true h)
      · exact .inr fun k hk => of_decide_eq_true (List.all_eq_true.mp h k hk)
    · intro c hc
      have := h2.2
      unfold noEnumB at this
      rw [hc] at this
      simpa using this
  · exact .inr (.inr fun k hk => List.all_eq_true.mp h2 k hk)

theorem tameB_ok {L : Lib} : ∀ (n : Nat) (x : Xml), tameB L n x = true → Tame L x := by
  intro n
  induction n with
  | zero => intro x h; cases h
  | succ n ih =>
    intro x h y hy ht
    simp only [tameB] at h
    rw [Bool.and_eq_true] at h
    cases hy with
    | self =>
      have := h.1
      rw [Bool.or_eq_true] at this
      rcases this with h | h
      · rw [decide_eq_true ht] at h; cases h
      · exact plainObjB_ok h
    | kid hk t => exact ih _ (List.all_eq_true.mp h.2 _ hk) y t ht

/-- A document with a member, a string with a note, and an object with a member as a property. -/
def calmDoc : List Xml :=
  colorDoc 12 [.node .ToString {} (txt! "Red") []] ++
  [.node .Obj {} [] [.node .S {} (txt! "x") [], .node .MS {} [] [.node .S { name := some (txt! "Note") } (txt! "y") []]],
   .node .Obj {} [] [.node .TN { refId := some (natStr 1) } [] [.node .T {} (txt! "My.Type") []],
     .node .Props {} [] (colorDoc 3 [] |>.map (Xml.setName (txt! "Color")))]]

theorem calm_harmless (E : TextEnv) (n : Nat) : Harmless E library n calmDoc := by
  refine .inl fun x hx => tameB_ok 8 x ?_
  have : calmDoc.all (tameB library 8) = true := by decide +kernel
  exact List.all_eq_true.mp this x hx

set_option maxRecDepth 20000 in
theorem calm_after (n : Nat) : ∃ sh, After plainEnv library (n + 4) [calmDoc] sh := by
  obtain ⟨vs, s, h⟩ : ∃ vs s, readDoc plainEnv library (n + 4) calmDoc { shared := [] } = .ok (vs, s) := by
    rw [library_loaded]
    exact ⟨_, _, rfl⟩
  exact ⟨s.shared, .doc (docs := []) .none h⟩

/-- The document `colorNote` is read the same after the document above. -/
example (n m : Nat) : ∃ sh, After plainEnv library (n + 4) [calmDoc] sh ∧
    SameReading library (readDoc plainEnv library m colorNote {}) (readDoc plainEnv library m colorNote { shared := sh }) := by
  obtain ⟨sh, h⟩ := calm_after n
  exact ⟨sh, h, C70_partial plainEnv (fun _ _ => rfl) library library_standard (n + 4) [calmDoc]
    (fun xs hx => by cases List.mem_singleton.mp hx; exact calm_harmless _ _) sh h m colorNote⟩

/-- The document `colorNote` is not harmless in this way. -/
example : colorNote.all (tameB library 8) = false := by decide +kernel

end Verif
