import Verif.Proof.XmlGrammar
import Verif.Props.Clixml

/-! # C63, C64 and C40 with the XML of ElementTree -/

namespace Verif

/-! ## Checks for examples -/

/-- Printable ASCII. -/
def asciiB (s : PyStr) : Bool := s.all fun c => 32 ≤ c && c ≤ 126

theorem asciiB_ok {s : PyStr} (h : asciiB s = true) : AsciiLine s := fun c hc => by
  have := List.all_eq_true.mp h c hc
  simpa using this

/-- The texts of a primitive are printable ASCII. -/
def Prim.xmlB : Prim → Bool
  | .str _ s => asciiB s
  | .date _ => false
  | .float _ x => x.check
  | .secure t => asciiB t
  | .progress r => asciiB r.activity && asciiB r.status && r.operation.all asciiB
  | _ => true

theorem Prim.xmlB_ok (E : TextEnv) {p : Prim} (h : p.xmlB = true) : p.XmlOk E := by
  cases p with
  | str k s => exact escapable_ascii (asciiB_ok h)
  | date d => cases h
  | float k x => exact PyFloat.check_ok h
  | secure t => exact (asciiB_ok h).xml
  | progress r =>
    simp only [xmlB, Bool.and_eq_true] at h
    exact ⟨escapable_ascii (asciiB_ok h.1.1), escapable_ascii (asciiB_ok h.1.2), fun t e => by
      have := h.2; rw [e] at this; exact escapable_ascii (asciiB_ok this)⟩
  | _ => trivial

/-- The texts of a value are printable ASCII. -/
def PVal.xmlB : PVal → Bool
  | .prim p => p.xmlB
  | _ => true

theorem PVal.xmlB_ok (E : TextEnv) {v : PVal} (h : v.xmlB = true) : v.XmlOk E := by
  cases v with
  | prim p => exact Prim.xmlB_ok E h
  | _ => trivial

/-- The texts of an object are printable ASCII. -/
def PObj.xmlB (o : PObj) : Bool :=
  o.values.all PVal.xmlB && (match o.data with | .ext p => p.xmlB | .enum p => p.xmlB | _ => true) &&
    ((o.adapted ++ o.extended).all fun q => asciiB q.1) && o.types.all asciiB && o.toStr.all asciiB

theorem PObj.xmlB_ok (E : TextEnv) {o : PObj} (h : o.xmlB = true) : o.XmlOk E := by
  unfold xmlB at h
  simp only [Bool.and_eq_true] at h
  obtain ⟨⟨⟨⟨h1, h2⟩, h3⟩, h4⟩, h5⟩ := h
  refine ⟨fun v hv => PVal.xmlB_ok E (List.all_eq_true.mp h1 v hv), fun p hp => ?_,
    fun q hq => escapable_ascii (asciiB_ok (List.all_eq_true.mp h3 q hq)),
    fun t ht => (asciiB_ok (List.all_eq_true.mp h4 t ht)).xml, fun t e => ?_⟩
  · rcases hp with e | e <;> rw [e] at h2 <;> exact Prim.xmlB_ok E h2
  · rw [e] at h5; exact (asciiB_ok h5).xml

/-- The texts of a graph are printable ASCII. -/
def graphXmlB (H : Heap) (roots : List PVal) (addrs : List Nat) : Bool :=
  roots.all PVal.xmlB && within addrs roots && addrs.all fun a => (H a).xmlB && within addrs (H a).values

theorem graphXmlB_ok (E : TextEnv) {H : Heap} {roots : List PVal} {addrs : List Nat} (h : graphXmlB H roots addrs = true) :
    GraphXmlOk E H roots := by
  unfold graphXmlB at h
  simp only [Bool.and_eq_true] at h
  obtain ⟨⟨h1, h2⟩, h3⟩ := h
  have reach : ∀ a, Reach H roots a → a ∈ addrs := by
    intro a r
    induction r with
    | root e => exact within_ok h2 e
    | step _ hb ih =>
      have := List.all_eq_true.mp h3 _ ih
      rw [Bool.and_eq_true] at this
      exact within_ok this.2 hb
  refine ⟨fun v hv => PVal.xmlB_ok E (List.all_eq_true.mp h1 v hv), fun a ha => ?_⟩
  have := List.all_eq_true.mp h3 _ (reach a ha)
  rw [Bool.and_eq_true] at this
  exact PObj.xmlB_ok E this.1

/-! ## C63 -/

/-- C63 without a condition on the XML library: values whose texts XML can hold are written to a text and read
from it as the same values with the same streams, with or without the header of a shell. -/
theorem C63_document_partial (E : TextEnv) (hE : ExtendsAscii E.uni) (L : Lib) (std : L.Standard) (H : Heap)
    (vs : List (PVal × Option ClixmlStream)) (hv : vs ≠ []) (ok : GraphOk E L H (vs.map Prod.fst))
    (okx : GraphXmlOk E H (vs.map Prod.fst)) (n m : Nat) (hnm : n < m) (t : PyStr)
    (h : serializeClixml E elementTree H n vs = .ok t) :
    ∃ dvs ds φ, deserializeClixml E L elementTree m t = .ok (dvs, ds) ∧
      (∀ l, HeaderLine l → deserializeClixml E L elementTree m (l ++ t) = .ok (dvs, ds)) ∧
      All2 (fun v d => VMatch φ v.1 d.1 ∧ d.2 = v.2.getD .output) vs dvs ∧
      ∀ b a, φ b = some a → ∃ d, ds.heap[b]? = some d ∧ OMatch L φ (H a) (ds.shown L d) := by
  have hX : ∀ xs s, serDoc E H n vs {} = .ok (xs, s) → elementTree.Faithful xs :=
    fun xs s hs => elementTree_faithful (serDoc_cleans E H n vs okx hs)
  obtain ⟨xs, s, hs, hd, hl⟩ := C63_partial E L elementTree H n m vs hv t h hX
  obtain ⟨dvs, ds, φ, h1, h2⟩ := C41_partial E hE L std H vs ok n m hnm xs s hs
  exact ⟨dvs, ds, φ, by rw [hd, h1], fun l hl' => by rw [hl l hl', h1], h2⟩

/-- Beside `C63_document_partial`: a graph with a cycle, twice, in two streams. -/
example : ∃ t dvs ds φ, serializeClixml plainEnv elementTree exampleHeap 8 [(.ref 0, none), (.ref 0, some .error)] = .ok t ∧
    deserializeClixml plainEnv library elementTree 9 t = .ok (dvs, ds) ∧
    All2 (fun v d => VMatch φ v.1 d.1 ∧ d.2 = v.2.getD .output) [(.ref 0, none), (.ref 0, some .error)] dvs := by
  obtain ⟨t, ht⟩ : ∃ t, serializeClixml plainEnv elementTree exampleHeap 8 [(.ref 0, none), (.ref 0, some .error)] = .ok t :=
    ⟨_, rfl⟩
  obtain ⟨dvs, ds, φ, h1, _, h2, _⟩ := C63_document_partial plainEnv (fun _ _ => rfl) library library_standard exampleHeap
    [(.ref 0, none), (.ref 0, some .error)] (by simp) (graphCheck_ok plainEnv (addrs := [0, 1, 2, 3, 4]) (by decide +kernel))
    (graphXmlB_ok plainEnv (addrs := [0, 1, 2, 3, 4]) (by decide +kernel)) 8 9 (by decide) t ht
  exact ⟨t, dvs, ds, φ, ht, h1, h2⟩

/-- C63 does not hold for no values at all: the text that is written for them is not read. -/
theorem C63_violated_nothing (E : TextEnv) (L : Lib) (H : Heap) (n m : Nat) :
    ∃ t, serializeClixml E elementTree H n [] = .ok t ∧ deserializeClixml E L elementTree m t = .error .parseError :=
  C63_violated E L elementTree H n m .parseError (by rfl)

theorem scan_out (t : PyStr) : ∀ (mode : ScanMode) (buf : PyStr) (pre out : List Piece),
    t.foldl Scan.step { mode := mode, buf := buf, out := pre ++ out } =
      { t.foldl Scan.step { mode := mode, buf := buf, out := out } with
        out := pre ++ (t.foldl Scan.step { mode := mode, buf := buf, out := out }).out } := by
  induction t with
  | nil => intro mode buf pre out; rfl
  | cons c t ih =>
    intro mode buf pre out
    have step : Scan.step { mode := mode, buf := buf, out := pre ++ out } c =
        { Scan.step { mode := mode, buf := buf, out := out } c with
          out := pre ++ (Scan.step { mode := mode, buf := buf, out := out } c).out } := by
      unfold Scan.step
      cases mode <;> dsimp only
      · split <;> simp
      · split <;> simp
    rw [List.foldl_cons, List.foldl_cons, step]
    exact ih _ _ _ _

theorem rootText_split (ys : List Xml) : ∃ p r, (p = [] ∨ p = txt! " /") ∧ rootText elementTree ys = rootStart ++ p ++ 62 :: r := by
  unfold rootText
  split
  · exact ⟨_, [], .inr rfl, rfl⟩
  · exact ⟨[], writeAll ys ++ txt! "</Objs>", .inl rfl, by simp [rootStart, elementTree]⟩

theorem scan_second (p r : PyStr) (hp : p = [] ∨ p = txt! " /") (out : List Piece) : ∃ mode buf more,
    (rootStart.drop 1 ++ p ++ 62 :: r).foldl Scan.step { mode := .tag, buf := [], out := out } =
      { mode := mode, buf := buf, out := out ++ .tag (rootStart.drop 1 ++ p) :: more } := by
  have h : ∀ p, (p = [] ∨ p = txt! " /") → (rootStart.drop 1 ++ p ++ [62]).foldl Scan.step { mode := .tag, buf := [], out := [] } =
      { mode := .text, buf := [], out := [.tag (rootStart.drop 1 ++ p)] } := by
    rintro p (rfl | rfl) <;> decide +kernel
  have e : rootStart.drop 1 ++ p ++ 62 :: r = (rootStart.drop 1 ++ p ++ [62]) ++ r := by simp
  have h' := scan_out (rootStart.drop 1 ++ p ++ [62]) .tag [] out []
  rw [List.append_nil] at h'
  rw [e, List.foldl_append, h', h p hp]
  dsimp only
  have h2 := scan_out r .text [] (out ++ [.tag (rootStart.drop 1 ++ p)]) []
  rw [List.append_nil] at h2
  rw [h2]
  exact ⟨_, _, _, by rw [List.append_assoc]; rfl⟩

theorem rootText_chars {ys : List Xml} (h : ∀ y ∈ ys, y.Held) : ∀ c ∈ rootText elementTree ys, IsXmlChar c := by
  intro c hc
  have lit : ∀ c ∈ rootStart ++ (txt! " /></Objs>"), xmlChar c = true := by decide +kernel
  have hr : rootText elementTree ys = rootStart ++ if ys = [] then txt! " />" else (txt! ">") ++ writeAll ys ++ (txt! "</Objs>") := rfl
  rw [hr, List.mem_append] at hc
  rcases hc with hc | hc
  · exact (xmlChar_iff c).mp (lit c (List.mem_append.mpr (.inl hc)))
  · have lit' : ∀ c ∈ (txt! " /></Objs>"), IsXmlChar c := fun c hc => (xmlChar_iff c).mp (lit c (List.mem_append.mpr (.inr hc)))
    split at hc
    · exact lit' c (by simp at hc ⊢; omega)
    · simp only [List.mem_append] at hc
      rcases hc with (hc | hc) | hc
      · exact lit' c (by simp at hc ⊢; omega)
      · exact held_chars_all ys h c hc
      · exact lit' c (by simp at hc ⊢; omega)

/-- C63 does not hold for the output of a shell that sent two documents: it is not read. -/
theorem C63_violated_documents (E : TextEnv) (L : Lib) (m : Nat) (xs ys : List Xml) (hx : xs ≠ [])
    (hxs : ∀ x ∈ xs, x.Held) (hys : ∀ y ∈ ys, y.Held) :
    deserializeClixml E L elementTree m (withHeader [rootText elementTree xs, rootText elementTree ys]) = .error .parseError := by
  refine C63_violated_two E L elementTree m xs ys hx _ ?_
  have hl := linesAll_clean xs hxs
  obtain ⟨p, r, hp, hr⟩ := rootText_split ys
  have chars : ∀ c ∈ (txt! "<Objs>") ++ writeAll xs ++ (txt! "</Objs>\n") ++ rootText elementTree ys, IsXmlChar c := by
    intro c hc
    simp only [List.mem_append] at hc
    rcases hc with ((hc | hc) | hc) | hc
    · exact (safe_name (by decide) c hc).1
    · exact held_chars_all xs hxs c hc
    · exact (safe_name (by decide) c hc).1
    · exact rootText_chars hys c hc
  have hno : ∀ c ∈ (txt! "</Objs>\n") ++ rootStart ++ p, c ≠ 13 := by
    have : ∀ p, (p = [] ∨ p = txt! " /") → ∀ c ∈ (txt! "</Objs>\n") ++ rootStart ++ p, c ≠ 13 := by
      rintro p (rfl | rfl) <;> decide +kernel
    exact this p hp
  have hn : normEol ((txt! "<Objs>") ++ writeAll xs ++ (txt! "</Objs>\n") ++ rootText elementTree ys) =
      (txt! "<Objs>") ++ ((writeAll (linesAll xs) ++ [60]) ++ ((txt! "/Objs>\n<") ++ (rootStart.drop 1 ++ p ++ 62 :: normEol r))) := by
    have e : (txt! "<Objs>") ++ writeAll xs ++ (txt! "</Objs>\n") ++ rootText elementTree ys =
        (txt! "<Objs>") ++ (writeAll xs ++ (((txt! "</Objs>\n") ++ rootStart ++ p) ++ 62 :: r)) := by
      rw [hr]; simp
    rw [e, normEol_append (by decide), normEol_all, normEol_append hno, normEol_cons (by decide)]
    have e2 : rootStart = 60 :: rootStart.drop 1 := rfl
    rw [e2]
    simp
  show parseXml ((txt! "<Objs>") ++ writeAll xs ++ (txt! "</Objs>\n") ++ rootText elementTree ys) = _
  rw [parseXml_eq]
  rw [if_neg, if_neg, hn]
  · have hp' : ∃ ps, pieces ((txt! "<Objs>") ++ ((writeAll (linesAll xs) ++ [60]) ++ ((txt! "/Objs>\n<") ++
        (rootStart.drop 1 ++ p ++ 62 :: normEol r)))) = ps ∧
        ∀ qs, ps = some qs → ∃ more, qs = [.text [], .tag (txt! "Objs")] ++ (allPieces [] (linesAll xs) ++
          [.tag (txt! "/Objs"), .text [10], .tag (rootStart.drop 1 ++ p)] ++ more) := by
      refine ⟨_, rfl, fun qs hq => ?_⟩
      unfold pieces at hq
      have h1 : (txt! "<Objs>").foldl Scan.step {} = { mode := .text, buf := [], out := [.text [], .tag (txt! "Objs")] } := by
        decide +kernel
      have h2 : ∀ out, (txt! "/Objs>\n<").foldl Scan.step { mode := .tag, buf := [], out := out } =
          { mode := .tag, buf := [], out := out ++ [.tag (txt! "/Objs"), .text [10]] } := by
        intro out
        simp [Scan.step]
      rw [List.foldl_append, h1, List.foldl_append, scan_all, List.foldl_append, h2] at hq
      obtain ⟨mode, buf, more, hs⟩ := scan_second p (normEol r) hp
        ([.text [], .tag (txt! "Objs")] ++ allPieces [] (linesAll xs) ++ [.tag (txt! "/Objs"), .text [10]])
      rw [hs] at hq
      dsimp only at hq
      split at hq
      · cases hq
        exact ⟨more ++ [.text buf], by simp⟩
      · cases hq
    obtain ⟨ps, hps, hq⟩ := hp'
    rw [hps]
    cases ps with
    | none => rfl
    | some qs =>
      obtain ⟨more, rfl⟩ := hq qs rfl
      have h1 : Tree.steps [.text [], .tag (txt! "Objs")] {} = .ok { stack := [{ name := txt! "Objs", attrs := {} }] } := rfl
      dsimp only
      rw [steps_append, h1]
      dsimp only
      rw [List.append_assoc, steps_append, steps_all (linesAll xs) hl [] [] rfl (by simp) _ _ (.inl rfl)]
      dsimp only
      have h3 : ∀ k more, Tree.steps ([.tag (txt! "/Objs"), .text [10], .tag (rootStart.drop 1 ++ p)] ++ more)
          { stack := [{ name := txt! "Objs", attrs := {}, text := [] ++ [], kids := k }] } = .error .parseError := by
        intro k more
        have : ∀ p, (p = [] ∨ p = txt! " /") → ∃ a, readTag (rootStart.drop 1 ++ p) = .ok (.start (txt! "Objs") a) ∨
            readTag (rootStart.drop 1 ++ p) = .ok (.empty (txt! "Objs") a) := by
          rintro p (rfl | rfl)
          · exact ⟨{}, .inl (by decide +kernel)⟩
          · exact ⟨{}, .inr (by decide +kernel)⟩
        obtain ⟨a, h | h⟩ := this p hp
        all_goals
          have r1 : readTag (txt! "/Objs") = .ok (.stop (txt! "Objs")) := by decide +kernel
          rw [List.drop_one] at h
          simp [Tree.steps, Tree.step, Tree.close, r1, h, xmlSpace]
      rw [h3]
  · exact not_not_intro (List.all_eq_true.mpr fun c hc => (xmlChar_iff c).mpr (chars c hc))
  · intro hs
    obtain ⟨c, hc, hs⟩ := List.any_eq_true.mp hs
    have := chars c hc
    unfold IsXmlChar at this
    unfold isSurrogate at hs
    simp only [decide_eq_true_eq] at hs
    omega

/-- Beside it: two documents of one value each. -/
example (E : TextEnv) (L : Lib) (m : Nat) : deserializeClixml E L elementTree m
    (withHeader [rootText elementTree [.node .Nil {} [] []], rootText elementTree [.node .B {} (txt! "true") []]]) =
      .error .parseError := by
  refine C63_violated_documents E L m _ _ (by simp) (fun x hx => ?_) fun x hx => ?_
  · rw [List.mem_singleton] at hx; subst hx
    exact clean_leaf (by simp) asciiLine_nil.xml.ok
  · rw [List.mem_singleton] at hx; subst hx
    exact clean_leaf (by simp) (AsciiLine.xml (by unfold AsciiLine; decide)).ok

/-! ## C40 -/

/-- C40 and C39 without a condition on the XML library: what a shell sent is sorted by `from_clixml` into the
streams it was written to. -/
theorem C40_document_partial (E : TextEnv) (hE : ExtendsAscii E.uni) (L : Lib) (std : L.Standard)
    (str : List DObj → DVal → PyStr) (H : Heap) (vs : List (PVal × ClixmlStream)) (hv : vs ≠ [])
    (ok : GraphOk E L H (vs.map Prod.fst)) (okx : GraphXmlOk E H (vs.map Prod.fst))
    (hp : ∀ v, (v, ClixmlStream.progress) ∈ vs → ∃ a n r, v = .ref a ∧ H a = progressObj n r)
    (n m : Nat) (hnm : n < m) (t : PyStr)
    (h : serializeClixml E elementTree H n (vs.map fun v => (v.1, some v.2)) = .ok t) :
    ∃ out, ∃ ds : DState, ∃ φ, fromClixml str (deserializeClixml E L elementTree m) [withHeader [t]] = .ok out ∧
      (∀ st, All2 (fun v i => Delivered str H ds.heap φ st v i) ((vs.filter fun e => e.2 = st).map Prod.fst) (out.of st)) ∧
      ∀ b a, φ b = some a → ∃ d, ds.heap[b]? = some d ∧ OMatch L φ (H a) (ds.shown L d) := by
  refine C40_shell_partial E hE L std elementTree str H vs hv ok hp n m hnm t h fun xs s hs =>
    elementTree_faithful (serDoc_cleans E H n _ ?_ hs)
  rw [List.map_map]
  exact okx

/-- A progress record and the object `write_progress` makes of it. -/
def exampleRecord : Progress where
  activityId := some 1
  activity := txt! "Copy"
  status := txt! "Busy"
  percent := some 50
  seconds := some 7

/-- The object. -/
def exampleShell : Heap := fun _ => { progressObj 3 (.prim (.progress exampleRecord)) with key := none }

/-- Beside `C40_document_partial`: a warning, a progress record and two outputs. -/
example (str : List DObj → DVal → PyStr) : ∃ t out heap φ,
    serializeClixml plainEnv elementTree exampleShell 8 [(.bool true, some .output), (.ref 0, some .progress),
      (.prim (.str .string (txt! "careful")), some .warning), (.nil, some .output)] = .ok t ∧
    fromClixml str (deserializeClixml plainEnv library elementTree 9) [withHeader [t]] = .ok out ∧
    All2 (fun v i => Delivered str exampleShell heap φ .output v i) [.bool true, .nil] (out.of .output) ∧
    All2 (fun v i => Delivered str exampleShell heap φ .progress v i) [.ref 0] (out.of .progress) := by
  obtain ⟨t, ht⟩ : ∃ t, serializeClixml plainEnv elementTree exampleShell 8 [(.bool true, some .output), (.ref 0, some .progress),
      (.prim (.str .string (txt! "careful")), some .warning), (.nil, some .output)] = .ok t := ⟨_, rfl⟩
  obtain ⟨out, heap, φ, h1, h2, _⟩ := C40_document_partial plainEnv (fun _ _ => rfl) library library_standard str exampleShell
    [(.bool true, .output), (.ref 0, .progress), (.prim (.str .string (txt! "careful")), .warning), (.nil, .output)] (by simp)
    (graphCheck_ok plainEnv (addrs := [0]) (by decide +kernel)) (graphXmlB_ok plainEnv (addrs := [0]) (by decide +kernel))
    (fun v hv => by
      have : v = .ref 0 := by simpa using hv
      exact ⟨0, 3, _, this, rfl⟩) 8 9 (by decide) t ht
  exact ⟨t, out, heap.heap, φ, ht, h1, h2 .output, h2 .progress⟩

/-- C40 does not hold for `(record, ClixmlStream.PROGRESS)`: the text is written, and `from_clixml` raises
`AttributeError` for it. -/
theorem C40_violated_document (E : TextEnv) (hE : ExtendsAscii E.uni) (L : Lib) (H : Heap) (r : Progress) (hr : r.Faithful)
    (hx : Prim.XmlOk E (.progress r)) (n m : Nat) (str : List DObj → DVal → PyStr) : ∃ t,
    serializeClixml E elementTree H (n + 1) [(.prim (.progress r), some .progress)] = .ok t ∧
    fromClixml str (deserializeClixml E L elementTree (m + 1)) [t] = .error .attributeError := by
  obtain ⟨xs, s, h1, h2, h3⟩ := C40_violated E hE L H r hr n m str
  have ht : serializeClixml E elementTree H (n + 1) [(.prim (.progress r), some .progress)] = .ok (rootText elementTree xs) := by
    unfold serializeClixml; rw [h1]
  obtain ⟨xs', s', h1', hd, _⟩ := C63_partial E L elementTree H (n + 1) (m + 1) _ (by simp) _ ht fun xs s hs =>
    elementTree_faithful (serDoc_cleans E H (n + 1) _
      ⟨fun v hv => by simp only [List.map_cons, List.map_nil, List.mem_singleton] at hv; subst hv; exact hx,
       fun a ra => by
        exfalso
        induction ra with
        | root h => simp at h
        | step _ _ ih => exact ih⟩ hs)
  rw [h1] at h1'
  cases h1'
  refine ⟨_, ht, ?_⟩
  unfold fromClixml sortDocs
  rw [if_neg (by unfold rootText; simp), hd, h2]
  dsimp only
  rw [h3]

/-- Beside `C40_violated_document`: the record above. -/
example : exampleRecord.Faithful ∧ Prim.XmlOk plainEnv (.progress exampleRecord) := by
  refine ⟨?_, Prim.xmlB_ok plainEnv (by decide +kernel)⟩
  have h := Prim.check_ok plainEnv (p := .progress exampleRecord) (by decide +kernel)
  exact ⟨⟨h.1, h.2.1⟩, ⟨h.2.2.1, h.2.2.2.1⟩, h.2.2.2.2.1, h.2.2.2.2.2⟩

/-! ## C64 -/

/-- C64: the XML library reads exactly the well-formed documents, and as what they say. -/
theorem C64_reader_exact (t : PyStr) (x : Xml) : parseRoot t = .ok x ↔ WellFormed t x := ⟨read_wellFormed, wellFormed_read⟩

set_option maxRecDepth 100000 in
/-- Beside it: references, white space, attributes in other orders and with other quotes, text behind a child. -/
example : WellFormed (txt! " <Objs><S S = 'Error'\tN=\"a&lt;&#x41;\" >&#66;&amp;</S >c<Nil/></Objs>\r\n")
    (.node .other {} [] [.node .S { name := some (txt! "a<A"), stream := some (txt! "Error") } (txt! "B&") [], .node .Nil {} [] []]) :=
  (C64_reader_exact _ _).mp (by rfl)

/-- Beside it: an attribute given twice, an end tag of another element, a second root, a less-than sign in a value, `]]>`. -/
example : ∀ t ∈ [txt! "<S N='a' N='b'/>", txt! "<S>a</T>", txt! "<S/><S/>", txt! "<S N='<'/>", txt! "<S>]]></S>", txt! "<S>a&b;</S>"],
    ¬ ∃ x, WellFormed t x := by
  have : ∀ t ∈ [txt! "<S N='a' N='b'/>", txt! "<S>a</T>", txt! "<S/><S/>", txt! "<S N='<'/>", txt! "<S>]]></S>",
      txt! "<S>a&b;</S>"], (parseRoot t).toOption = none := by decide +kernel
  intro t ht ⟨x, h⟩
  have h1 := this t ht
  rw [(C64_reader_exact t x).mpr h] at h1
  cases h1

/-- C64: `deserialize_clixml` reads nothing of a text that is not well-formed (without the header line and with its root
renamed, /repo/src/psrpcore/types/_serializer.py:184-188): it raises `ParseError`, or `UnicodeEncodeError` for a text with
surrogates. -/
theorem C64_malformed (E : TextEnv) (L : Lib) (n : Nat) (t : PyStr)
    (h : ¬ ∃ xs, ReadsAs ((txt! "<Objs") ++ fromRootEnd (stripHeader t)) xs) :
    deserializeClixml E L elementTree n t =
      .error (if ((txt! "<Objs") ++ fromRootEnd (stripHeader t)).any isSurrogate then .unicodeError else .parseError) := by
  unfold deserializeClixml
  have hn : ∀ xs, elementTree.parse ((txt! "<Objs") ++ fromRootEnd (stripHeader t)) ≠ .ok xs :=
    fun xs hx => h ⟨xs, (readsAs_iff _ _).mpr hx⟩
  generalize (txt! "<Objs") ++ fromRootEnd (stripHeader t) = u at h hn
  cases hp : elementTree.parse u with
  | ok xs => exact absurd hp (hn xs)
  | error e =>
    show Except.error e = _
    rw [parse_error hp]

/-- Beside it. -/
example : ¬ ∃ xs, ReadsAs ((txt! "<Objs") ++ fromRootEnd (stripHeader (txt! "<Objs><S>a</Objs>"))) xs := by
  rintro ⟨xs, h⟩
  have h1 := (readsAs_iff _ _).mp h
  have h2 : (elementTree.parse ((txt! "<Objs") ++ fromRootEnd (stripHeader (txt! "<Objs><S>a</Objs>")))).toOption = none := by
    decide +kernel
  rw [h1] at h2
  cases h2

theorem rootTag_full : RootTag (rootStart ++ [62]) where
  safe := by
    intro c hc
    have : ∀ c ∈ rootStart ++ [62], xmlChar c = true ∧ c ≠ 13 := by decide +kernel
    exact ⟨(xmlChar_iff c).mp (this c hc).1, (this c hc).2⟩
  scan := ⟨rootStart.drop 1, by decide +kernel, by rfl⟩

theorem rootText_cons {xs : List Xml} (h : xs ≠ []) :
    rootText elementTree xs = (rootStart ++ [62]) ++ writeAll xs ++ (txt! "</Objs>") := by
  unfold rootText
  rw [if_neg h]
  simp [rootStart, elementTree]

theorem rootText_nil : rootText elementTree [] = rootStart ++ txt! " />" := rfl

set_option maxRecDepth 100000 in
/-- The document of no elements. -/
theorem readsAs_nil : ReadsAs (rootText elementTree []) [] := by
  rw [readsAs_iff]
  show parseXml (rootStart ++ txt! " />") = _
  rfl

theorem readsAs_held {xs : List Xml} (h : ∀ x ∈ xs, x.Held) : ReadsAs (rootText elementTree xs) (linesAll xs) := by
  by_cases e : xs = []
  · subst e; exact readsAs_nil
  · rw [readsAs_iff, rootText_cons e]; exact parse_held rootTag_full h

/-- C64: the text for values whose texts XML can hold is a well-formed document, and the XML library gives
back exactly the elements that were written. -/
theorem C64_partial (E : TextEnv) (H : Heap) (n : Nat) (vs : List (PVal × Option ClixmlStream))
    (okx : GraphXmlOk E H (vs.map Prod.fst)) (t : PyStr) (h : serializeClixml E elementTree H n vs = .ok t) :
    ∃ xs s, serDoc E H n vs {} = .ok (xs, s) ∧ ReadsAs t xs := by
  unfold serializeClixml at h
  cases hs : serDoc E H n vs {} with
  | error e => rw [hs] at h; cases h
  | ok r =>
    obtain ⟨xs, s⟩ := r
    rw [hs] at h
    cases h
    refine ⟨xs, s, rfl, ?_⟩
    by_cases e : xs = []
    · subst e; exact readsAs_nil
    · rw [readsAs_iff, rootText_cons e]; exact parse_clean rootTag_full (serDoc_cleans E H n vs okx hs)

/-- C64, exactly: the text is a well-formed document if and only if all texts in the elements that were written
are of characters XML has, and then they are read with their line ends made line feeds. -/
theorem C64_exact (E : TextEnv) (H : Heap) (n : Nat) (vs : List (PVal × Option ClixmlStream)) (xs : List Xml) (s : SState)
    (hs : serDoc E H n vs {} = .ok (xs, s)) (t : PyStr) (h : serializeClixml E elementTree H n vs = .ok t) :
    ((∃ ys, ReadsAs t ys) ↔ ∀ x ∈ xs, x.Held) ∧ ∀ ys, ReadsAs t ys → ys = linesAll xs := by
  unfold serializeClixml at h
  rw [hs] at h
  cases h
  have back : ∀ ys, ReadsAs (rootText elementTree xs) ys → ∀ x ∈ xs, x.Held := by
    intro ys hy
    have hc := chars_of_parse ((readsAs_iff _ _).mp hy)
    by_cases e : xs = []
    · subst e; intro x hx; cases hx
    · rw [rootText_cons e] at hc
      exact held_all xs (serDoc_known E H n vs hs) fun c hm => hc c (by simp [hm])
  refine ⟨⟨fun ⟨ys, hy⟩ => back ys hy, fun hh => ⟨_, readsAs_held hh⟩⟩, fun ys hy => ?_⟩
  have := readsAs_held (back ys hy)
  rw [readsAs_iff] at this hy
  rw [hy] at this
  cases this
  rfl

/-- C64 for one string, exactly: the text is a well-formed document if and only if the string has no
high surrogate without its low one and neither of U+FFFE and U+FFFF. -/
theorem C64_string_exact (E : TextEnv) (H : Heap) (n : Nat) (k : StrKind) (x : PyStr) (hx : IsText x) :
    ∃ t, serializeClixml E elementTree H (n + 1) [(.prim (.str k x), none)] = .ok t ∧
      ((∃ ys, ReadsAs t ys) ↔ ¬ HasBareHigh x ∧ 0xFFFE ∉ x ∧ 0xFFFF ∉ x) := by
  refine ⟨_, rfl, ?_⟩
  rw [(C64_exact E H (n + 1) [(.prim (.str k x), none)] _ _ rfl _ rfl).1]
  have hm : (∀ y ∈ [tagStream none (primXml E (.str k x))], y.Held) ↔ ∀ c ∈ serializeString x, IsXmlChar c := by
    constructor
    · intro h
      have := h _ List.mem_cons_self
      cases this with
      | node _ _ h3 _ => exact h3
    · intro h y hy
      rw [List.mem_singleton] at hy
      subst hy
      exact clean_leaf (by cases k <;> simp [writePrim, StrKind.tag]) h
  exact hm.trans (C49_exact x hx)

/-- C64 does not hold: a string with U+FFFF gives a text that no XML parser accepts. -/
theorem C64_violated (E : TextEnv) (H : Heap) (n : Nat) : ∃ t,
    serializeClixml E elementTree H (n + 1) [(.prim (.str .string [0xFFFF]), none)] = .ok t ∧ ¬ ∃ ys, ReadsAs t ys := by
  obtain ⟨t, h1, h2⟩ := C64_string_exact E H n .string [0xFFFF] (by intro c hc; simp at hc; omega)
  exact ⟨t, h1, fun h => (h2.mp h).2.2 (by simp)⟩

/-- Beside `C64_partial`: the graph of C41. -/
example : ∃ t xs, serializeClixml plainEnv elementTree exampleHeap 8 [(.ref 0, none)] = .ok t ∧ ReadsAs t xs ∧ xs.length = 1 := by
  obtain ⟨t, ht⟩ : ∃ t, serializeClixml plainEnv elementTree exampleHeap 8 [(.ref 0, none)] = .ok t := ⟨_, rfl⟩
  obtain ⟨xs, s, hs, h⟩ := C64_partial plainEnv exampleHeap 8 [(.ref 0, none)]
    (graphXmlB_ok plainEnv (addrs := [0, 1, 2, 3, 4]) (by decide +kernel)) t ht
  refine ⟨t, xs, ht, h, ?_⟩
  unfold serDoc at hs
  split at hs
  · cases hs
  · cases hs; rfl

/-- Beside `C64_string_exact`: a text with control characters and an escape. -/
example (E : TextEnv) (H : Heap) (n : Nat) : ∃ t,
    serializeClixml E elementTree H (n + 1) [(.prim (.str .string [0, 13, 10, 95, 120]), none)] = .ok t ∧ ∃ ys, ReadsAs t ys := by
  obtain ⟨t, h1, h2⟩ := C64_string_exact E H n .string [0, 13, 10, 95, 120] (by intro c hc; simp at hc; omega)
  exact ⟨t, h1, h2.mpr ⟨by rintro ⟨c, hc, _⟩; simp at hc; omega, by decide, by decide⟩⟩

/-- An object of one type with a string form. -/
def oneObject (type form : PyStr) : Heap := fun _ => { types := [type], toStr := some form }

theorem ser_oneObject (E : TextEnv) (type form : PyStr) (hf : form ≠ []) (n : Nat) :
    serDoc E (oneObject type form) (n + 1) [(.ref 0, none)] {} = .ok ([.node .Obj { refId := some (natStr 0) } []
      [.node .TN { refId := some (natStr 0) } [] [.node .T {} type []], .node .ToString {} form []]],
      { nextId := 1, tnRefs := [type] }) := by
  have hg : ser E (oneObject type form) (n + 1) (.ref 0) {} = serObj E (ser E (oneObject type form) n) 0
      { types := [type], toStr := some form } {} := rfl
  have h : serTypes [type] { nextId := 1 } = ([.node .TN { refId := some (natStr 0) } [] [.node .T {} type []]],
      { nextId := 1, tnRefs := [type] }) := by
    simp [serTypes]
  have hc : serString (some form) = [.node .ToString {} form []] := by simp [serString, hf]
  unfold serDoc
  rw [hg]
  simp [serObj, bareExt, getRefId, serBody, writtenTypes, h, serGroup, serContent, serSub, hc, serDoc, tagStream]

/-- C64 does not hold for objects: neither the string form nor the type names are escaped, and with a control
character in one of them the text is not well-formed. -/
theorem C64_violated_object (E : TextEnv) (n : Nat) (type form : PyStr) (hf : form ≠ []) (c : Nat)
    (hc : c ∈ type ∨ c ∈ form) (hb : ¬ IsXmlChar c) : ∃ t,
    serializeClixml E elementTree (oneObject type form) (n + 1) [(.ref 0, none)] = .ok t ∧ ¬ ∃ ys, ReadsAs t ys := by
  have hs := ser_oneObject E type form hf n
  have ht : serializeClixml E elementTree (oneObject type form) (n + 1) [(.ref 0, none)] = .ok (rootText elementTree
      [.node .Obj { refId := some (natStr 0) } [] [.node .TN { refId := some (natStr 0) } [] [.node .T {} type []],
        .node .ToString {} form []]]) := by
    unfold serializeClixml; rw [hs]
  refine ⟨_, ht, fun h => ?_⟩
  have := (C64_exact E _ (n + 1) _ _ _ hs _ ht).1.mp h _ List.mem_cons_self
  cases this with
  | node _ _ _ hk =>
    rcases hc with hc | hc
    · cases hk _ List.mem_cons_self with
      | node _ _ _ hk => cases hk _ List.mem_cons_self with
        | node _ _ h _ => exact hb (h c hc)
    · cases hk _ (List.mem_cons_of_mem _ List.mem_cons_self) with
      | node _ _ h _ => exact hb (h c hc)

/-- Beside it: a bell in the string form. -/
example : ([7] : PyStr) ≠ [] ∧ (7 ∈ (txt! "My.Type") ∨ 7 ∈ [7]) ∧ ¬ IsXmlChar 7 := by
  refine ⟨by simp, .inr (by simp), by unfold IsXmlChar; omega⟩

/-- C64 does not hold for line ends in them either: carriage returns come back as line feeds. -/
theorem C64_violated_lines (E : TextEnv) (n : Nat) : ∃ t k,
    serializeClixml E elementTree (oneObject (txt! "T") (txt! "a\r\nb\rc")) (n + 1) [(.ref 0, none)] = .ok t ∧
    ReadsAs t [.node .Obj { refId := some (natStr 0) } [] [k, .node .ToString {} (txt! "a\nb\nc") []]] := by
  have hs := ser_oneObject E (txt! "T") (txt! "a\r\nb\rc") (by simp) n
  have ht : serializeClixml E elementTree (oneObject (txt! "T") (txt! "a\r\nb\rc")) (n + 1) [(.ref 0, none)] =
      .ok (rootText elementTree [.node .Obj { refId := some (natStr 0) } []
        [.node .TN { refId := some (natStr 0) } [] [.node .T {} (txt! "T") []], .node .ToString {} (txt! "a\r\nb\rc") []]]) := by
    unfold serializeClixml; rw [hs]
  refine ⟨_, .node .TN { refId := some (natStr 0) } [] [.node .T {} (txt! "T") []], ht, ?_⟩
  have hx : ∀ s : PyStr, (s.all fun c => xmlChar c) = true → XmlOk s := fun s h c hc =>
    (xmlChar_iff c).mp (List.all_eq_true.mp h c hc)
  have href := clean_refId (A := XmlOk) (fun _ h => h.xml.ok) 0
  have := readsAs_held (xs := [.node .Obj { refId := some (natStr 0) } []
      [.node .TN { refId := some (natStr 0) } [] [.node .T {} (txt! "T") []], .node .ToString {} (txt! "a\r\nb\rc") []]])
    (fun x h => by
      rw [List.mem_singleton] at h
      subst h
      refine .node (by simp) href (hx _ rfl) fun y h => ?_
      simp only [List.mem_cons, List.not_mem_nil, or_false] at h
      rcases h with rfl | rfl
      · refine .node (by simp) href (hx _ rfl) fun z h => ?_
        rw [List.mem_singleton] at h
        subst h
        exact clean_leaf (by simp) (hx _ rfl)
      · exact clean_leaf (by simp) (hx _ (by decide)))
  simpa [linesAll, Xml.lines, lineEnds] using this

end Verif
