import Verif.Props.Serializer

/-! # C39, C40, C63: CLIXML documents and the shell -/

namespace Verif

/-! ## C39 -/

theorem run_marked : ∀ (ops : List ShellOp) (w : List (PVal × ClixmlStream)),
    Shell.run ops { stdout := w, marker := true } = (Docs ops w).flatMap fun d => 10 :: d := by
  intro ops
  induction ops with
  | nil => intro w; rfl
  | cons op ops ih =>
    intro w
    cases op with
    | write v st => exact ih (w ++ [(v, st)])
    | send enc =>
      simp only [Shell.run, Shell.dataToSend, Docs, ↓reduceIte]
      by_cases hw : w = []
      · subst hw
        simpa using ih []
      · rw [if_neg hw, if_neg hw]
        cases enc w with
        | error e => exact ih w
        | ok d =>
          simp only [List.flatMap_cons]
          rw [ih []]
          rfl

theorem onLines_cons (d : PyStr) (ds : List PyStr) : onLines (d :: ds) = d ++ ds.flatMap fun d => 10 :: d := by
  induction ds generalizing d with
  | nil => simp [onLines]
  | cons e ds ih => simp [onLines, ih]

theorem run_fresh : ∀ (ops : List ShellOp) (w : List (PVal × ClixmlStream)), FirstDelivers ops w →
    Shell.run ops { stdout := w } = withHeader (Docs ops w) := by
  intro ops
  induction ops with
  | nil => intro w _; rfl
  | cons op ops ih =>
    intro w h
    cases op with
    | write v st => exact ih _ h
    | send enc =>
      obtain ⟨hw, d, hd⟩ := h
      simp only [Shell.run, Shell.dataToSend, Docs, Bool.false_eq_true, ↓reduceIte]
      rw [if_neg hw, if_neg hw, hd]
      dsimp only
      rw [run_marked, withHeader, if_neg (by simp), onLines_cons, List.append_assoc]

theorem run_late : ∀ (ops : List ShellOp) (w : List (PVal × ClixmlStream)), ¬ FirstDelivers ops w →
    Shell.run ops { stdout := w } = (Docs ops w).flatMap fun d => 10 :: d := by
  intro ops
  induction ops with
  | nil => intro w h; exact absurd trivial h
  | cons op ops ih =>
    intro w h
    cases op with
    | write v st => exact ih _ h
    | send enc =>
      simp only [Shell.run, Shell.dataToSend, Docs, Bool.false_eq_true, ↓reduceIte]
      by_cases hw : w = []
      · subst hw
        simpa using run_marked ops []
      · rw [if_neg hw, if_neg hw]
        cases hd : enc w with
        | error e => exact run_marked ops w
        | ok d => exact absurd ⟨hw, d, hd⟩ h

/-- C39 for sequences of calls in which the first `data_to_send` has something to send and does not raise:
the output is nothing, or the header once followed by the documents on lines of their own, in order, with
every value that was written exactly once. -/
theorem C39_partial (ops : List ShellOp) (h : FirstDelivers ops []) :
    Shell.run ops {} = withHeader (Docs ops []) := run_fresh ops [] h

/-- C39, exactly: output there is starts with the header if and only if the first `data_to_send` had
something to send and did not raise. Without it the first document starts on an empty line. -/
theorem C39_exact (ops : List ShellOp) (h : Docs ops [] ≠ []) :
    (txt! "#< CLIXML\n") <+: Shell.run ops {} ↔ FirstDelivers ops [] := by
  constructor
  · intro hp
    refine Classical.byContradiction fun hf => ?_
    rw [run_late ops [] hf] at hp
    obtain ⟨d, ds, e⟩ := List.exists_cons_of_ne_nil h
    rw [e] at hp
    obtain ⟨t, ht⟩ := hp
    simp at ht
  · intro hf
    rw [run_fresh ops [] hf, withHeader, if_neg h]
    exact List.prefix_append _ _

/-- Values are written, sent, written and sent again. -/
example (d d' : PyStr) : Shell.run [.write .nil .output, .send fun _ => .ok d, .write (.bool true) .error,
    .send fun _ => .ok d'] {} = (txt! "#< CLIXML\n") ++ (d ++ (txt! "\n") ++ d') := by
  have h : FirstDelivers [.write .nil .output, .send fun _ => .ok d, .write (.bool true) .error, .send fun _ => .ok d'] [] :=
    ⟨by simp, d, rfl⟩
  rw [C39_partial _ h]
  rfl

/-- C39 does not hold: after a call of `data_to_send` with nothing to send the header is never written. -/
theorem C39_violated (v : PVal) (st : ClixmlStream) (d : PyStr) :
    Shell.run [.send fun _ => .ok d, .write v st, .send fun _ => .ok d] {} = 10 :: d := by
  simp [Shell.run, Shell.dataToSend, Shell.write]

/-- The same after a call that raised, as for a value that cannot be serialized. -/
theorem C39_violated_raised (v : PVal) (st : ClixmlStream) (d : PyStr) (e : Err) :
    Shell.run [.write v st, .send fun _ => .error e, .send fun _ => .ok d] {} = 10 :: d := by
  simp [Shell.run, Shell.dataToSend, Shell.write]

/-! ## C40: streams -/

theorem readStream_of (a : Option PyStr) : StreamOf a (readStream a) := by
  unfold readStream
  cases a with
  | none => exact .inr ⟨rfl, fun st' ⟨t, h, _⟩ => by cases h⟩
  | some t =>
    dsimp only
    split
    · rename_i h
      subst h
      exact .inr ⟨rfl, fun st' ⟨t, h, h'⟩ => by cases h; exact value_ne_nil st' (by rw [← (lower_names _ _).mpr h']; rfl)⟩
    · cases h : ClixmlStream.ofValue (lowerAscii t) with
      | some st => exact .inl ⟨t, rfl, (lower_names _ _).mp (ofValue_some.mp h)⟩
      | none =>
        exact .inr ⟨rfl, fun st' ⟨t', h1, h2⟩ => by
          cases h1
          rw [ofValue_some.mpr ((lower_names _ _).mpr h2)] at h
          cases h⟩

/-- The stream of an element is determined by its attribute. -/
theorem C40_stream_unique (a : Option PyStr) (st st' : ClixmlStream) (h : StreamOf a st) (h' : StreamOf a st') :
    st = st' := by
  have inj : ∀ x y : ClixmlStream, x.value = y.value → x = y := by
    intro x y e
    have h1 := ofValue_some.mpr (rfl : x.value = x.value)
    rw [e, ofValue_some.mpr rfl] at h1
    exact (Option.some.inj h1).symm
  rcases h with ⟨t, e, h1⟩ | ⟨rfl, hn⟩ <;> rcases h' with ⟨t', e', h2⟩ | ⟨rfl, hn'⟩
  · rw [e] at e'; cases e'
    exact inj _ _ (by rw [← (lower_names _ _).mpr h1, (lower_names _ _).mpr h2])
  · exact absurd ⟨t, e, h1⟩ (hn' st)
  · exact absurd ⟨t', e', h2⟩ (hn st')
  · rfl

/-- C40: every object of a document is read with the stream its `S` attribute names, in upper or lower
case, and with output if it names none; the objects are in document order. -/
theorem C40_streams (E : TextEnv) (L : Lib) (n : Nat) (xs : List Xml) (s s' : DState) (dvs : List (DVal × ClixmlStream))
    (h : readDoc E L n xs s = .ok (dvs, s')) : All2 (fun x d => StreamOf x.attrs.stream d.2) xs dvs := by
  induction xs generalizing s s' dvs with
  | nil => cases h; exact .nil
  | cons x xs ih =>
    unfold readDoc at h
    cases h1 : deser E L n x s with
    | error e => rw [h1] at h; cases h
    | ok r =>
      obtain ⟨v, s1⟩ := r
      rw [h1] at h
      dsimp only at h
      cases h2 : readDoc E L n xs s1 with
      | error e => rw [h2] at h; cases h
      | ok r =>
        obtain ⟨vs, s2⟩ := r
        rw [h2] at h
        cases h
        exact .cons (readStream_of _) (ih _ _ _ h2)

/-! ## C40: sorting -/

theorem sortObj_of {str : List DObj → DVal → PyStr} {heap : List DObj} {v : DVal} {st : ClixmlStream} {out out' : ClixmlOut}
    (h : sortObj str heap v st out = .ok out') : ∃ i, Becomes str heap st v i ∧
      ∀ st', out'.of st' = out.of st' ++ if st' = st then [i] else [] := by
  cases st with
  | progress =>
    unfold sortObj at h
    dsimp only at h
    cases hr : recordOf heap v with
    | error e => rw [hr] at h; cases h
    | ok r =>
      rw [hr] at h
      cases h
      exact ⟨_, ⟨r, hr, rfl⟩, fun st' => by cases st' <;> simp [ClixmlOut.of]⟩
  | error =>
    unfold sortObj at h
    dsimp only at h
    split at h
    · rename_i he
      cases h
      exact ⟨.obj heap v, by simp [Becomes, he], fun st' => by cases st' <;> simp [ClixmlOut.of]⟩
    · rename_i he
      cases h
      exact ⟨.record (str heap v), by simp [Becomes, he], fun st' => by cases st' <;> simp [ClixmlOut.of]⟩
  | _ =>
    cases h
    exact ⟨_, rfl, fun st' => by cases st' <;> simp [ClixmlOut.of]⟩

theorem sortObjs_of {str : List DObj → DVal → PyStr} {heap : List DObj} :
    ∀ {vs : List (DVal × ClixmlStream)} {out out' : ClixmlOut}, sortObjs str heap vs out = .ok out' →
    ∀ st, ∃ items, out'.of st = out.of st ++ items ∧
      All2 (fun v i => Becomes str heap st v i) ((vs.filter fun e => e.2 = st).map Prod.fst) items := by
  intro vs
  induction vs with
  | nil => intro out out' h st; cases h; exact ⟨[], by simp, .nil⟩
  | cons e vs ih =>
    intro out out' h st
    obtain ⟨v, st0⟩ := e
    unfold sortObjs at h
    cases h1 : sortObj str heap v st0 out with
    | error e => rw [h1] at h; cases h
    | ok out1 =>
      rw [h1] at h
      dsimp only at h
      obtain ⟨i, hb, ho⟩ := sortObj_of h1
      obtain ⟨items, hi, ha⟩ := ih h st
      by_cases e : st = st0
      · subst e
        refine ⟨i :: items, ?_, ?_⟩
        · rw [hi, ho st, if_pos rfl, List.append_assoc]; rfl
        · rw [List.filter_cons_of_pos (by simp)]
          exact .cons hb ha
      · refine ⟨items, ?_, ?_⟩
        · rw [hi, ho st, if_neg e, List.append_nil]
        · rw [List.filter_cons_of_neg (by simpa using fun h => e h.symm)]
          exact ha

/-- C40: what `from_clixml` gives has for every stream exactly the objects of that stream in all documents, in
document order; texts that are empty are no documents. -/
theorem C40_sorted (str : List DObj → DVal → PyStr) (read : PyStr → Except Err (List (DVal × ClixmlStream) × DState))
    (texts : List PyStr) (out : ClixmlOut) (h : fromClixml str read texts = .ok out) :
    ∃ docs, All2 (fun t d => read t = .ok d) (texts.filter (· ≠ [])) docs ∧
      ∀ st, All2 (fun hv i => Becomes str hv.1 st hv.2 i) (ofStream docs st) (out.of st) := by
  have key : ∀ (texts : List PyStr) (out0 out : ClixmlOut), sortDocs str read texts out0 = .ok out →
      ∃ docs, All2 (fun t d => read t = .ok d) (texts.filter (· ≠ [])) docs ∧
        ∀ st, ∃ items, out.of st = out0.of st ++ items ∧
          All2 (fun hv i => Becomes str hv.1 st hv.2 i) (ofStream docs st) items := by
    intro texts
    induction texts with
    | nil => intro out0 out h; cases h; exact ⟨[], .nil, fun st => ⟨[], by simp, .nil⟩⟩
    | cons t ts ih =>
      intro out0 out h
      unfold sortDocs at h
      split at h
      · rename_i ht
        subst ht
        simpa using ih out0 out h
      · rename_i ht
        cases h1 : read t with
        | error e => rw [h1] at h; cases h
        | ok d =>
          obtain ⟨vs, s⟩ := d
          rw [h1] at h
          dsimp only at h
          cases h2 : sortObjs str s.heap vs out0 with
          | error e => rw [h2] at h; cases h
          | ok out1 =>
            rw [h2] at h
            dsimp only at h
            obtain ⟨docs, hd, hs⟩ := ih out1 out h
            refine ⟨(vs, s) :: docs, ?_, fun st => ?_⟩
            · rw [List.filter_cons_of_pos (by simpa using ht)]
              exact .cons h1 hd
            · obtain ⟨items, e1, a1⟩ := sortObjs_of h2 st
              obtain ⟨items', e2, a2⟩ := hs st
              refine ⟨items ++ items', by rw [e2, e1, List.append_assoc], ?_⟩
              have : ofStream ((vs, s) :: docs) st =
                  ((vs.filter fun e => e.2 = st).map Prod.fst).map (fun v => (s.heap, v)) ++ ofStream docs st := by
                simp [ofStream]
              rw [this]
              refine All2.append ?_ a2
              clear a2 e1
              generalize (vs.filter fun e => e.2 = st).map Prod.fst = l at a1
              induction a1 with
              | nil => exact .nil
              | cons h _ ih => exact .cons h ih
  obtain ⟨docs, h1, h2⟩ := key texts {} out h
  refine ⟨docs, h1, fun st => ?_⟩
  obtain ⟨items, e, a⟩ := h2 st
  have : ClixmlOut.of {} st = [] := by cases st <;> rfl
  rw [this, List.nil_append] at e
  rw [e]
  exact a

/-- C40: and it gives that for all documents that can be read and whose progress objects have a record. -/
theorem C40_total (str : List DObj → DVal → PyStr) (read : PyStr → Except Err (List (DVal × ClixmlStream) × DState))
    (texts : List PyStr) (hr : ∀ t ∈ texts, t ≠ [] → ∃ d, read t = .ok d)
    (hp : ∀ t ∈ texts, ∀ d, read t = .ok d → ∀ v, (v, ClixmlStream.progress) ∈ d.1 → ∃ r, recordOf d.2.heap v = .ok r) :
    ∃ out, fromClixml str read texts = .ok out := by
  have objs : ∀ (heap : List DObj) (vs : List (DVal × ClixmlStream)) (out : ClixmlOut),
      (∀ v, (v, ClixmlStream.progress) ∈ vs → ∃ r, recordOf heap v = .ok r) → ∃ out', sortObjs str heap vs out = .ok out' := by
    intro heap vs
    induction vs with
    | nil => intro out _; exact ⟨out, rfl⟩
    | cons e vs ih =>
      intro out h
      obtain ⟨v, st⟩ := e
      have : ∃ out1, sortObj str heap v st out = .ok out1 := by
        unfold sortObj
        cases st with
        | progress =>
          obtain ⟨r, hr⟩ := h v (by simp)
          simp only [hr]
          exact ⟨_, rfl⟩
        | error =>
          dsimp only
          split <;> exact ⟨_, rfl⟩
        | _ => exact ⟨_, rfl⟩
      obtain ⟨out1, h1⟩ := this
      obtain ⟨out', h2⟩ := ih out1 (fun v hv => h v (by simp [hv]))
      exact ⟨out', by unfold sortObjs; rw [h1]; exact h2⟩
  have key : ∀ (out : ClixmlOut), ∃ out', sortDocs str read texts out = .ok out' := by
    induction texts with
    | nil => intro out; exact ⟨out, rfl⟩
    | cons t ts ih =>
      intro out
      have ih := ih (fun t h => hr t (by simp [h])) (fun t h => hp t (by simp [h]))
      unfold sortDocs
      split
      · exact ih out
      · rename_i ht
        obtain ⟨⟨vs, s⟩, hd⟩ := hr t (by simp) ht
        obtain ⟨out1, h1⟩ := objs s.heap vs out (hp t (by simp) _ hd)
        rw [hd]
        dsimp only
        rw [h1]
        exact ih out1
  exact key {}

/-- Beside `C40_sorted` and `C40_total`: two documents and an empty text. -/
example (str : List DObj → DVal → PyStr) :
    ∃ out, fromClixml str (fun t => .ok ([(.bool (t = [1]), .error), (.nil, .output), (.bool true, .error)], {}))
      [[1], [], [2]] = .ok out ∧ out.output = [.obj [] .nil, .obj [] .nil] ∧
      out.error = [.record (str [] (.bool true)), .record (str [] (.bool true)), .record (str [] (.bool false)),
        .record (str [] (.bool true))] := ⟨_, rfl, rfl, rfl⟩

/-- C40 does not hold for `(record, ClixmlStream.PROGRESS)`, the form `serialize_clixml` documents: the
document is written and read, and `from_clixml` raises `AttributeError` as it looks for the object
PowerShell wraps the record in. -/
theorem C40_violated (E : TextEnv) (hE : ExtendsAscii E.uni) (L : Lib) (H : Heap) (r : Progress) (hr : r.Faithful)
    (n m : Nat) (str : List DObj → DVal → PyStr) : ∃ xs s,
    serDoc E H (n + 1) [(.prim (.progress r), some .progress)] {} = .ok (xs, s) ∧
    readDoc E L (m + 1) xs {} = .ok ([(.prim (.progress r), .progress)], {}) ∧
    sortObjs str [] [(.prim (.progress r), .progress)] {} = .error .attributeError := by
  refine ⟨_, _, rfl, ?_, rfl⟩
  unfold readDoc
  rw [deser_tagStream, deser_prim hE L (p := .progress r)
    ⟨hr.activity.1, hr.activity.2, hr.status.1, hr.status.2, hr.operation, hr.ints⟩]
  rfl

/-! ## C63: documents as texts -/

theorem serDoc_ne_nil {E : TextEnv} {H : Heap} {n : Nat} {vs : List (PVal × Option ClixmlStream)} (hv : vs ≠ []) {s s' : SState}
    {xs : List Xml} (h : serDoc E H n vs s = .ok (xs, s')) : xs ≠ [] := by
  cases vs with
  | nil => exact absurd rfl hv
  | cons e vs =>
    obtain ⟨v, st⟩ := e
    unfold serDoc at h
    cases h1 : ser E H n v s with
    | error e => rw [h1] at h; cases h
    | ok r =>
      obtain ⟨x, s1⟩ := r
      rw [h1] at h
      dsimp only at h
      cases h2 : serDoc E H n vs s1 with
      | error e => rw [h2] at h; cases h
      | ok r =>
        obtain ⟨ys, s2⟩ := r
        rw [h2] at h
        cases h
        exact List.cons_ne_nil _ _

/-- The start of a document up to the end of the start tag. -/
def rootStart : PyStr :=
  txt! "<Objs Version=\"1.1.0.1\" xmlns=\"http://schemas.microsoft.com/powershell/2004/04\""

theorem drop_idxOf {c : Nat} {s : PyStr} (h : c ∉ s) (t : PyStr) : (s ++ c :: t).drop ((s ++ c :: t).idxOf c) = c :: t := by
  induction s with
  | nil => simp
  | cons d s ih =>
    have hd : d ≠ c := fun e => h (e ▸ List.mem_cons_self)
    rw [List.cons_append, List.idxOf_cons, show (d == c) = false by simpa using hd]
    exact ih fun hm => h (List.mem_cons_of_mem _ hm)

theorem fromRootEnd_root (t : PyStr) : fromRootEnd (rootStart ++ 62 :: t) = 62 :: t := by
  have hn : (62 : Nat) ∉ rootStart := by decide +kernel
  unfold fromRootEnd
  rw [if_pos (by simp)]
  exact drop_idxOf hn t

theorem stripHeader_root (t : PyStr) : stripHeader (rootStart ++ t) = rootStart ++ t := by
  unfold stripHeader
  rw [if_neg]
  simp [rootStart, List.isPrefixOf]

/-- The header with any number of line ends after it. -/
def HeaderLine (s : PyStr) : Prop := ∃ e, (∀ c ∈ e, c = 13 ∨ c = 10) ∧ s = (txt! "#< CLIXML") ++ e

theorem stripHeader_line {l : PyStr} (hl : HeaderLine l) (t : PyStr) : stripHeader (l ++ (rootStart ++ t)) = rootStart ++ t := by
  obtain ⟨e, he, rfl⟩ := hl
  unfold stripHeader
  rw [if_pos (by rw [List.isPrefixOf_iff_prefix, List.append_assoc]; exact List.prefix_append _ _)]
  have : (((txt! "#< CLIXML") ++ e) ++ (rootStart ++ t)).drop 9 = e ++ (rootStart ++ t) := by
    rw [List.append_assoc]; rfl
  rw [this, List.dropWhile_append_of_pos (by intro c hc; simpa using he c hc)]
  simp [rootStart]

/-- C63: the text `serialize_clixml` gives for one or more values is read by `deserialize_clixml` as the
elements that were written, with or without the header of a shell before it, if the XML library reads
what it writes. -/
theorem C63_partial (E : TextEnv) (L : Lib) (X : XmlText) (H : Heap) (n m : Nat)
    (vs : List (PVal × Option ClixmlStream)) (hv : vs ≠ []) (t : PyStr) (h : serializeClixml E X H n vs = .ok t)
    (hX : ∀ xs s, serDoc E H n vs {} = .ok (xs, s) → X.Faithful xs) : ∃ xs s, serDoc E H n vs {} = .ok (xs, s) ∧
      deserializeClixml E L X m t = readDoc E L m xs {} ∧
      ∀ l, HeaderLine l → deserializeClixml E L X m (l ++ t) = readDoc E L m xs {} := by
  unfold serializeClixml at h
  cases hs : serDoc E H n vs {} with
  | error e => rw [hs] at h; cases h
  | ok r =>
    obtain ⟨xs, s⟩ := r
    rw [hs] at h
    have ht : t = rootStart ++ 62 :: (X.body xs ++ (txt! "</Objs>")) := by
      cases h
      unfold rootText
      rw [if_neg (serDoc_ne_nil hv hs)]
      rfl
    have hp : X.parse ((txt! "<Objs") ++ 62 :: (X.body xs ++ (txt! "</Objs>"))) = .ok xs := by
      have := hX xs s hs
      unfold XmlText.Faithful at this
      rw [← this]
      rfl
    refine ⟨xs, s, rfl, ?_, fun l hl => ?_⟩
    · unfold deserializeClixml
      rw [ht, stripHeader_root, fromRootEnd_root, hp]
    · unfold deserializeClixml
      rw [ht, stripHeader_line hl, fromRootEnd_root, hp]

/-- C63 with C41: values that are written to a text and read from it stand for the same values. -/
theorem C63_values_partial (E : TextEnv) (hE : ExtendsAscii E.uni) (L : Lib) (std : L.Standard) (X : XmlText)
    (H : Heap) (vs : List (PVal × Option ClixmlStream)) (hv : vs ≠ [])
    (ok : GraphOk E L H (vs.map Prod.fst)) (n m : Nat) (hnm : n < m) (t : PyStr)
    (h : serializeClixml E X H n vs = .ok t) (hX : ∀ xs s, serDoc E H n vs {} = .ok (xs, s) → X.Faithful xs) :
    ∃ dvs ds φ, deserializeClixml E L X m t = .ok (dvs, ds) ∧
      All2 (fun v d => VMatch φ v.1 d.1 ∧ d.2 = v.2.getD .output) vs dvs ∧
      ∀ b a, φ b = some a → ∃ d, ds.heap[b]? = some d ∧ OMatch L φ (H a) (ds.shown L d) := by
  obtain ⟨xs, s, hs, hd, _⟩ := C63_partial E L X H n m vs hv t h hX
  obtain ⟨dvs, ds, φ, h1, h2⟩ := C41_partial E hE L std H vs ok n m hnm xs s hs
  exact ⟨dvs, ds, φ, by rw [hd, h1], h2⟩

/-- C63 does not hold for no values at all: the root element without children has no end tag, and what is
given to the XML library is `<Objs>`, which is not a document. -/
theorem C63_violated (E : TextEnv) (L : Lib) (X : XmlText) (H : Heap) (n m : Nat) (e : Err)
    (hX : X.parse (txt! "<Objs>") = .error e) :
    ∃ t, serializeClixml E X H n [] = .ok t ∧ deserializeClixml E L X m t = .error e := by
  refine ⟨_, rfl, ?_⟩
  unfold deserializeClixml
  have : (txt! "<Objs") ++ fromRootEnd (stripHeader (rootText X [])) = txt! "<Objs>" := by
    show (txt! "<Objs") ++ fromRootEnd (stripHeader (rootStart ++ txt! " />")) = _
    rw [stripHeader_root]
    decide +kernel
  rw [this, hX]

/-- The output of a shell that sent two documents is not read as one text: the XML library is given the
second document behind the end of the first, which is not a document. -/
theorem C63_violated_two (E : TextEnv) (L : Lib) (X : XmlText) (m : Nat) (xs ys : List Xml) (hx : xs ≠ []) (e : Err)
    (hX : X.parse ((txt! "<Objs>") ++ X.body xs ++ (txt! "</Objs>\n") ++ rootText X ys) = .error e) :
    deserializeClixml E L X m (withHeader [rootText X xs, rootText X ys]) = .error e := by
  unfold deserializeClixml
  have h1 : withHeader [rootText X xs, rootText X ys] =
      ((txt! "#< CLIXML") ++ [10]) ++ (rootStart ++ 62 :: (X.body xs ++ (txt! "</Objs>\n") ++ rootText X ys)) := by
    have hr : rootText X xs = rootStart ++ 62 :: (X.body xs ++ (txt! "</Objs>")) := by
      unfold rootText; rw [if_neg hx]; rfl
    unfold withHeader
    rw [if_neg (by simp), hr]
    simp [onLines]
  rw [h1, stripHeader_line ⟨[10], by simp, rfl⟩, fromRootEnd_root]
  have h2 : (txt! "<Objs") ++ 62 :: (X.body xs ++ (txt! "</Objs>\n") ++ rootText X ys) =
      (txt! "<Objs>") ++ X.body xs ++ (txt! "</Objs>\n") ++ rootText X ys := by simp
  rw [h2, hX]

/-! ## C40: from a shell to the output -/

theorem shown_other {E : TextEnv} {L : Lib} (std : L.Standard) {s : DState} {d : DObj} {o : PObj} (ok : o.Ok E L)
    (h : (s.shown L d).cls = resultClass L o) (hd : ∀ p, o.data ≠ .enum p) : s.shown L d = d := by
  unfold DState.shown at h ⊢
  cases he : L.enumClass d with
  | none => rfl
  | some c =>
    rw [he] at h
    have h : d.cls = resultClass L o := h
    unfold Lib.enumClass at he
    cases hc : d.cls with
    | none => rw [hc] at he; cases he
    | some c' =>
      rw [hc] at he
      dsimp only at he
      cases hk : (L.info c').kind.isEnum with
      | false => rw [hk] at he; cases he
      | true =>
        obtain ⟨p, hp, _⟩ := member_of_enum std ok (by rw [← h, hc]) hk
        exact absurd hp (hd p)

theorem recordOf_match {E : TextEnv} {L : Lib} (std : L.Standard) {φ : Nat → Option Nat} {heap : List DObj} {b : Nat} {d : DObj} {n : Int} {r : PVal}
    {s : DState} (ok : (progressObj n r).Ok E L) (hb : heap[b]? = some d) (hm : OMatch L φ (progressObj n r) (s.shown L d)) : ∃ w, recordOf heap (.ref b) = .ok w ∧ VMatch φ r w := by
  rw [shown_other std ok hm.cls (by intro p h; cases h)] at hm
  have ha := hm.adapted
  have he := hm.extended
  rw [completed_none (by
    simp only [resultClass, progressObj, Registry.rehydrate, std.object]
    rw [if_neg (by decide)])] at ha he
  unfold progressObj at ha he
  dsimp only at ha he
  cases hda : d.adapted with
  | cons x y => rw [hda] at ha; cases ha
  | nil =>
    generalize hde : d.extended = l at he
    cases he with
    | cons h1 t =>
      cases t with
      | cons h2 t =>
        cases t
        rename_i q1 q2
        refine ⟨q2.2, ?_, h2.2⟩
        simp only [recordOf, hb, hda, hde]
        have e1 : q1.1 = txt! "SourceId" := h1.1.symm
        have e2 : q2.1 = txt! "Record" := h2.1.symm
        simp [e1, e2]

/-- C40 and C39 together: what a shell sent, for any values in any streams, is sorted by `from_clixml` into the
streams they were written to, in the order they were written, and stands for what was written. The
progress records are those given to `write_progress`. -/
theorem C40_shell_partial (E : TextEnv) (hE : ExtendsAscii E.uni) (L : Lib) (std : L.Standard) (X : XmlText)
    (str : List DObj → DVal → PyStr) (H : Heap) (vs : List (PVal × ClixmlStream)) (hv : vs ≠ [])
    (ok : GraphOk E L H (vs.map Prod.fst))
    (hp : ∀ v, (v, ClixmlStream.progress) ∈ vs → ∃ a n r, v = .ref a ∧ H a = progressObj n r)
    (n m : Nat) (hnm : n < m) (t : PyStr)
    (h : serializeClixml E X H n (vs.map fun v => (v.1, some v.2)) = .ok t)
    (hX : ∀ xs s, serDoc E H n (vs.map fun v => (v.1, some v.2)) {} = .ok (xs, s) → X.Faithful xs) :
    ∃ out, ∃ ds : DState, ∃ φ, fromClixml str (deserializeClixml E L X m) [withHeader [t]] = .ok out ∧
      (∀ st, All2 (fun v i => Delivered str H ds.heap φ st v i) ((vs.filter fun e => e.2 = st).map Prod.fst) (out.of st)) ∧
      ∀ b a, φ b = some a → ∃ d, ds.heap[b]? = some d ∧ OMatch L φ (H a) (ds.shown L d) := by
  have hv' : (vs.map fun v => (v.1, some v.2)) ≠ [] := by simpa using hv
  have ok' : GraphOk E L H ((vs.map fun v => (v.1, some v.2)).map Prod.fst) := by
    rw [List.map_map]; exact ok
  obtain ⟨xs, s, hs, _, hd⟩ := C63_partial E L X H n m _ hv' t h hX
  obtain ⟨dvs, ds, φ, h1, h2, h3⟩ := C41_partial E hE L std H _ ok' n m hnm xs s hs
  replace hp : ∀ v, (v, ClixmlStream.progress) ∈ vs → ∃ a n r, v = .ref a ∧ H a = progressObj n r ∧
      (progressObj n r).Ok E L := by
    intro v hv
    obtain ⟨a, n, r, rfl, ha⟩ := hp v hv
    exact ⟨a, n, r, rfl, ha, ha ▸ ok.objs a (.root (List.mem_map.mpr ⟨_, hv, rfl⟩))⟩
  have hread : deserializeClixml E L X m (withHeader [t]) = .ok (dvs, ds) := by
    have := hd ((txt! "#< CLIXML") ++ [10]) ⟨[10], by simp, rfl⟩
    rw [h1] at this
    rw [← this]
    rfl
  have hm : All2 (fun v d => VMatch φ v.1 d.1 ∧ d.2 = v.2) vs dvs := by
    clear hd hread hs h h1 hp ok ok' hv hv' hX
    generalize hw : (vs.map fun v => (v.1, some v.2)) = ws at h2
    induction h2 generalizing vs with
    | nil => cases vs with
      | nil => exact .nil
      | cons _ _ => cases hw
    | cons h _ ih => cases vs with
      | nil => cases hw
      | cons v vs =>
        simp only [List.map_cons, List.cons.injEq] at hw
        obtain ⟨rfl, hw⟩ := hw
        exact .cons ⟨h.1, h.2⟩ (ih vs hw)
  have hrec : ∀ v, (v, ClixmlStream.progress) ∈ dvs → ∃ r, recordOf ds.heap v = .ok r := by
    intro v hv
    have : ∃ w, (w, ClixmlStream.progress) ∈ vs ∧ VMatch φ w v := by
      clear hd hread hs h h1 hp ok ok' h2 hv' hX
      clear ‹vs ≠ []›
      induction hm with
      | nil => cases hv
      | cons h _ ih =>
        rcases List.mem_cons.mp hv with e | hv
        · subst e
          refine ⟨_, ?_, h.1⟩
          have e := h.2
          dsimp only at e
          rw [e]
          exact List.mem_cons_self
        · obtain ⟨w, hw, hm⟩ := ih hv
          exact ⟨w, List.mem_cons_of_mem _ hw, hm⟩
    obtain ⟨w, hw, hwm⟩ := this
    obtain ⟨a, k, r, rfl, ha, hok⟩ := hp w hw
    obtain ⟨b, rfl, e⟩ := hwm
    obtain ⟨d, hb, om⟩ := h3 b a e
    rw [ha] at om
    obtain ⟨w, h, _⟩ := recordOf_match std hok hb om
    exact ⟨w, h⟩
  obtain ⟨out, ho⟩ := C40_total str (deserializeClixml E L X m) [withHeader [t]]
    (fun t' ht' _ => by simp at ht'; subst ht'; exact ⟨_, hread⟩)
    (fun t' ht' d hd' v hv => by
      simp at ht'; subst ht'
      rw [hread] at hd'
      cases hd'
      exact hrec v hv)
  refine ⟨out, ds, φ, ho, fun st => ?_, h3⟩
  obtain ⟨docs, hdocs, hsort⟩ := C40_sorted str _ _ out ho
  have hne : withHeader [t] ≠ [] := by unfold withHeader; simp
  rw [List.filter_cons_of_pos (by simpa using hne), List.filter_nil] at hdocs
  cases hdocs with
  | cons hd1 tl =>
    cases tl
    rw [hread] at hd1
    cases hd1
    clear hs
    have hs := hsort st
    simp only [ofStream, List.flatMap_cons, List.flatMap_nil, List.append_nil] at hs
    clear hsort ho hrec hread h1 h2 hd h hv hv' ok ok' hX
    generalize out.of st = items at hs
    induction hm generalizing items with
    | nil => cases hs; exact .nil
    | @cons v d vs' dvs' hvd _ ih =>
      have hp' := fun w hw => hp w (List.mem_cons_of_mem v hw)
      by_cases e : d.2 = st
      · rw [List.filter_cons_of_pos (by simpa using e)] at hs
        rw [List.filter_cons_of_pos (by rw [← hvd.2]; simpa using e)]
        rw [List.map_cons] at hs
        cases hs with
        | cons hb hs =>
          refine .cons ?_ (ih hp' _ hs)
          obtain ⟨v1, v2⟩ := v
          obtain ⟨d1, d2⟩ := d
          dsimp only at hvd e hb ⊢
          obtain ⟨hvm, rfl⟩ := hvd
          subst e
          cases d2 with
          | progress =>
            obtain ⟨r, hr, rfl⟩ := hb
            obtain ⟨a, k, w, rfl, ha, hok⟩ := hp v1 List.mem_cons_self
            obtain ⟨b, rfl, e⟩ := hvm
            obtain ⟨d, hb, om⟩ := h3 b a e
            rw [ha] at om
            obtain ⟨w', h, hw⟩ := recordOf_match std hok hb om
            rw [hr] at h
            cases h
            exact ⟨a, k, w, r, rfl, ha, hw, rfl⟩
          | _ => exact ⟨d1, hvm, hb⟩
      · rw [List.filter_cons_of_neg (by simpa using e)] at hs
        rw [List.filter_cons_of_neg (by rw [← hvd.2]; simpa using e)]
        exact ih hp' _ hs

end Verif
