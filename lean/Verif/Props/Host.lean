import Verif.Proof.Host

/-! # Host calls (C38, C46) -/

namespace Verif

/-! ## C38: arrays -/

/-- A rectangular list of rows is unpacked to the same rows, for every number of rows and columns and
every way to pack the elements that can be undone. -/
theorem C38 {α : Type} {pack : α → Except Err HVal} {unpack : HVal → Except Err α} {vs : List (List α)}
    (hv : Rectangular vs) (hp : ∀ row ∈ vs, ∀ x ∈ row, ∃ v, pack x = .ok v ∧ unpack v = .ok x) :
    ∃ v, createArray pack vs = .ok v ∧ unpackArray unpack v = .ok vs := array_rt hv hp

/-- With the cells of a screen buffer. -/
theorem C38_cells {strict : Bool} {vs : List (List BufferCell)} (hv : Rectangular vs)
    (hc : ∀ row ∈ vs, ∀ c ∈ row, c.Valid strict) :
    ∃ v, createArray BufferCell.toHost vs = .ok v ∧ unpackArray (BufferCell.fromHost strict) v = .ok vs :=
  array_rt hv fun row hr c hx => cell_rt (hc row hr c hx)

/-- Nothing but rectangular lists survives. -/
theorem C38_exact {α : Type} {pack : α → Except Err HVal} {unpack : HVal → Except Err α} {vs : List (List α)}
    (hp : ∀ row ∈ vs, ∀ x ∈ row, ∃ v, pack x = .ok v ∧ unpack v = .ok x) :
    (∃ v, createArray pack vs = .ok v ∧ unpackArray unpack v = .ok vs) ↔ Rectangular vs := by
  constructor
  · rintro ⟨v, h1, h2⟩
    cases vs with
    | nil => simp [createArray] at h1
    | cons row rest =>
      obtain ⟨v', h3, h4⟩ := unpack_create (vs := row :: rest) (row := row) rfl (pack := pack) (unpack := unpack) (by
        intro x hx
        obtain ⟨r, hr, hx⟩ := List.mem_flatten.mp hx
        exact hp r hr x hx)
      rw [h1] at h3
      cases h3
      rw [h4] at h2
      refine ⟨by simp, row.length, ?_, ?_⟩
      · cases hr : row.length with
        | succ n => omega
        | zero =>
          rw [hr] at h2
          have : chunkLoop ((0 : Nat) : Int) [] [] (row :: rest).flatten = [] := chunkLoop_zero _ _
          rw [this] at h2
          simp [chunkLoop] at h2
      · intro r hr
        have hin := chunkLoop_length (count := (row.length : Int)) (row :: rest).flatten [] [] (by simp)
        have hout : ∀ g ∈ chunkLoop ((row :: rest).length : Int) [] []
            (chunkLoop (row.length : Int) [] [] (row :: rest).flatten), ∀ e ∈ g,
            e ∈ chunkLoop (row.length : Int) [] [] (row :: rest).flatten := by
          have key : ∀ (es : List (List α)) (done : List (List (List α))) (entries : List (List α))
              (P : List α → Prop), (∀ g ∈ done, ∀ e ∈ g, P e) → (∀ e ∈ entries, P e) → (∀ e ∈ es, P e) →
              ∀ g ∈ chunkLoop ((row :: rest).length : Int) done entries es, ∀ e ∈ g, P e := by
            intro es
            induction es with
            | nil => intro done entries P h1 _ _; exact h1
            | cons e es ih =>
              intro done entries P h1 h2 h3
              have he : ∀ x ∈ entries ++ [e], P x := by
                intro x hx
                rcases List.mem_append.mp hx with hx | hx
                · exact h2 x hx
                · rw [List.mem_singleton] at hx; rw [hx]; exact h3 e (by simp)
              simp only [chunkLoop]
              split
              · apply ih
                · intro g hg
                  rcases List.mem_append.mp hg with hg | hg
                  · exact h1 g hg
                  · rw [List.mem_singleton] at hg; rw [hg]; exact he
                · simp
                · exact fun x hx => h3 x (by simp [hx])
              · exact ih _ _ _ h1 he fun x hx => h3 x (by simp [hx])
          exact key _ [] [] _ (by simp) (by simp) fun e he => he
        split at h2
        · rename_i g hg
          cases h2
          have hm := List.mem_of_mem_head? hg
          have := hin r (hout _ hm r hr)
          omega
        · cases h2
  · intro hv
    exact array_rt hv hp

/-- A list of rows without columns is packed, but unpacking it raises. -/
theorem C38_empty_columns {α : Type} (pack : α → Except Err HVal) (unpack : HVal → Except Err α) (n : Nat) :
    ∃ v, createArray pack (List.replicate (n + 1) []) = .ok v ∧ unpackArray unpack v = .error .indexError := by
  obtain ⟨v, h1, h2⟩ := unpack_create (vs := List.replicate (n + 1) ([] : List α)) (row := []) rfl
    (pack := pack) (unpack := unpack) (by simp)
  refine ⟨v, h1, h2.trans ?_⟩
  have : chunkLoop ((([] : List α).length : Nat) : Int) [] [] (List.replicate (n + 1) ([] : List α)).flatten = [] :=
    chunkLoop_zero _ _
  rw [this]
  rfl

/-- Rows of different lengths lose elements without an error. -/
theorem C38_ragged {α : Type} {pack : α → Except Err HVal} {unpack : HVal → Except Err α} (a b c : α)
    (hp : ∀ x, ∃ v, pack x = .ok v ∧ unpack v = .ok x) :
    ∃ v, createArray pack [[a], [b, c]] = .ok v ∧ unpackArray unpack v = .ok [[a], [b]] := by
  obtain ⟨v, h1, h2⟩ := unpack_create (vs := [[a], [b, c]]) (row := [a]) rfl (pack := pack) (unpack := unpack)
    fun x _ => hp x
  exact ⟨v, h1, h2⟩

/-- A cell of a screen buffer, used in the examples. -/
def sampleCell (c : Int) : BufferCell := ⟨some c, some 15, some 0, some 0⟩

theorem sampleCell_valid (strict : Bool) {c : Int} (h : IsUnit c) : (sampleCell c).Valid strict :=
  ⟨by rintro _ ⟨⟩; exact h, ⟨15, rfl, by unfold IsColor; omega⟩, ⟨0, rfl, by unfold IsColor; omega⟩, 0, rfl,
    isFlag_zero _ _⟩

example : Rectangular [[sampleCell 65, sampleCell 66, sampleCell 67], [sampleCell 68, sampleCell 69, sampleCell 70]] ∧
    ∀ row ∈ [[sampleCell 65, sampleCell 66, sampleCell 67], [sampleCell 68, sampleCell 69, sampleCell 70]],
      ∀ c ∈ row, c.Valid true := by
  refine ⟨⟨by simp, 3, by omega, by simp⟩, ?_⟩
  intro row hr c hc
  simp only [List.mem_cons, List.not_mem_nil, or_false] at hr
  rcases hr with rfl | rfl <;> simp only [List.mem_cons, List.not_mem_nil, or_false] at hc <;>
    rcases hc with rfl | rfl | rfl <;> exact sampleCell_valid _ (by unfold IsUnit; omega)

/-! ## C46: objects, calls and replies -/

/-- The objects of host calls come back as they were. -/
theorem C46_objects (strict : Bool) :
    (∀ c : Coordinates, c.Valid → Coordinates.fromHost c.toHost = .ok c) ∧
    (∀ s : HostSize, s.Valid → HostSize.fromHost s.toHost = .ok s) ∧
    (∀ r : Rectangle, r.Valid → Rectangle.fromHost r.toHost = .ok r) ∧
    (∀ k : KeyInfo, k.Valid strict → ∃ v, k.toHost = .ok v ∧ KeyInfo.fromHost strict v = .ok k) ∧
    (∀ b : BufferCell, b.Valid strict → ∃ v, b.toHost = .ok v ∧ BufferCell.fromHost strict v = .ok b) ∧
    (∀ c : ChoiceDescription, ChoiceDescription.fromHost c.toHost = .ok c) :=
  ⟨fun _ => coordinates_rt, fun _ => size_rt, fun _ => rectangle_rt, fun _ => keyInfo_rt, fun _ => cell_rt,
    choice_rt⟩

/-- What the constructors make is valid: coordinates, sizes and rectangles of any arguments, unless an
enum member with a number outside of 32 bits is among them (see `C29_violated`). -/
theorem C46_made {a b c d : HVal} (h : ∀ v : HVal, (v = a ∨ v = b ∨ v = c ∨ v = d) → ∀ n, v = .enum n → Int32 n) :
    (∀ x, Coordinates.new a b = .ok x → x.Valid) ∧ (∀ x, HostSize.new a b = .ok x → x.Valid) ∧
    ∀ x, Rectangle.new a b c d = .ok x → x.Valid := by
  have key : ∀ v : HVal, (∀ n, v = .enum n → Int32 n) → ∀ o, v.asInt = .ok o → ∀ n ∈ o, Int32 n := by
    have hnew : ∀ m n : Int, IntKind.psInt.new (.number m) = .ok n → Int32 n := by
      intro m n hh
      have := (C29_construct .psInt m n .valueError).1.mp hh
      obtain ⟨rfl, h1, h2⟩ := this
      have h3 : n < 2147483648 := h2
      exact ⟨h1, by omega⟩
    have hmap : ∀ m : Int, ∀ o, (IntKind.psInt.new (.number m)).map some = .ok o → ∀ n ∈ o, Int32 n := by
      intro m o ho n hn
      cases hx : IntKind.psInt.new (.number m) with
      | error e => rw [hx] at ho; cases ho
      | ok w => rw [hx] at ho; cases ho; cases hn; exact hnew m _ hx
    intro v hv o ho
    cases v with
    | nil => cases ho; intro n hn; cases hn
    | int m => exact hmap m o ho
    | char m => exact hmap m o ho
    | bool b =>
      cases ho
      intro n hn
      cases hn
      unfold Int32
      split <;> omega
    | enum m =>
      cases ho
      intro n hn
      cases hn
      exact hv _ rfl
    | str s =>
      simp only [HVal.asInt] at ho
      split at ho
      · exact hmap _ o ho
      · cases ho
    | list l => cases ho
    | dict d => cases ho
    | obj p => cases ho
    | other i => cases ho
  have ha := key a (h a (by simp))
  have hb := key b (h b (by simp))
  have hc := key c (h c (by simp))
  have hd := key d (h d (by simp))
  refine ⟨?_, ?_, ?_⟩
  · intro x hx
    unfold Coordinates.new at hx
    cases h1 : a.asInt with
    | error e => rw [h1] at hx; cases hx
    | ok p =>
      cases h2 : b.asInt with
      | error e => rw [h1, h2] at hx; cases hx
      | ok q => rw [h1, h2] at hx; cases hx; exact ⟨ha _ h1, hb _ h2⟩
  · intro x hx
    unfold HostSize.new at hx
    cases h1 : a.asInt with
    | error e => rw [h1] at hx; cases hx
    | ok p =>
      cases h2 : b.asInt with
      | error e => rw [h1, h2] at hx; cases hx
      | ok q => rw [h1, h2] at hx; cases hx; exact ⟨ha _ h1, hb _ h2⟩
  · intro x hx
    unfold Rectangle.new at hx
    cases h1 : a.asInt with
    | error e => rw [h1] at hx; cases hx
    | ok p =>
      cases h2 : b.asInt with
      | error e => rw [h1, h2] at hx; cases hx
      | ok q =>
        cases h3 : c.asInt with
        | error e => rw [h1, h2, h3] at hx; cases hx
        | ok r =>
          cases h4 : d.asInt with
          | error e => rw [h1, h2, h3, h4] at hx; cases hx
          | ok s => rw [h1, h2, h3, h4] at hx; cases hx; exact ⟨ha _ h1, hb _ h2, hc _ h3, hd _ h4⟩

/-- A field description comes back without its default value and with no attributes; everything else is
kept. Partial: the property asks for all of it. -/
theorem C46_field_partial (f : FieldDescription) :
    FieldDescription.fromHost f.toHost = .ok { f with defaultValue := .nil, attributes := some [] } := field_rt f

/-- Every call of the server's host requestor reaches the client as the method it is meant for, with the
parameters that were given. -/
theorem C46_call_partial {strict : Bool} {c : HostCall} (h : c.Valid strict) :
    ∃ ps, c.encode strict = .ok (c.meaning.1, ps) ∧ decodeParams strict c.meaning.1 ps = .ok c.meaning.2 := by
  cases c with
  | get m =>
    refine ⟨[], rfl, ?_⟩
    simp only [HostCall.Valid] at h
    simp only [HostCall.meaning]
    cases m <;> simp only [HostMethod.plain, Bool.false_eq_true] at h <;> rfl
  | setShouldExit c => exact ⟨_, rfl, rfl⟩
  | write v fg bg =>
    obtain ⟨h1, h2⟩ := h
    have key : ∀ f g : Int, IsColor f → IsColor g →
        decodeParams strict .Write2 [.int f, .int g, v] = .ok [.color f, .color g, .raw v] := by
      intro f g hf hg
      show (do let a ← toColor (.int f); let b ← toColor (.int g); pure [.color a, .color b, .raw v] : Except Err (List HParam)) = _
      rw [toColor_int hf, toColor_int hg]; rfl
    have h0 : IsColor 0 := by unfold IsColor; omega
    cases fg with
    | none =>
      cases bg with
      | none => exact ⟨_, rfl, rfl⟩
      | some g => exact ⟨_, rfl, key 0 g h0 (h2 g rfl)⟩
    | some f =>
      cases bg with
      | none => exact ⟨_, rfl, key f 0 (h1 f rfl) h0⟩
      | some g => exact ⟨_, rfl, key f g (h1 f rfl) (h2 g rfl)⟩
  | writeLine l fg bg =>
    obtain ⟨h1, h2⟩ := h
    have key : ∀ (v : HVal) (f g : Int), IsColor f → IsColor g →
        decodeParams strict .WriteLine3 [.int f, .int g, v] = .ok [.color f, .color g, .raw v] := by
      intro v f g hf hg
      show (do let a ← toColor (.int f); let b ← toColor (.int g); pure [.color a, .color b, .raw v] : Except Err (List HParam)) = _
      rw [toColor_int hf, toColor_int hg]; rfl
    have h0 : IsColor 0 := by unfold IsColor; omega
    cases fg with
    | none =>
      cases bg with
      | none => cases l <;> exact ⟨_, rfl, rfl⟩
      | some g => cases l <;> exact ⟨_, rfl, key _ 0 g h0 (h2 g rfl)⟩
    | some f =>
      cases bg with
      | none => cases l <;> exact ⟨_, rfl, key _ f 0 (h1 f rfl) h0⟩
      | some g => cases l <;> exact ⟨_, rfl, key _ f g (h1 f rfl) (h2 g rfl)⟩
  | writeErrorLine l => exact ⟨_, rfl, rfl⟩
  | writeDebugLine l => exact ⟨_, rfl, rfl⟩
  | writeProgress s p =>
    refine ⟨_, rfl, ?_⟩
    show (do let q ← HostProgress.fromHost p.toHost; pure [.raw s, .progress q] : Except Err (List HParam)) = _
    rw [progress_rt h]; rfl
  | writeVerboseLine l => exact ⟨_, rfl, rfl⟩
  | writeWarningLine l => exact ⟨_, rfl, rfl⟩
  | prompt c m fs =>
    refine ⟨_, rfl, ?_⟩
    show (do let q ← (fs.map FieldDescription.toHost).mapM FieldDescription.fromHost
             pure [.raw c, .raw m, .fields q] : Except Err (List HParam)) = _
    rw [field_list_rt h]; rfl
  | promptForCredential c m u t types options =>
    obtain ⟨h1, h2⟩ := h
    have key : ∀ a b : Nat, IsFlag strict credentialTypes a → IsFlag strict credentialUIOptions b →
        decodeParams strict .PromptForCredential2 [c, m, u, .str (t.getD []), .int a, .int b] =
          .ok [.raw c, .raw m, .raw u, .raw (.str (t.getD [])), .credentialTypes a, .credentialOptions b] := by
      intro a b ha hb
      show (do
        let x ← toFlag strict credentialTypes (.int a)
        let y ← toFlag strict credentialUIOptions (.int b)
        pure [.raw c, .raw m, .raw u, .raw (.str (t.getD [])), .credentialTypes x, .credentialOptions y] : Except Err (List HParam)) = _
      rw [toFlag_int ha, toFlag_int hb]; rfl
    have ht : IsFlag strict credentialTypes 3 := fun _ => (and_eq_iff _ _).mp (by decide +kernel)
    have ho : IsFlag strict credentialUIOptions 1 := fun _ => (and_eq_iff _ _).mp (by decide +kernel)
    cases types with
    | none =>
      cases options with
      | none => exact ⟨_, rfl, rfl⟩
      | some o => exact ⟨_, rfl, key 3 o ht (h2 o rfl)⟩
    | some ty =>
      cases options with
      | none => exact ⟨_, rfl, key ty 1 (h1 ty rfl) ho⟩
      | some o => exact ⟨_, rfl, key ty o (h1 ty rfl) (h2 o rfl)⟩
  | promptForChoice c m cs d =>
    refine ⟨_, rfl, ?_⟩
    show (do let q ← (cs.map ChoiceDescription.toHost).mapM ChoiceDescription.fromHost
             pure [.raw c, .raw m, .choices q, .raw d] : Except Err (List HParam)) = _
    rw [mapM_rt fun x _ => choice_rt x]; rfl
  | promptForMultipleChoice c m cs ds =>
    refine ⟨_, rfl, ?_⟩
    show (do let q ← (cs.map ChoiceDescription.toHost).mapM ChoiceDescription.fromHost
             pure [.raw c, .raw m, .choices q, .raw (.list (ds.getD []))] : Except Err (List HParam)) = _
    rw [mapM_rt fun x _ => choice_rt x]; rfl
  | setForegroundColor c =>
    refine ⟨_, rfl, ?_⟩
    show (do let a ← toColor (.int c); pure [.color a] : Except Err (List HParam)) = _
    rw [toColor_int h]; rfl
  | setBackgroundColor c =>
    refine ⟨_, rfl, ?_⟩
    show (do let a ← toColor (.int c); pure [.color a] : Except Err (List HParam)) = _
    rw [toColor_int h]; rfl
  | setCursorPosition x y =>
    refine ⟨[Coordinates.toHost ⟨some x, some y⟩], ?_, ?_⟩
    · simp only [HostCall.encode, coordinates_new h.1 h.2]; rfl
    · show (do let a ← Coordinates.fromHost (Coordinates.toHost ⟨some x, some y⟩); pure [.coordinates a] : Except Err (List HParam)) = _
      rw [coordinates_rt (coordinates_valid h.1 h.2)]; rfl
  | setWindowPosition x y =>
    refine ⟨[Coordinates.toHost ⟨some x, some y⟩], ?_, ?_⟩
    · simp only [HostCall.encode, coordinates_new h.1 h.2]; rfl
    · show (do let a ← Coordinates.fromHost (Coordinates.toHost ⟨some x, some y⟩); pure [.coordinates a] : Except Err (List HParam)) = _
      rw [coordinates_rt (coordinates_valid h.1 h.2)]; rfl
  | setCursorSize s => exact ⟨_, rfl, rfl⟩
  | setBufferSize w hh =>
    refine ⟨[HostSize.toHost ⟨some w, some hh⟩], ?_, ?_⟩
    · simp only [HostCall.encode, size_new h.1 h.2]; rfl
    · show (do let a ← HostSize.fromHost (HostSize.toHost ⟨some w, some hh⟩); pure [.size a] : Except Err (List HParam)) = _
      rw [size_rt (size_valid h.1 h.2)]; rfl
  | setWindowSize w hh =>
    refine ⟨[HostSize.toHost ⟨some w, some hh⟩], ?_, ?_⟩
    · simp only [HostCall.encode, size_new h.1 h.2]; rfl
    · show (do let a ← HostSize.fromHost (HostSize.toHost ⟨some w, some hh⟩); pure [.size a] : Except Err (List HParam)) = _
      rw [size_rt (size_valid h.1 h.2)]; rfl
  | setWindowTitle t => exact ⟨_, rfl, rfl⟩
  | readKey o =>
    refine ⟨_, rfl, ?_⟩
    show (do let a ← toFlag strict readKeyOptions (.int o); pure [.readKeyOptions a] : Except Err (List HParam)) = _
    rw [toFlag_int h]; rfl
  | setBufferCells l t r b ch fg bg =>
    obtain ⟨h1, h2, h3, h4, h5, h6, h7⟩ := h
    obtain ⟨v, hv, hr⟩ := cellArg_rt (strict := strict) h5 h6 h7
    refine ⟨[Rectangle.toHost ⟨some l, some t, some r, some b⟩, v], ?_, ?_⟩
    · simp only [HostCall.encode, rectArg_eq h1 h2 h3 h4, hv]; rfl
    · show (do
        let a ← Rectangle.fromHost (Rectangle.toHost ⟨some l, some t, some r, some b⟩)
        let c ← BufferCell.fromHost strict v
        pure [.rectangle a, .cell c] : Except Err (List HParam)) = _
      rw [rectangle_rt (rect_valid h1 h2 h3 h4), hr]; rfl
  | setBufferContents x y cells =>
    obtain ⟨h1, h2, h3, h4⟩ := h
    obtain ⟨v, hv, hr⟩ := C38_cells h3 h4
    refine ⟨[Coordinates.toHost ⟨some x, some y⟩, v], ?_, ?_⟩
    · simp only [HostCall.encode, coordinates_new h1 h2, hv]; rfl
    · show (do
        let c ← unpackArray (BufferCell.fromHost strict) v
        let a ← Coordinates.fromHost (Coordinates.toHost ⟨some x, some y⟩)
        pure [.coordinates a, .cells c] : Except Err (List HParam)) = _
      rw [coordinates_rt (coordinates_valid h1 h2), hr]; rfl
  | getBufferContents l t r b =>
    obtain ⟨h1, h2, h3, h4⟩ := h
    refine ⟨[Rectangle.toHost ⟨some l, some t, some r, some b⟩], ?_, ?_⟩
    · simp only [HostCall.encode, rectArg_eq h1 h2 h3 h4]; rfl
    · show (do
        let a ← Rectangle.fromHost (Rectangle.toHost ⟨some l, some t, some r, some b⟩)
        pure [.rectangle a] : Except Err (List HParam)) = _
      rw [rectangle_rt (rect_valid h1 h2 h3 h4)]; rfl
  | scrollBufferContents s x y c ch fg bg =>
    obtain ⟨l, t, r, b⟩ := s
    obtain ⟨l', t', r', b'⟩ := c
    obtain ⟨h1, h2, h3, h4, hx, hy, h1', h2', h3', h4', h5, h6, h7⟩ := h
    obtain ⟨v, hv, hr⟩ := cellArg_rt (strict := strict) h5 h6 h7
    refine ⟨[Rectangle.toHost ⟨some l, some t, some r, some b⟩, Coordinates.toHost ⟨some x, some y⟩,
      Rectangle.toHost ⟨some l', some t', some r', some b'⟩, v], ?_, ?_⟩
    · simp only [HostCall.encode, rectArg_eq h1 h2 h3 h4, rectArg_eq h1' h2' h3' h4', coordinates_new hx hy, hv]; rfl
    · show (do
        let a ← Rectangle.fromHost (Rectangle.toHost ⟨some l, some t, some r, some b⟩)
        let d ← Coordinates.fromHost (Coordinates.toHost ⟨some x, some y⟩)
        let e ← Rectangle.fromHost (Rectangle.toHost ⟨some l', some t', some r', some b'⟩)
        let c ← BufferCell.fromHost strict v
        pure [.rectangle a, .coordinates d, .rectangle e, .cell c] : Except Err (List HParam)) = _
      rw [rectangle_rt (rect_valid h1 h2 h3 h4), rectangle_rt (rect_valid h1' h2' h3' h4'),
        coordinates_rt (coordinates_valid hx hy), hr]
      rfl

/-- Every reply of the client's host responder reaches the server as the result that was given. -/
theorem C46_reply {strict : Bool} {r : HostReply} (h : r.Valid strict) :
    ∃ v, r.encode strict = .ok v ∧ decodeResult strict r.meaning.1 v = .ok r.meaning.2 := by
  cases r with
  | plain m v =>
    refine ⟨v, rfl, ?_⟩
    simp only [HostReply.Valid] at h
    simp only [HostReply.meaning]
    cases v <;> cases m <;> simp only [HostMethod.plainReply, Bool.false_eq_true] at h <;> rfl
  | multipleChoice v => cases v <;> exact ⟨_, rfl, rfl⟩
  | color m c =>
    obtain ⟨hm, hc⟩ := h
    refine ⟨_, rfl, ?_⟩
    rcases hm with rfl | rfl <;> simp only [HostReply.meaning, decodeResult, toColor_int hc] <;> rfl
  | coordinates m x y =>
    obtain ⟨hm, hx, hy⟩ := h
    refine ⟨Coordinates.toHost ⟨some x, some y⟩, by simp only [HostReply.encode, coordinates_new hx hy]; rfl, ?_⟩
    have := coordinates_rt (coordinates_valid hx hy)
    rcases hm with rfl | rfl
    · show (Coordinates.fromHost (Coordinates.toHost ⟨some x, some y⟩)).map HParam.coordinates = _
      rw [this]; rfl
    · show (Coordinates.fromHost (Coordinates.toHost ⟨some x, some y⟩)).map HParam.coordinates = _
      rw [this]; rfl
  | size m x y =>
    obtain ⟨hm, hx, hy⟩ := h
    refine ⟨HostSize.toHost ⟨some x, some y⟩, by simp only [HostReply.encode, size_new hx hy]; rfl, ?_⟩
    have := size_rt (size_valid hx hy)
    have goal : (HostSize.fromHost (HostSize.toHost ⟨some x, some y⟩)).map HParam.size =
        .ok (.size ⟨some x, some y⟩) := by rw [this]; rfl
    rcases hm with rfl | rfl | rfl | rfl <;> exact goal
  | key ch dn st code =>
    obtain ⟨hc, hs, hn⟩ := h
    obtain ⟨v, hv, hr⟩ := keyInfo_rt (strict := strict) (k := ⟨some code, some (charNumber ch), some st, some dn⟩)
      ⟨by rintro _ ⟨⟩; exact hn, by rintro _ ⟨⟩; exact charNumber_unit hc, st, rfl, hs⟩
    refine ⟨v, ?_, ?_⟩
    · have hk : KeyInfo.new strict (.int code) (.char (charNumber ch)) (.enum st) (.bool dn) =
          .ok ⟨some code, some (charNumber ch), some st, some dn⟩ := by
        unfold KeyInfo.new
        rw [asInt_int hn, asFlag_enum hs]; rfl
      simp only [HostReply.encode, asChar_arg hc]
      show (do (← KeyInfo.new strict (.int code) (.char (charNumber ch)) (.enum st) (.bool dn)).toHost) = _
      rw [hk]
      exact hv
    · cases v with
      | nil => cases hv
      | _ =>
        simp only [HostReply.meaning, decodeResult, hr]; rfl
  | contents cells =>
    obtain ⟨h3, h4⟩ := h
    obtain ⟨v, hv, hr⟩ := C38_cells h3 h4
    refine ⟨v, hv, ?_⟩
    cases v with
    | nil => cases hr
    | _ =>
      simp only [HostReply.meaning, decodeResult, hr]; rfl

/-- The ten values of the default data come back in their places. -/
theorem C46_default_data {d : HostDefaultData} (h : d.Valid) :
    ∃ v, d.toHost = .ok v ∧ HostDefaultData.fromHost v = .ok d := by
  obtain ⟨d0, d1, d2, d3, d4, d5, d6, d7, d8, d9⟩ := d
  obtain ⟨⟨c0, h0, v0⟩, ⟨c1, h1, v1⟩, ⟨c2, h2, v2⟩, ⟨c3, h3, v3⟩, ⟨c4, h4, v4⟩, ⟨c5, h5, v5⟩, ⟨c6, h6, v6⟩,
    ⟨c7, h7, v7⟩, ⟨c8, h8, v8⟩, c9, h9⟩ := h
  dsimp only at h0 h1 h2 h3 h4 h5 h6 h7 h8 h9
  subst h0; subst h1; subst h2; subst h3; subst h4; subst h5; subst h6; subst h7; subst h8; subst h9
  refine ⟨_, rfl, ?_⟩
  show (do
    let a0 ← toColor (.int c0)
    let a1 ← toColor (.int c1)
    let a2 ← Coordinates.fromHost c2.toHost
    let a3 ← Coordinates.fromHost c3.toHost
    let a4 ← (HVal.int c4).asInt
    let a5 ← HostSize.fromHost c5.toHost
    let a6 ← HostSize.fromHost c6.toHost
    let a7 ← HostSize.fromHost c7.toHost
    let a8 ← HostSize.fromHost c8.toHost
    pure (⟨some a0, some a1, some a2, some a3, a4, some a5, some a6, some a7, some a8, some c9⟩ :
      HostDefaultData)) = _
  rw [toColor_int v0, toColor_int v1, coordinates_rt v2, coordinates_rt v3, asInt_int v4, size_rt v5, size_rt v6,
    size_rt v7, size_rt v8]
  rfl

/-- And so does the host info with it, or without default data. -/
theorem C46_host_info {i : HostInfo} (h : ∀ d ∈ i.defaultData, d.Valid) :
    ∃ v, i.toHost = .ok v ∧ HostInfo.fromHost v = .ok i := by
  obtain ⟨a, b, c, e, data⟩ := i
  cases data with
  | none =>
    refine ⟨_, rfl, ?_⟩
    show (do
      let p ← (HVal.ofBool a).asBool
      let q ← (HVal.ofBool b).asBool
      let r ← (HVal.ofBool c).asBool
      let s ← (HVal.ofBool e).asBool
      pure (⟨p, q, r, s, none⟩ : HostInfo)) = _
    rw [asBool_ofBool, asBool_ofBool, asBool_ofBool, asBool_ofBool]; rfl
  | some d =>
    obtain ⟨v, hv, hr⟩ := C46_default_data (h d rfl)
    refine ⟨_, by simp only [HostInfo.toHost, hv]; rfl, ?_⟩
    have hn : HostInfo.readData v = .ok (some d) := by
      cases v with
      | nil => cases hr
      | _ => simp only [HostInfo.readData, hr]; rfl
    show (do
      let x ← HostInfo.readData v
      let p ← (HVal.ofBool a).asBool
      let q ← (HVal.ofBool b).asBool
      let r ← (HVal.ofBool c).asBool
      let s ← (HVal.ofBool e).asBool
      pure (⟨p, q, r, s, x⟩ : HostInfo)) = _
    rw [hn, asBool_ofBool, asBool_ofBool, asBool_ofBool, asBool_ofBool]; rfl

/-- Default data with a value left `None` cannot be sent. -/
theorem C46_default_data_missing {d : HostDefaultData}
    (h : d.foreground = none ∨ d.background = none ∨ d.cursorPosition = none ∨ d.windowPosition = none ∨
      d.cursorSize = none ∨ d.bufferSize = none ∨ d.windowSize = none ∨ d.maxWindowSize = none ∨
      d.maxPhysicalWindowSize = none ∨ d.windowTitle = none) : d.toHost = .error .attributeError := by
  obtain ⟨d0, d1, d2, d3, d4, d5, d6, d7, d8, d9⟩ := d
  cases d0 with | none => rfl | some c0 =>
  cases d1 with | none => rfl | some c1 =>
  cases d2 with | none => rfl | some c2 =>
  cases d3 with | none => rfl | some c3 =>
  cases d4 with | none => rfl | some c4 =>
  cases d5 with | none => rfl | some c5 =>
  cases d6 with | none => rfl | some c6 =>
  cases d7 with | none => rfl | some c7 =>
  cases d8 with | none => rfl | some c8 =>
  cases d9 with | none => rfl | some c9 =>
  simp at h

/-- The default value and the attributes of a field are lost. -/
theorem C46_field_violated :
    (∃ f : FieldDescription, f.defaultValue = .int 5 ∧ ∀ g, FieldDescription.fromHost f.toHost = .ok g →
      g.defaultValue = .nil) ∧
    ∃ f : FieldDescription, f.attributes = some [.str (lit "a")] ∧
      ∀ g, FieldDescription.fromHost f.toHost = .ok g → g.attributes = some [] := by
  constructor
  · refine ⟨{ name := some (lit "n"), defaultValue := .int 5 }, rfl, ?_⟩
    intro g hg
    rw [field_rt] at hg
    cases hg; rfl
  · refine ⟨{ name := some (lit "n"), attributes := some [.str (lit "a")] }, rfl, ?_⟩
    intro g hg
    rw [field_rt] at hg
    cases hg; rfl

/-- A key info or a buffer cell that was made without all its arguments cannot be sent. -/
theorem C46_missing_violated : KeyInfo.new true .nil .nil .nil .nil = .ok ⟨none, none, none, none⟩ ∧
    KeyInfo.toHost ⟨none, none, none, none⟩ = .error .attributeError ∧
    BufferCell.new true (.int 65) .nil .nil .nil = .ok ⟨some 65, none, none, none⟩ ∧
    BufferCell.toHost ⟨some 65, none, none, none⟩ = .error .attributeError := ⟨rfl, rfl, rfl, rfl⟩

example : (HostCall.scrollBufferContents (0, 1, 2, 3) 4 5 (6, 7, 8, 9) (.str [65]) 15 0).Valid true := by
  simp [HostCall.Valid, Int32, IsCharArg, IsColor]

example : (HostCall.writeLine none (some 12) none).Valid true ∧
    (HostCall.writeLine none (some 12) none).meaning =
      (.WriteLine3, [.color 12, .color 0, .raw (.str [])]) := by
  refine ⟨?_, rfl⟩
  constructor
  · rintro _ ⟨⟩; unfold IsColor; omega
  · rintro _ ⟨⟩

example : (HostReply.key (.int 13) true 16 13).Valid true := by
  refine ⟨by simp [IsCharArg, IsUnit], fun _ => (and_eq_iff _ _).mp (by decide +kernel), by simp [Int32]⟩

example : ({ foreground := some 15, background := some 0, cursorPosition := some ⟨some 1, some 2⟩,
             windowPosition := some ⟨some 3, some 4⟩, cursorSize := some 25, bufferSize := some ⟨some 5, some 6⟩,
             windowSize := some ⟨some 7, some 8⟩, maxWindowSize := some ⟨some 9, some 10⟩,
             maxPhysicalWindowSize := some ⟨some 11, some 12⟩, windowTitle := some (lit "t") } :
    HostDefaultData).Valid := by
  simp [HostDefaultData.Valid, IsColor, Coordinates.Valid, HostSize.Valid, Int32]

end Verif
