import Verif.Spec.Host
import Verif.Proof.Enum
import Verif.Props.Ints

/-! # Lemmas on host calls (C38, C46, C59) -/

namespace Verif

/-! ## Values -/

theorem asInt_ofInt {o : Option Int} (h : ∀ n ∈ o, Int32 n) : (HVal.ofInt o).asInt = .ok o := by
  cases o with
  | none => rfl
  | some n =>
    have := h n rfl
    unfold Int32 at this
    have hn : IntKind.psInt.new (.number n) = .ok n := by
      unfold IntKind.new
      dsimp only
      rw [if_neg]
      simp only [IntKind.minValue, IntKind.maxValue]
      omega
    simp only [HVal.ofInt, HVal.asInt, hn]
    rfl

theorem asInt_int {n : Int} (h : Int32 n) : (HVal.int n).asInt = .ok (some n) :=
  asInt_ofInt (o := some n) (by rintro m ⟨⟩; exact h)

theorem asChar_ofChar (o : Option Int) : (HVal.ofChar o).asChar = .ok o := by cases o <;> rfl

theorem asStr_ofStr (o : Option PyStr) : (HVal.ofStr o).asStr = .ok o := by cases o <;> rfl

theorem asBool_ofBool (o : Option Bool) : (HVal.ofBool o).asBool = .ok o := by cases o <;> rfl

theorem enumOf_color {c : Int} (h : IsColor c) : enumOf consoleColors c = .ok c := by
  obtain ⟨h1, h2⟩ := h
  have : c = 0 ∨ c = 1 ∨ c = 2 ∨ c = 3 ∨ c = 4 ∨ c = 5 ∨ c = 6 ∨ c = 7 ∨ c = 8 ∨ c = 9 ∨ c = 10 ∨ c = 11 ∨
      c = 12 ∨ c = 13 ∨ c = 14 ∨ c = 15 := by omega
  rcases this with rfl | rfl | rfl | rfl | rfl | rfl | rfl | rfl | rfl | rfl | rfl | rfl | rfl | rfl | rfl | rfl <;>
    rfl

theorem toColor_int {c : Int} (h : IsColor c) : toColor (.int c) = .ok c := enumOf_color h

theorem asColor_enum {c : Int} (h : IsColor c) : (HVal.enum c).asColor = .ok (some c) := by
  have : toColor (.enum c) = .ok c := enumOf_color h
  simp only [HVal.asColor, this]
  rfl

theorem flagOf_isFlag {strict : Bool} {ms : Members Nat} {v : Nat} (h : IsFlag strict ms v) :
    flagOf strict ms v = .ok v := by
  unfold flagOf
  rw [if_neg]
  rintro ⟨hs, hv⟩
  exact hv ((and_eq_iff _ _).mpr (h hs))

theorem toFlag_int {strict : Bool} {ms : Members Nat} {v : Nat} (h : IsFlag strict ms v) :
    toFlag strict ms (.int v) = .ok v := by
  have : ¬ ((v : Int) < 0) := by omega
  simp only [toFlag, HVal.number, this, if_false, Int.toNat_natCast]
  exact flagOf_isFlag h

theorem asFlag_enum {strict : Bool} {ms : Members Nat} {v : Nat} (h : IsFlag strict ms v) :
    (HVal.enum v).asFlag strict ms = .ok (some v) := by
  have h0 : ¬ ((v : Int) < 0) := by omega
  have : toFlag strict ms (.enum v) = .ok v := by
    simp only [toFlag, HVal.number, h0, if_false, Int.toNat_natCast]
    exact flagOf_isFlag h
  simp only [HVal.asFlag, this]
  rfl

theorem asChar_arg {ch : HVal} (h : IsCharArg ch) : ch.asChar = .ok (some (charNumber ch)) := by
  unfold IsCharArg at h
  split at h
  · rename_i n
    have : charOfInt n = .ok n := by unfold charOfInt; unfold IsUnit at h; rw [if_neg (by omega)]
    simp only [HVal.asChar, this]
    rfl
  · rfl
  · rename_i c
    have := C53_partial (c : Int) (by omega) (by unfold IsSurrogateUnit; omega)
    have h2 : charOfStr [c] = .ok (c : Int) := this
    simp only [HVal.asChar, h2]
    rfl
  · cases h

theorem charNumber_unit {ch : HVal} (h : IsCharArg ch) : IsUnit (charNumber ch) := by
  unfold IsCharArg at h
  split at h
  · exact h
  · exact h
  · simp only [charNumber, IsUnit]; omega
  · cases h

/-! ## Objects -/

theorem coordinates_rt {c : Coordinates} (h : c.Valid) : Coordinates.fromHost c.toHost = .ok c := by
  have h1 := asInt_ofInt h.1
  have h2 := asInt_ofInt h.2
  show (do let x ← (HVal.ofInt c.x).asInt; let y ← (HVal.ofInt c.y).asInt; pure (⟨x, y⟩ : Coordinates)) = _
  rw [h1, h2]; rfl

theorem size_rt {c : HostSize} (h : c.Valid) : HostSize.fromHost c.toHost = .ok c := by
  have h1 := asInt_ofInt h.1
  have h2 := asInt_ofInt h.2
  show (do let x ← (HVal.ofInt c.width).asInt; let y ← (HVal.ofInt c.height).asInt; pure (⟨x, y⟩ : HostSize)) = _
  rw [h1, h2]; rfl

theorem rectangle_rt {c : Rectangle} (h : c.Valid) : Rectangle.fromHost c.toHost = .ok c := by
  obtain ⟨h1, h2, h3, h4⟩ := h
  show (do
    let a ← (HVal.ofInt c.left).asInt
    let b ← (HVal.ofInt c.top).asInt
    let d ← (HVal.ofInt c.right).asInt
    let e ← (HVal.ofInt c.bottom).asInt
    pure (⟨a, b, d, e⟩ : Rectangle)) = _
  rw [asInt_ofInt h1, asInt_ofInt h2, asInt_ofInt h3, asInt_ofInt h4]; rfl

theorem keyInfo_rt {strict : Bool} {k : KeyInfo} (h : k.Valid strict) :
    ∃ v, k.toHost = .ok v ∧ KeyInfo.fromHost strict v = .ok k := by
  obtain ⟨vk, ch, st, dn⟩ := k
  obtain ⟨h1, h2, t, ht, hf⟩ := h
  dsimp only at h1 h2 ht
  subst ht
  refine ⟨_, rfl, ?_⟩
  show (do
    let st ← toFlag strict controlKeyStates (.int t)
    let a ← (HVal.ofInt vk).asInt
    let b ← (HVal.ofChar ch).asChar
    let c ← (HVal.enum st).asFlag strict controlKeyStates
    let d ← (HVal.ofBool dn).asBool
    pure (⟨a, b, c, d⟩ : KeyInfo)) = _
  rw [toFlag_int hf]
  show (do
    let a ← (HVal.ofInt vk).asInt
    let b ← (HVal.ofChar ch).asChar
    let c ← (HVal.enum t).asFlag strict controlKeyStates
    let d ← (HVal.ofBool dn).asBool
    pure (⟨a, b, c, d⟩ : KeyInfo)) = _
  rw [asInt_ofInt h1, asChar_ofChar, asFlag_enum hf, asBool_ofBool]
  rfl

theorem cell_rt {strict : Bool} {b : BufferCell} (h : b.Valid strict) :
    ∃ v, b.toHost = .ok v ∧ BufferCell.fromHost strict v = .ok b := by
  obtain ⟨ch, fg, bg, ty⟩ := b
  obtain ⟨h1, ⟨f, hf, hfc⟩, ⟨g, hg, hgc⟩, t, ht, htf⟩ := h
  dsimp only at h1 hf hg ht
  subst hf; subst hg; subst ht
  refine ⟨_, rfl, ?_⟩
  show (do
    let fg ← toColor (.int f)
    let bg ← toColor (.int g)
    let ty ← toFlag strict bufferCellTypes (.int t)
    BufferCell.new strict (.ofChar ch) (.enum fg) (.enum bg) (.enum ty)) = _
  rw [toColor_int hfc, toColor_int hgc, toFlag_int htf]
  show BufferCell.new strict (.ofChar ch) (.enum f) (.enum g) (.enum t) = _
  unfold BufferCell.new
  rw [asChar_ofChar, asColor_enum hfc, asColor_enum hgc, asFlag_enum htf]
  rfl

theorem choice_rt (c : ChoiceDescription) : ChoiceDescription.fromHost c.toHost = .ok c := by
  show (do let x ← (HVal.ofStr c.label).asStr; let y ← (HVal.ofStr c.helpMessage).asStr
           pure (⟨x, y⟩ : ChoiceDescription)) = _
  rw [asStr_ofStr, asStr_ofStr]; rfl

theorem field_rt (f : FieldDescription) :
    FieldDescription.fromHost f.toHost = .ok { f with defaultValue := .nil, attributes := some [] } := by
  show (do
    let a ← (HVal.ofStr f.name).asStr
    let b ← (HVal.ofStr f.parameterTypeName).asStr
    let c ← (HVal.ofStr f.parameterTypeFullName).asStr
    let d ← (HVal.ofStr f.parameterAssemblyFullName).asStr
    let e ← (HVal.ofStr f.label).asStr
    let g ← (HVal.ofStr f.helpMessage).asStr
    let h ← (HVal.ofBool f.isMandatory).asBool
    pure (⟨a, b, c, d, e, g, h, .nil, some []⟩ : FieldDescription)) = _
  rw [asStr_ofStr, asStr_ofStr, asStr_ofStr, asStr_ofStr, asStr_ofStr, asStr_ofStr, asBool_ofBool]
  rfl

theorem asProgressType_ofEnum {o : Option Int} (h : ∀ t ∈ o, t = 0 ∨ t = 1) :
    (HVal.ofEnum o).asProgressType = .ok o := by
  cases o with
  | none => rfl
  | some t => rcases h t rfl with rfl | rfl <;> rfl

theorem progress_rt {p : HostProgress} (h : p.Valid) : HostProgress.fromHost p.toHost = .ok p := by
  obtain ⟨h1, h2, h3, h4, h5⟩ := h
  show (do
    let a ← (HVal.ofStr p.activity).asStr
    let b ← (HVal.ofInt p.activityId).asInt
    let c ← (HVal.ofStr p.currentOperation).asStr
    let d ← (HVal.ofInt p.parentActivityId).asInt
    let e ← (HVal.ofInt p.percentComplete).asInt
    let f ← (HVal.ofEnum p.recordType).asProgressType
    let g ← (HVal.ofInt p.secondsRemaining).asInt
    let i ← (HVal.ofStr p.statusDescription).asStr
    pure (⟨a, b, i, c, d, e, f, g⟩ : HostProgress)) = _
  rw [asStr_ofStr, asInt_ofInt h1, asStr_ofStr, asInt_ofInt h2, asInt_ofInt h3, asProgressType_ofEnum h5,
    asInt_ofInt h4, asStr_ofStr]
  rfl

/-! ## Lists -/

theorem mapM_rt {α : Type} {enc : α → HVal} {dec : HVal → Except Err α} {xs : List α}
    (h : ∀ x ∈ xs, dec (enc x) = .ok x) : (xs.map enc).mapM dec = .ok xs := by
  induction xs with
  | nil => rfl
  | cons x xs ih =>
    rw [List.map_cons, List.mapM_cons, h x (by simp), ih fun y hy => h y (by simp [hy])]
    rfl

theorem mapM_rt' {α : Type} {enc : α → Except Err HVal} {dec : HVal → Except Err α} {xs : List α}
    (h : ∀ x ∈ xs, ∃ v, enc x = .ok v ∧ dec v = .ok x) : ∃ vs, xs.mapM enc = .ok vs ∧ vs.mapM dec = .ok xs := by
  induction xs with
  | nil => exact ⟨[], rfl, rfl⟩
  | cons x xs ih =>
    obtain ⟨v, h1, h2⟩ := h x (by simp)
    obtain ⟨vs, h3, h4⟩ := ih fun y hy => h y (by simp [hy])
    refine ⟨v :: vs, ?_, ?_⟩
    · rw [List.mapM_cons, h1, h3]; rfl
    · rw [List.mapM_cons, h2, h4]; rfl

theorem field_list_rt {fs : List FieldDescription} (h : ∀ f ∈ fs, f.Bare) :
    (fs.map FieldDescription.toHost).mapM FieldDescription.fromHost = .ok fs := by
  apply mapM_rt
  intro f hf
  rw [field_rt]
  obtain ⟨a, b⟩ := h f hf
  cases f
  dsimp only at a b
  rw [a, b]

/-! ## Arrays -/

/-- Filling the group up. -/
theorem chunkLoop_row {α : Type} {count : Nat} (row : List α) (done : List (List α)) (entries rest : List α)
    (hne : row ≠ []) (hl : entries.length + row.length = count) :
    chunkLoop (count : Int) done entries (row ++ rest) = chunkLoop count (done ++ [entries ++ row]) [] rest := by
  induction row generalizing entries with
  | nil => exact absurd rfl hne
  | cons e es ih =>
    simp only [List.cons_append, chunkLoop]
    cases es with
    | nil =>
      rw [if_pos (by simp only [List.length_append, List.length_cons, List.length_nil] at hl ⊢; omega)]
      rfl
    | cons f fs =>
      rw [if_neg (by simp only [List.length_append, List.length_cons, List.length_nil] at hl ⊢; omega)]
      rw [ih (entries ++ [e]) (by simp) (by simp only [List.length_append, List.length_cons, List.length_nil] at hl ⊢; omega)]
      simp

theorem chunkLoop_flatten {α : Type} {c : Nat} (hc : 0 < c) (vs : List (List α)) (done : List (List α))
    (h : ∀ row ∈ vs, row.length = c) : chunkLoop (c : Int) done [] vs.flatten = done ++ vs := by
  induction vs generalizing done with
  | nil => simp [chunkLoop]
  | cons row vs ih =>
    have hr := h row (by simp)
    rw [List.flatten_cons, chunkLoop_row row done [] vs.flatten (by intro e; rw [e] at hr; simp at hr; omega)
      (by simpa using hr)]
    rw [ih _ fun r hr => h r (by simp [hr])]
    simp

/-- Every group that is finished in the loop has `count` entries. -/
theorem chunkLoop_length {α : Type} {count : Int} (es : List α) (done : List (List α)) (entries : List α)
    (h : ∀ g ∈ done, (g.length : Int) = count) :
    ∀ g ∈ chunkLoop count done entries es, (g.length : Int) = count := by
  induction es generalizing done entries with
  | nil => exact h
  | cons e es ih =>
    simp only [chunkLoop]
    split
    · rename_i hc
      apply ih
      intro g hg
      rcases List.mem_append.mp hg with hg | hg
      · exact h g hg
      · rw [List.mem_singleton] at hg; rw [hg]; exact hc
    · exact ih _ _ h

/-- No group is finished when the count is zero. -/
theorem chunkLoop_zero {α : Type} (es entries : List α) : chunkLoop 0 [] entries es = [] := by
  induction es generalizing entries with
  | nil => rfl
  | cons e es ih =>
    simp only [chunkLoop]
    rw [if_neg (by simp only [List.length_append, List.length_cons, List.length_nil]; omega)]
    exact ih _

theorem unpack_create {α : Type} {pack : α → Except Err HVal} {unpack : HVal → Except Err α}
    {vs : List (List α)} {row : List α} (hrow : vs.head? = some row)
    (hp : ∀ x ∈ vs.flatten, ∃ v, pack x = .ok v ∧ unpack v = .ok x) :
    ∃ v, createArray pack vs = .ok v ∧ unpackArray unpack v =
      match (chunkLoop (vs.length : Int) [] [] (chunkLoop (row.length : Int) [] [] vs.flatten)).head? with
      | some r => .ok r
      | none => .error .indexError := by
  obtain ⟨mae, h1, h2⟩ := mapM_rt' hp
  refine ⟨_, by unfold createArray; rw [hrow]; dsimp only; rw [h1], ?_⟩
  show (do
    let items ← mae.mapM unpack
    match (chunkLoop (vs.length : Int) [] [] (chunkLoop (row.length : Int) [] [] items)).head? with
    | some r => pure r
    | none => .error .indexError) = _
  rw [h2]
  rfl

theorem array_rt {α : Type} {pack : α → Except Err HVal} {unpack : HVal → Except Err α} {vs : List (List α)}
    (hv : Rectangular vs) (hp : ∀ row ∈ vs, ∀ x ∈ row, ∃ v, pack x = .ok v ∧ unpack v = .ok x) :
    ∃ v, createArray pack vs = .ok v ∧ unpackArray unpack v = .ok vs := by
  obtain ⟨hne, c, hc, hl⟩ := hv
  obtain ⟨row, rest, rfl⟩ : ∃ row rest, vs = row :: rest := by
    cases vs with
    | nil => exact absurd rfl hne
    | cons a b => exact ⟨a, b, rfl⟩
  obtain ⟨v, h1, h2⟩ := unpack_create (vs := row :: rest) (row := row) rfl (pack := pack) (unpack := unpack) (by
    intro x hx
    obtain ⟨r, hr, hx⟩ := List.mem_flatten.mp hx
    exact hp r hr x hx)
  refine ⟨v, h1, h2.trans ?_⟩
  rw [hl row (by simp), chunkLoop_flatten hc _ _ hl, List.nil_append]
  have := chunkLoop_row (count := (row :: rest).length) (row :: rest) [] [] [] (by simp) (by simp)
  rw [List.append_nil] at this
  rw [this]
  rfl

/-! ## Arguments -/

theorem rectArg_eq {l t r b : Int} (h1 : Int32 l) (h2 : Int32 t) (h3 : Int32 r) (h4 : Int32 b) :
    rectArg (l, t, r, b) = .ok (Rectangle.toHost ⟨some l, some t, some r, some b⟩) := by
  simp only [rectArg, Rectangle.new]
  rw [asInt_int h1, asInt_int h2, asInt_int h3, asInt_int h4]
  rfl

theorem rect_valid {l t r b : Int} (h1 : Int32 l) (h2 : Int32 t) (h3 : Int32 r) (h4 : Int32 b) :
    (⟨some l, some t, some r, some b⟩ : Rectangle).Valid :=
  ⟨by rintro _ ⟨⟩; exact h1, by rintro _ ⟨⟩; exact h2, by rintro _ ⟨⟩; exact h3, by rintro _ ⟨⟩; exact h4⟩

theorem coordinates_new {x y : Int} (h1 : Int32 x) (h2 : Int32 y) :
    Coordinates.new (.int x) (.int y) = .ok ⟨some x, some y⟩ := by
  unfold Coordinates.new
  rw [asInt_int h1, asInt_int h2]; rfl

theorem coordinates_valid {x y : Int} (h1 : Int32 x) (h2 : Int32 y) : (⟨some x, some y⟩ : Coordinates).Valid :=
  ⟨by rintro _ ⟨⟩; exact h1, by rintro _ ⟨⟩; exact h2⟩

theorem size_new {x y : Int} (h1 : Int32 x) (h2 : Int32 y) :
    HostSize.new (.int x) (.int y) = .ok ⟨some x, some y⟩ := by
  unfold HostSize.new
  rw [asInt_int h1, asInt_int h2]; rfl

theorem size_valid {x y : Int} (h1 : Int32 x) (h2 : Int32 y) : (⟨some x, some y⟩ : HostSize).Valid :=
  ⟨by rintro _ ⟨⟩; exact h1, by rintro _ ⟨⟩; exact h2⟩

theorem isFlag_zero (strict : Bool) (ms : Members Nat) : IsFlag strict ms 0 := fun _ => bitsIn_zero _

theorem cellArg_rt {strict : Bool} {ch : HVal} {fg bg : Int} (h : IsCharArg ch) (h1 : IsColor fg)
    (h2 : IsColor bg) : ∃ v, cellArg strict ch fg bg = .ok v ∧
      BufferCell.fromHost strict v = .ok ⟨some (charNumber ch), some fg, some bg, some 0⟩ := by
  obtain ⟨v, hv, hr⟩ := cell_rt (strict := strict) (b := ⟨some (charNumber ch), some fg, some bg, some 0⟩)
    ⟨by rintro _ ⟨⟩; exact charNumber_unit h, ⟨fg, rfl, h1⟩, ⟨bg, rfl, h2⟩, 0, rfl, isFlag_zero _ _⟩
  refine ⟨v, ?_, hr⟩
  have hn : BufferCell.new strict ch (.enum fg) (.enum bg) (.enum 0) =
      .ok ⟨some (charNumber ch), some fg, some bg, some 0⟩ := by
    unfold BufferCell.new
    have h0 := asFlag_enum (isFlag_zero strict bufferCellTypes)
    rw [Int.ofNat_zero] at h0
    rw [asChar_arg h, asColor_enum h1, asColor_enum h2, h0]
    rfl
  unfold cellArg
  rw [hn]
  exact hv

end Verif
