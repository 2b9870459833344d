import Verif.Proof.SerializerPaths

/-! # Progress records: lemmas -/

namespace Verif

theorem find_kids (r : Progress) (t : Tag) : findText (progressKids r) t =
    match t with
    | .AV => if serializeString r.activity = [] then none else some (serializeString r.activity)
    | .AI => if optIntStr r.activityId = [] then none else some (optIntStr r.activityId)
    | .S => match r.operation with
      | none => none
      | some o => if serializeString o = [] then none else some (serializeString o)
    | .PI => if optIntStr r.parentId = [] then none else some (optIntStr r.parentId)
    | .PC => if optIntStr r.percent = [] then none else some (optIntStr r.percent)
    | .SR => if optIntStr r.seconds = [] then none else some (optIntStr r.seconds)
    | .SD => if serializeString r.status = [] then none else some (serializeString r.status)
    | t => findText (progressKids r) t := by
  unfold progressKids
  cases h : r.operation <;> cases t <;> simp [findText, Xml.tag, Xml.text] <;> split <;> simp_all

theorem optIntStr_ne (v : Option Int) : optIntStr v ≠ [] := by
  cases v with
  | none => simp [optIntStr]
  | some v => exact intStr_ne_nil v

theorem text_read {r : Progress} {t : Tag} {s a : PyStr} (hf : findText (progressKids r) t =
    if serializeString s = [] then none else some (serializeString s))
    (h : readProgressText (progressKids r) t = .ok (some a)) :
    s ≠ [] ∧ deserializeString (serializeString s) = .ok a := by
  unfold readProgressText at h
  rw [hf] at h
  by_cases e : serializeString s = []
  · rw [if_pos e] at h; cases h
  · rw [if_neg e] at h
    dsimp only at h
    refine ⟨fun hs => e (by rw [hs]; rfl), ?_⟩
    cases hd : deserializeString (serializeString s) with
    | error e => rw [hd] at h; cases h
    | ok b => rw [hd] at h; cases h; rfl

theorem int_read {r : Progress} {t : Tag} {i : Int} {v : Option Int} (hf : findText (progressKids r) t =
    if optIntStr (some i) = [] then none else some (optIntStr (some i)))
    (h : readProgressInt (progressKids r) t = .ok v) : IntKind.psInt.InRange i := by
  unfold readProgressInt at h
  rw [hf, if_neg (optIntStr_ne _)] at h
  dsimp only [optIntStr] at h
  rw [intOfText_intStr] at h
  dsimp only at h
  cases hn : IntKind.psInt.new (.number i) with
  | error e => rw [hn] at h; cases h
  | ok w => exact ((IntKind.new_number .psInt i w).mp hn).2

theorem int_none {r : Progress} {t : Tag} (hf : findText (progressKids r) t =
    if optIntStr none = [] then none else some (optIntStr none)) :
    readProgressInt (progressKids r) t = .error .valueError := by
  unfold readProgressInt
  rw [hf, if_neg (optIntStr_ne _)]
  have : intOfText (optIntStr none) = .error .valueError := by decide +kernel
  simp only [this]

theorem int_some {r : Progress} {t : Tag} {v w : Option Int} (hf : findText (progressKids r) t =
    if optIntStr v = [] then none else some (optIntStr v)) (h : readProgressInt (progressKids r) t = .ok w) :
    ∃ i, v = some i ∧ IntKind.psInt.InRange i := by
  cases v with
  | none => rw [int_none hf] at h; cases h
  | some i => exact ⟨i, rfl, int_read hf h⟩

/-- What is needed for a record to come back. -/
theorem progress_parts {r : Progress} (h : readProgress (progressKids r) = .ok r) :
    (r.activity ≠ [] ∧ deserializeString (serializeString r.activity) = .ok r.activity) ∧
    (r.status ≠ [] ∧ deserializeString (serializeString r.status) = .ok r.status) ∧
    (∀ t, r.operation = some t → t ≠ [] ∧ deserializeString (serializeString t) = .ok t) ∧
    (∃ i, r.activityId = some i ∧ IntKind.psInt.InRange i) ∧ (∃ i, r.parentId = some i ∧ IntKind.psInt.InRange i) ∧
    (∃ i, r.percent = some i ∧ IntKind.psInt.InRange i) ∧ (∃ i, r.seconds = some i ∧ IntKind.psInt.InRange i) := by
  unfold readProgress at h
  cases h1 : readProgressText (progressKids r) .AV with
  | error e => rw [h1] at h; cases h
  | ok a =>
  rw [h1] at h; dsimp only at h
  cases h2 : readProgressInt (progressKids r) .AI with
  | error e => rw [h2] at h; cases h
  | ok b =>
  rw [h2] at h; dsimp only at h
  cases h3 : readProgressText (progressKids r) .S with
  | error e => rw [h3] at h; cases h
  | ok c =>
  rw [h3] at h; dsimp only at h
  cases h4 : readProgressInt (progressKids r) .PI with
  | error e => rw [h4] at h; cases h
  | ok d =>
  rw [h4] at h; dsimp only at h
  cases h5 : readProgressInt (progressKids r) .PC with
  | error e => rw [h5] at h; cases h
  | ok f =>
  rw [h5] at h; dsimp only at h
  cases h6 : readProgressType (progressKids r) with
  | error e => rw [h6] at h; cases h
  | ok g =>
  rw [h6] at h; dsimp only at h
  cases h7 : readProgressInt (progressKids r) .SR with
  | error e => rw [h7] at h; cases h
  | ok i =>
  rw [h7] at h; dsimp only at h
  cases h8 : readProgressText (progressKids r) .SD with
  | error e => rw [h8] at h; cases h
  | ok j =>
  rw [h8] at h; dsimp only at h
  unfold newProgress at h
  cases b with
  | none => cases h
  | some b =>
  cases a with
  | none => cases h
  | some a =>
  cases j with
  | none => cases h
  | some j =>
  dsimp only at h
  have hr := Except.ok.inj h
  have ea : a = r.activity := by rw [← hr]
  have ej : j = r.status := by rw [← hr]
  have ec : c = r.operation := by rw [← hr]
  subst ea ej ec
  refine ⟨text_read (find_kids r .AV) h1, text_read (find_kids r .SD) h8, fun t e => ?_,
    int_some (find_kids r .AI) h2, int_some (find_kids r .PI) h4, int_some (find_kids r .PC) h5,
    int_some (find_kids r .SR) h7⟩
  have hf := find_kids r .S
  rw [e] at hf h3
  exact text_read hf h3

end Verif
