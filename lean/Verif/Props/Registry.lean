import Verif.Proof.Registry

/-! # The registry of types (C59) -/

namespace Verif

/-- Under a type name the registry holds the class that was the first to claim it, and no other. -/
theorem C59_exact (ds : List TypeDecl) (n : PyStr) (c : PyStr) :
    (Registry.load {} ds).types.get? n = some c ↔ ∃ d, FirstClaim ds d n ∧ d.cls = c := by
  have hback : ∀ d, FirstClaim ds d n → (Registry.load {} ds).types.get? n = some d.cls := by
    rintro d ⟨pre, post, rfl, ⟨h1, h2⟩, h3⟩
    have : pre ++ d :: post = (pre ++ [d]) ++ post := by simp
    rw [this, load_append]
    apply load_stable
    rw [load_snoc]
    exact (decorate_types _ _ _ _).mpr (.inr ⟨(unclaimed_iff pre n).mpr h3, h1, h2, rfl⟩)
  constructor
  · intro h
    have hfirst : ∃ d, FirstClaim ds d n := by
      clear hback
      induction ds using snoc_induction with
      | h0 => simp [Registry.load, Dict.get?] at h
      | h1 ds d ih =>
        rw [load_snoc] at h
        rcases (decorate_types _ d n c).mp h with h | ⟨h1, h2, h3, _⟩
        · obtain ⟨e, pre, post, rfl, hc, hn⟩ := ih h
          exact ⟨e, pre, post ++ [d], by simp, hc, hn⟩
        · exact ⟨d, ds, [], rfl, ⟨h2, h3⟩, (unclaimed_iff ds n).mp h1⟩
    obtain ⟨d, hd⟩ := hfirst
    refine ⟨d, hd, ?_⟩
    have := hback d hd
    rw [h] at this
    cases this; rfl
  · rintro ⟨d, hd, rfl⟩
    exact hback d hd

/-- An object with the type names of a class is made an instance of that class, if the class is declared
for deserialization and no class declared before it has the same first type name. Partial: the property
does not have the last condition. -/
theorem C59_partial {pre post : List TypeDecl} {d : TypeDecl} {n : PyStr} {rest : List PyStr} (hn : n ≠ [])
    (hd : d.rehydrate = true) (hnames : (Registry.load {} pre).namesOf d = n :: rest)
    (hfree : ∀ pre' d' post', pre = pre' ++ d' :: post' → d'.rehydrate = true →
      ((Registry.load {} pre').namesOf d').head? ≠ some n) :
    (Registry.load {} (pre ++ d :: post)).rehydrate (n :: rest) = .instance_ d.cls := by
  have h := (C59_exact (pre ++ d :: post) n d.cls).mpr
    ⟨d, ⟨pre, post, rfl, ⟨hd, by rw [hnames]; rfl⟩, fun p e q he hc => hfree p e q he hc.1 hc.2⟩, rfl⟩
  simp only [Registry.rehydrate]
  rw [if_neg hn, h]

/-- An object whose first type name was claimed by no class is a plain object, whose type names are
marked as deserialized. -/
theorem C59_unregistered {ds : List TypeDecl} {n : PyStr} {rest : List PyStr}
    (h : ∀ pre d post, ds = pre ++ d :: post → ¬ Claims pre d n) :
    (Registry.load {} ds).rehydrate (n :: rest) = .plain ((n :: rest).map ((txt! "Deserialized.") ++ ·)) := by
  have := (unclaimed_iff ds n).mpr h
  simp only [Registry.rehydrate]
  split
  · rfl
  · rw [this]

/-- Classes declared later, by the library or by its user, do not change what is found. -/
theorem C59_later {ds es : List TypeDecl} {names : List PyStr} {c : PyStr}
    (h : (Registry.load {} ds).rehydrate names = .instance_ c) :
    (Registry.load {} (ds ++ es)).rehydrate names = .instance_ c := by
  cases names with
  | nil => cases h
  | cons n rest =>
    simp only [Registry.rehydrate] at h ⊢
    split at h
    · cases h
    · rename_i hn
      rw [if_neg hn]
      cases hg : (Registry.load {} ds).types.get? n with
      | none => rw [hg] at h; cases h
      | some x =>
        rw [hg] at h
        rw [load_append, load_stable _ _ hg]
        exact h

/-- Of all the classes of the library declared for deserialization, every one but `BufferCellType` is
found under its type names, with or without further classes of the user. -/
theorem C59_library_partial (es : List TypeDecl) (d : TypeDecl) (h : d ∈ libraryTypes) (hr : d.rehydrate = true)
    (hn : d.names ≠ []) (hb : d.cls ≠ txt! "BufferCellType") :
    ∃ names, (Registry.load {} libraryTypes).classes.get? d.cls = some names ∧ d.names <+: names ∧
      (Registry.load {} (libraryTypes ++ es)).rehydrate names = .instance_ d.cls := by
  have key : ∀ d ∈ libraryTypes, d.rehydrate = true → d.names ≠ [] → d.cls ≠ txt! "BufferCellType" →
      d.names <+: ((Registry.load {} libraryTypes).classes.get? d.cls).getD [] ∧
      (Registry.load {} libraryTypes).rehydrate (((Registry.load {} libraryTypes).classes.get? d.cls).getD []) =
        .instance_ d.cls := by
    rw [load_library]
    decide +kernel
  obtain ⟨h1, h2⟩ := key d h hr hn hb
  cases hc : (Registry.load {} libraryTypes).classes.get? d.cls with
  | none => rw [hc] at h2; cases h2
  | some names =>
    rw [hc] at h1 h2
    exact ⟨names, rfl, h1, C59_later h2⟩

/-- Every element tag of the library belongs to exactly one class. -/
theorem C59_tags : ∀ d ∈ libraryTypes, ∀ t, d.tag = some t →
    (Registry.load {} libraryTypes).elements.get? t = some d.cls := by
  have key : ∀ d ∈ libraryTypes, d.tag.all
      fun t => decide ((Registry.load {} libraryTypes).elements.get? t = some d.cls) := by
    rw [load_library]
    decide +kernel
  intro d hd t ht
  have := key d hd
  rw [ht] at this
  simp only [Option.all_some, decide_eq_true_eq] at this
  exact this

/-- `BufferCellType` is declared with the type name of `ControlKeyStates`: what was sent as the one is
made the other. -/
theorem C59_violated : ∃ d ∈ libraryTypes, d.cls = txt! "BufferCellType" ∧ d.rehydrate = true ∧
    ∃ names, (Registry.load {} libraryTypes).classes.get? d.cls = some names ∧
      (Registry.load {} libraryTypes).rehydrate names = .instance_ (txt! "ControlKeyStates") := by
  refine ⟨{ cls := txt! "BufferCellType", base := some (txt! "PSFlagBase"),
            names := [txt! "System.Management.Automation.Host.ControlKeyStates"] }, ?_, rfl, rfl,
    [txt! "System.Management.Automation.Host.ControlKeyStates", txt! "System.Enum", txt! "System.ValueType",
      txt! "System.Object"], ?_, ?_⟩
  · decide +kernel
  · rw [load_library]; decide +kernel
  · rw [load_library]; decide +kernel

/-- The hypotheses of `C59_partial` are met by a class of a user that inherits from an enum base class. -/
example : (Registry.load {} libraryTypes).namesOf
      { cls := txt! "MyEnum", base := some (txt! "PSEnumBase"), names := [txt! "System.MyEnum"] } =
        [txt! "System.MyEnum", txt! "System.Enum", txt! "System.ValueType", txt! "System.Object"] ∧
    (Registry.load {} libraryTypes).types.get? (txt! "System.MyEnum") = none := by
  rw [load_library]; constructor <;> decide +kernel

example : (Registry.load {} libraryTypes).rehydrate [txt! "System.Unknown", txt! "System.Object"] =
    .plain [txt! "Deserialized.System.Unknown", txt! "Deserialized.System.Object"] := by
  rw [load_library]; decide +kernel

/-- Two classes of a program: the second claims the name of the first again, and a name of its own. -/
private def twoTypes : List TypeDecl :=
  [{ cls := txt! "First", base := none, names := [txt! "My.Type"] }, { cls := txt! "Second", base := none, names := [txt! "My.Other", txt! "My.Type"] }]

example : (Registry.load {} (twoTypes ++ [{ cls := txt! "Third", base := none, names := [txt! "My.Type"] }])).rehydrate
    [txt! "My.Other", txt! "My.Type", txt! "System.Object"] = .instance_ (txt! "Second") :=
  C59_later (es := [{ cls := txt! "Third", base := none, names := [txt! "My.Type"] }]) (by decide +kernel)

example (post : List TypeDecl) : (Registry.load {} (twoTypes ++ post)).rehydrate [txt! "My.Other", txt! "My.Type", txt! "System.Object"] =
    .instance_ (txt! "Second") := by
  refine C59_partial (pre := twoTypes.take 1) (post := post)
    (d := { cls := txt! "Second", base := none, names := [txt! "My.Other", txt! "My.Type"] }) (by decide) rfl (by decide +kernel) ?_
  intro pre' d' post' h _
  cases pre' with
  | nil =>
    have h1 : d' = { cls := txt! "First", base := none, names := [txt! "My.Type"] } := by
      simp only [twoTypes, List.take, List.nil_append, List.cons.injEq] at h
      exact h.1.symm
    rw [h1]
    decide +kernel
  | cons x xs => simp [twoTypes] at h

end Verif
