import Verif.Proof.PSObject

/-! # C33, C34, C35, C55, C56: the extended type system -/

namespace Verif

open PsObj

variable {V : Type}

/-! ## C33: add_member -/

/-- C33: whatever members are added, no name occurs twice among the extended properties, and the adapted
properties stay as they are. -/
theorem C33 (o : PsObj V) (calls : List (PsProp V × Bool)) (h : (propNames o.extended).Nodup) :
    (propNames (addMembers o calls).extended).Nodup ∧ (addMembers o calls).adapted = o.adapted ∧
    (addMembers o calls).attrs = o.attrs ∧ (addMembers o calls).cls = o.cls := by
  unfold addMembers
  induction calls generalizing o with
  | nil => exact ⟨h, rfl, rfl, rfl⟩
  | cons c calls ih =>
    rw [List.foldl_cons]
    obtain ⟨h1, h2, h3, h4⟩ := ih _ (addMember_nodup o c.1 c.2 h)
    refine ⟨h1, ?_⟩
    rw [h2, h3, h4]
    rcases addMember_cases o c.1 c.2 h with ⟨e, _⟩ | ⟨e, _⟩ | ⟨_, _, _, _, _, _, _, _, e⟩ <;>
      rw [e] <;> exact ⟨rfl, rfl, rfl⟩

/-- C33 (refused): without force a name that is already there is refused with RuntimeError and nothing
changes; in every other case the call succeeds. -/
theorem C33_refused (o : PsObj V) (p : PsProp V) (force : Bool) (h : (propNames o.extended).Nodup) :
    (force = false ∧ (p.name ∈ propNames o.adapted ∨ p.name ∈ propNames o.extended) →
      o.addMember p force = (o, .error .runtimeError)) ∧
    (¬ (force = false ∧ (p.name ∈ propNames o.adapted ∨ p.name ∈ propNames o.extended)) →
      (o.addMember p force).2 = .ok ()) := by
  rcases addMember_cases o p force h with ⟨e, hf, hn⟩ | ⟨e, hx, ha⟩ | ⟨hf, a, q, b, _, _, _, _, e⟩
  · exact ⟨fun _ => e, fun hc => absurd ⟨hf, hn⟩ hc⟩
  · refine ⟨fun ⟨hf, hn⟩ => ?_, fun _ => by rw [e]⟩
    exact hn.elim (fun hn => absurd hn (ha hf)) (fun hn => absurd hn hx)
  · exact ⟨fun ⟨hf', _⟩ => (by rw [hf] at hf'; cases hf'), fun _ => by rw [e]⟩

/-- C33 (place): a new name goes to the end; a name that is already an extended property is replaced at
its place; the others keep their value and order. -/
theorem C33_place (o o' : PsObj V) (p : PsProp V) (force : Bool) (h : (propNames o.extended).Nodup)
    (hok : o.addMember p force = (o', .ok ())) :
    (p.name ∉ propNames o.extended → o'.extended = o.extended ++ [p]) ∧
    (∀ a q b, o.extended = a ++ q :: b → q.name = p.name → o'.extended = a ++ p :: b) := by
  constructor
  · intro hx
    rcases addMember_cases o p force h with ⟨e, _⟩ | ⟨e, _⟩ | ⟨_, a, q, b, ho, hq, _, _, e⟩
    · rw [e] at hok; cases hok
    · rw [e] at hok; cases hok; rfl
    · exact absurd (by rw [ho, ← hq]; exact mem_propNames (by simp)) hx
  · intro a q b ho hq
    have hx : p.name ∈ propNames o.extended := by rw [ho, ← hq]; exact mem_propNames (by simp)
    have hb : p.name ∉ propNames b := by
      intro hb
      rw [ho] at h
      simp only [propNames, List.map_append, List.map_cons] at h
      have := (List.nodup_append.mp h).2.1
      rw [List.nodup_cons] at this
      exact this.1 (by rw [hq]; exact hb)
    cases force with
    | false => rw [addMember_refused (Or.inr hx)] at hok; cases hok
    | true => rw [addMember_replace ho hq hb] at hok; cases hok; rfl

/-- C33 (visible): the added property is the one its name reads as, unless Python has an attribute of
that name. -/
theorem C33_visible (env : Scripts V) (fuel : Nat) (o o' : PsObj V) (p : PsProp V) (force : Bool)
    (h : (propNames o.extended).Nodup) (hok : o.addMember p force = (o', .ok ()))
    (hpy : o.pyAttr p.name = none) : o'.getAttr env fuel p.name = p.valueIn env fuel o' := by
  have hd : (propNames o'.extended).Nodup := by
    have := addMember_nodup o p force h; rw [hok] at this; exact this
  rcases addMember_cases o p force h with ⟨e, _⟩ | ⟨e, _⟩ | ⟨_, a, q, b, ho, hq, _, hb, e⟩
  · rw [e] at hok; cases hok
  · rw [e] at hok
    cases hok
    exact getAttr_prop hpy (propOf_extended (a := o.extended) (b := []) rfl (by simp [propNames]))
  · rw [e] at hok
    cases hok
    exact getAttr_prop hpy (propOf_extended (a := a) (b := b) rfl hb)

/-- An object of Python class `Server` with an adapted and two extended properties. -/
def exampleObj : PsObj Nat where
  cls := fun n => if n = lit "restart" then some (.plain (some 99)) else none
  attrs := [(lit "note", some 5)]
  adapted := [{ name := lit "Name", body := .note (some (some 1)) }]
  extended := [{ name := lit "Status", body := .note (some (some 2)) },
    { name := lit "State", body := .alias (lit "Status") }]

/-- No script properties. -/
def noScripts : Scripts Nat where
  get _ _ := .error (.raised 0)
  set _ o _ := (o, .error (.raised 0))

example : (propNames exampleObj.extended).Nodup := by decide +kernel
example : (exampleObj.addMember { name := lit "Status" } false).2 = .error .runtimeError ∧
    (exampleObj.addMember { name := lit "Name" } false).2 = .error .runtimeError ∧
    (exampleObj.addMember { name := lit "Status" } true).2 = .ok () := by decide +kernel
example : propNames (addMembers exampleObj [({ name := lit "Status" }, true),
    ({ name := lit "Name" }, true), ({ name := lit "Id" }, false)]).extended =
    [lit "Status", lit "State", lit "Name", lit "Id"] := by decide +kernel

/-! ## C34: reading and writing attributes -/

/-- C34 (reading): Python's own attribute, else the extended property, else the adapted property, else
AttributeError. -/
theorem C34_read (env : Scripts V) (fuel : Nat) (o : PsObj V) (n : PyStr) (hu : o.UniqueNames) :
    (∀ v, o.pyAttr n = some v → o.getAttr env fuel n = .ok v) ∧
    (o.pyAttr n = none → ∀ p ∈ o.extended, p.name = n →
      o.getAttr env fuel n = p.valueIn env fuel o) ∧
    (o.pyAttr n = none → (∀ p ∈ o.extended, p.name ≠ n) → ∀ p ∈ o.adapted, p.name = n →
      o.getAttr env fuel n = p.valueIn env fuel o) ∧
    (o.pyAttr n = none → (∀ p ∈ o.extended, p.name ≠ n) → (∀ p ∈ o.adapted, p.name ≠ n) →
      o.getAttr env fuel n = .error .attributeError) := by
  have nd : ∀ {ps : List (PsProp V)} {a b : List (PsProp V)} {q : PsProp V}, (propNames ps).Nodup →
      ps = a ++ q :: b → q.name ∉ propNames b := by
    intro ps a b q hd ho hb
    rw [ho] at hd
    simp only [propNames, List.map_append, List.map_cons] at hd
    have := (List.nodup_append.mp hd).2.1
    rw [List.nodup_cons] at this
    exact this.1 hb
  have notIn : ∀ ps : List (PsProp V), (∀ p ∈ ps, p.name ≠ n) → n ∉ propNames ps := by
    intro ps h hm
    obtain ⟨p, hp, e⟩ := List.mem_map.mp hm
    exact h p hp e
  refine ⟨fun v hv => getAttr_py hv, ?_, ?_, ?_⟩
  · rintro hpy p hp rfl
    obtain ⟨a, b, h⟩ := List.append_of_mem hp
    exact getAttr_prop hpy (propOf_extended h (nd hu.1 h))
  · rintro hpy hx p hp rfl
    obtain ⟨a, b, h⟩ := List.append_of_mem hp
    exact getAttr_prop hpy (propOf_adapted h (nd hu.2 h) (notIn _ hx))
  · intro hpy hx ha
    exact getAttr_missing hpy (propOf_none.mpr ⟨notIn _ hx, notIn _ ha⟩)

/-- C34 (writing): a write goes where a read comes from: it is read back, cast to the type of the
property if there is one, and no other name changes; a failed write changes nothing. Partial: for names
that are not both an attribute of the class and a property, with no name twice in a property list (see
`C34_violated`), and not for script properties, whose setter can do anything. -/
theorem C34_write_partial (env : Scripts V) (fuel : Nat) (o o' : PsObj V) (n : PyStr) (v : Option V)
    (r : Except Err Unit) (hu : o.UniqueNames) (hc : o.cls n = none ∨ o.propOf n = none)
    (hs : ∀ p ∈ o.adapted ++ o.extended, p.name = n → ¬ ∃ g s, p.body = .script g s)
    (h : o.setAttr env n v = (o', r)) :
    (r = .ok () →
      (((∃ w, o.attrs.get? n = some w) ∨ o.propOf n = none) → o'.getAttr env fuel n = .ok v) ∧
      (∀ p, o.attrs.get? n = none → o.propOf n = some p →
        ∃ w, p.castValue v = .ok w ∧ o'.getAttr env fuel n = .ok w) ∧
      ∀ m, m ≠ n → o'.pyAttr m = o.pyAttr m ∧ o'.propOf m = o.propOf m) ∧
    (∀ e, r = .error e → o' = o) := by
  by_cases hpy : (∃ w, o.attrs.get? n = some w) ∨ o.propOf n = none
  · rw [setAttr_py hpy] at h
    constructor
    · rintro rfl
      obtain ⟨e, h1, h2⟩ := setPyAttr_ok h
      refine ⟨fun _ => getAttr_py h1, fun p ha hp => ?_, fun m hm => ⟨h2 m hm, by rw [e]; rfl⟩⟩
      rcases hpy with ⟨w, hw⟩ | hpy
      · rw [ha] at hw; cases hw
      · rw [hp] at hpy; cases hpy
    · rintro e rfl
      unfold setPyAttr at h
      split at h
      · cases h; rfl
      · cases h
  · rw [not_or] at hpy
    obtain ⟨ha, hp⟩ := hpy
    have ha : o.attrs.get? n = none := by
      cases hg : o.attrs.get? n with
      | none => rfl
      | some w => exact absurd ⟨w, hg⟩ ha
    have hcn : o.cls n = none := hc.resolve_right hp
    cases hpo : o.propOf n with
    | none => exact absurd hpo hp
    | some p =>
      obtain ⟨hpm, hpn⟩ := propOf_mem hpo
      cases hb : p.body with
      | script g s => exact absurd ⟨g, s, hb⟩ (hs p hpm hpn)
      | alias t =>
        rw [setAttr_readonly hu ha hpo (Or.inl ⟨t, hb⟩)] at h
        cases h
        exact ⟨fun h => (by cases h), fun _ _ => rfl⟩
      | note u =>
        have hset := setAttr_note (env := env) (v := v) hu ha hpo ⟨u, hb⟩
        cases hw : p.castValue v with
        | error e =>
          rw [hset.1 e hw] at h
          cases h
          exact ⟨fun h => (by cases h), fun _ _ => rfl⟩
        | ok w =>
          obtain ⟨o1, h1, c1, c2, _, _, _, c5, c6⟩ := hset.2 w hw
          rw [h1] at h
          cases h
          have hpy' : ∀ m, o'.pyAttr m = o.pyAttr m := by
            intro m; unfold pyAttr; rw [c1, c2]
          refine ⟨fun _ => ⟨?_, ?_, fun m hm => ⟨hpy' m, c6 m hm⟩⟩, fun _ h => (by cases h)⟩
          · rintro (⟨w, hw⟩ | hno)
            · rw [ha] at hw; cases hw
            · cases hno
          · intro q _ hq
            cases hq
            refine ⟨w, hw, ?_⟩
            have hpn : o'.pyAttr n = none := by
              rw [hpy']; unfold pyAttr; rw [hcn, ha]
            exact getAttr_note hpn c5 rfl

/-- C34 fails: a write to a property whose name is also a method of the class goes to the property, a
read gives the method. -/
theorem C34_violated :
    let o : PsObj Nat := {
      cls := fun n => if n = lit "count" then some (.plain (some 99)) else none
      extended := [{ name := lit "count", body := .note none }] }
    (o.setAttr noScripts (lit "count") (some 1)).2 = .ok () ∧
    (o.setAttr noScripts (lit "count") (some 1)).1.getAttr noScripts 10 (lit "count") = .ok (some 99) := by
  decide +kernel

/-- C34 fails: a class that redefines a property of its base class has it twice; a write goes to the
new one, a read gives the one of the base class. -/
theorem C34_violated_redefined :
    let base : PsClass Nat := { typeNames := [lit "Base"], extended := [{ name := lit "Id" }] }
    let cls := base.decorate [lit "Derived"] [] [{ name := lit "Id" }] false
    let o := cls.instance (fun _ => none)
    (o.setAttr noScripts (lit "Id") (some 1)).2 = .ok () ∧
    (o.setAttr noScripts (lit "Id") (some 1)).1.getAttr noScripts 10 (lit "Id") = .ok none := by
  decide +kernel

example : exampleObj.UniqueNames := by unfold UniqueNames; decide +kernel
example : exampleObj.getAttr noScripts 10 (lit "State") = .ok (some 2) ∧
    exampleObj.getAttr noScripts 10 (lit "restart") = .ok (some 99) ∧
    exampleObj.getAttr noScripts 10 (lit "note") = .ok (some 5) ∧
    exampleObj.getAttr noScripts 10 (lit "Id") = .error .attributeError := by decide +kernel
example : (exampleObj.setAttr noScripts (lit "Status") (some 7)).2 = .ok () ∧
    (exampleObj.setAttr noScripts (lit "Status") (some 7)).1.getAttr noScripts 10 (lit "State") =
      .ok (some 7) ∧
    (exampleObj.setAttr noScripts (lit "State") (some 7)).2 = .error .valueError := by decide +kernel

/-! ## C35: type tests -/

/-- C35: the type test is true exactly when a type name of the object is one of those asked about, both
taken without a leading `Deserialized.` if that is to be ignored; it fails only for a class without type
names. -/
theorem C35 (typeNames : List PyStr) (asked : List TypeAsk) (ignore : Bool)
    (hne : ∀ ns, TypeAsk.cls ns ∈ asked → ns ≠ []) :
    ∃ b, psIsInstance typeNames asked ignore = .ok b ∧
      (b = true ↔ ∃ t ∈ typeNames, ∃ a ∈ asked, ∃ n, a.Asks n ∧ SameType ignore t n) := by
  have hok : ∃ names, askNames asked = .ok names := by
    induction asked with
    | nil => exact ⟨[], rfl⟩
    | cons a r ih =>
      obtain ⟨names, hn⟩ := ih (fun ns h => hne ns (by simp [h]))
      match a, hne with
      | .name m, _ => exact ⟨m :: names, by simp [askNames, hn, Except.map]⟩
      | .other, _ => exact ⟨names, hn⟩
      | .cls [], hne => exact absurd rfl (hne [] (by simp))
      | .cls (m :: ms), _ => exact ⟨m :: names, by simp [askNames, hn, Except.map]⟩
  obtain ⟨names, hn⟩ := hok
  refine ⟨_, by rw [psIsInstance, hn]; rfl, ?_⟩
  simp only [List.any_eq_true, List.mem_map, List.contains_iff_mem]
  constructor
  · rintro ⟨x, ⟨t, ht, rfl⟩, n, hnm, he⟩
    obtain ⟨a, ha, hasks⟩ := (askNames_ok hn n).mp hnm
    exact ⟨t, ht, a, ha, n, hasks, (sameType_iff _ _ _).mpr he.symm⟩
  · rintro ⟨t, ht, a, ha, n, hasks, hs⟩
    exact ⟨_, ⟨t, ht, rfl⟩, n, (askNames_ok hn n).mpr ⟨a, ha, hasks⟩, ((sameType_iff _ _ _).mp hs).symm⟩

/-- C35 (inheritance): an instance of a class that inherits the types of its base class passes the test
for the base class and for the class itself. -/
theorem C35_inherited (base : PsClass V) (names : List PyStr) (adapted extended : List (PsProp V))
    (cls : PyStr → Option (ClassAttr V)) (ignore : Bool) (hb : base.typeNames ≠ []) :
    psIsInstance ((base.decorate names adapted extended false).instance cls).typeNames
      [.cls base.typeNames] ignore = .ok true ∧
    psIsInstance ((base.decorate names adapted extended false).instance cls).typeNames
      [.cls (base.decorate names adapted extended false).typeNames] ignore = .ok true := by
  have key : ∀ ns ms : List PyStr, ns ≠ [] → (∀ x, ns.head? = some x → x ∈ ms) →
      psIsInstance ms [.cls ns] ignore = .ok true := by
    intro ns ms hns hms
    obtain ⟨b, h1, h2⟩ := C35 ms [.cls ns] ignore (by simpa using hns)
    rw [h1, h2.mpr]
    cases ns with
    | nil => exact absurd rfl hns
    | cons n ns =>
      exact ⟨n, hms n rfl, .cls (n :: ns), by simp, n, rfl, (sameType_iff _ _ _).mpr rfl⟩
  have hnames : ((base.decorate names adapted extended false).instance cls).typeNames =
      names ++ base.typeNames := rfl
  have hnames' : (base.decorate names adapted extended false).typeNames = names ++ base.typeNames := rfl
  rw [hnames, hnames']
  refine ⟨key _ _ hb ?_, key _ _ (by simp [hb]) ?_⟩
  · intro x hx
    exact List.mem_append_right _ (List.mem_of_head? hx)
  · intro x hx
    exact List.mem_of_head? hx

example : psIsInstance [lit "Deserialized.System.Int32", lit "System.Object"]
    [.name (lit "System.Int32")] true = .ok true ∧
  psIsInstance [lit "Deserialized.System.Int32", lit "System.Object"]
    [.name (lit "System.Int32"), .other, .cls [lit "System.String", lit "System.Object"]] false =
    .ok false ∧
  psIsInstance [lit "System.Int32"] [.cls []] false = .error .indexError := by decide +kernel

/-! ## C55: type tests on copies -/

/-- C55: a copy of an object that came back with `Deserialized.` type names passes the same tests as the
original when `Deserialized.` is ignored. Partial: for originals that are no such copies themselves, see
`C55_violated`. -/
theorem C55_partial (typeNames : List PyStr) (asked : List TypeAsk)
    (hno : ∀ t ∈ typeNames, ¬ ∃ d, t = deserializedPrefix ++ d) :
    psIsInstance (rehydratedNames typeNames) asked true = psIsInstance typeNames asked true := by
  unfold psIsInstance
  have h : (rehydratedNames typeNames).map (stripDeserialized true) =
      typeNames.map (stripDeserialized true) := by
    unfold rehydratedNames
    rw [List.map_map]
    apply List.map_congr_left
    intro t ht
    rcases strip_cases true t with ⟨_, d, hd, _⟩ | ⟨_, hs⟩
    · exact absurd ⟨d, hd⟩ (hno t ht)
    · rw [hs]
      rcases strip_cases true (deserializedPrefix ++ t) with ⟨_, d, hd, hs'⟩ | ⟨hn, _⟩
      · show stripDeserialized true (deserializedPrefix ++ t) = t
        rw [hs']; exact (List.append_cancel_left hd).symm
      · exact absurd ⟨t, rfl⟩ (hn rfl)
  rw [h]

/-- C55 fails for a copy of a copy: the prefix is added again, but only one is ignored. -/
theorem C55_violated :
    let once := rehydratedNames [lit "System.Diagnostics.Process"]
    psIsInstance once [.name (lit "System.Diagnostics.Process")] true = .ok true ∧
    psIsInstance (rehydratedNames once) [.name (lit "System.Diagnostics.Process")] true = .ok false := by
  decide +kernel

example : ∀ t ∈ [lit "System.Int32", lit "System.Object"], ¬ ∃ d, t = deserializedPrefix ++ d := by
  intro t ht ⟨d, hd⟩
  have h : t.head? = some 68 := by rw [hd]; rfl
  simp only [List.mem_cons, List.not_mem_nil, or_false] at ht
  rcases ht with rfl | rfl <;> exact absurd h (by decide +kernel)

/-! ## C56: the default constructor -/

/-- C56: constructing an object of a plainly defined class succeeds exactly when there are not too many
positional arguments, no property is given both ways, every mandatory property and no unknown one is
given, and the values can be cast. -/
theorem C56 (env : Scripts V) (o : PsObj V) (args : List (Option V)) (kwargs : Dict PyStr (Option V))
    (h : o.Plain) (hk : kwargs.keys.Nodup) :
    (∃ o', o.init env args kwargs = .ok o') ↔
      args.length ≤ (o.adapted ++ o.extended).length ∧
      (∀ n ∈ (propNames (o.adapted ++ o.extended)).take args.length, n ∉ kwargs.keys) ∧
      (∀ p ∈ o.adapted ++ o.extended, p.mandatory = true →
        p.name ∈ (propNames (o.adapted ++ o.extended)).take args.length ∨ p.name ∈ kwargs.keys) ∧
      (∀ n ∈ kwargs.keys, n ∈ propNames (o.adapted ++ o.extended)) ∧
      (∀ a ∈ (propNames (o.adapted ++ o.extended)).zip args ++ kwargs,
        ∀ p ∈ o.adapted ++ o.extended, p.name = a.1 → ∃ w, p.castValue a.2 = .ok w) := by
  have hd := h.2.1
  have he := propEntries_plain hd
  have hkeys : o.propEntries.keys = propNames (o.adapted ++ o.extended) := by
    rw [he]; simp [Dict.keys, propNames, Function.comp_def]
  have hlen : o.propEntries.length = (o.adapted ++ o.extended).length := by rw [he]; simp
  have hcont : ∀ n, o.propEntries.contains n = true ↔ n ∈ propNames (o.adapted ++ o.extended) := by
    intro n; rw [contains_iff, hkeys]
  have hfst := fun ns : List PyStr => zip_fst ns args
  have hmem : ∀ n p, o.propOf n = some p ↔ p ∈ o.adapted ++ o.extended ∧ p.name = n := by
    intro n p
    constructor
    · exact propOf_mem
    · rintro ⟨hp, rfl⟩; exact propOf_of_mem hd hp
  have hdup : (Dict.keys o.propEntries |>.zip args).any (fun a => kwargs.contains a.1) = false ↔
      ∀ n ∈ (propNames (o.adapted ++ o.extended)).take args.length, n ∉ kwargs.keys := by
    rw [← hfst, hkeys, List.any_eq_false]
    simp only [Bool.not_eq_true]
    constructor
    · intro hall n hn hmem
      obtain ⟨a, ha, rfl⟩ := List.mem_map.mp hn
      have := hall a ha
      rw [(contains_iff _ _).mpr hmem] at this
      cases this
    · intro hall a ha
      cases hc : Dict.contains kwargs a.1 with
      | false => rfl
      | true => exact absurd ((contains_iff _ _).mp hc) (hall a.1 (List.mem_map.mpr ⟨a, ha, rfl⟩))
  have hman : o.propEntries.any (fun e => e.2.mandatory &&
        !Dict.contains ((Dict.keys o.propEntries).zip args ++ kwargs) e.1) = false ↔
      ∀ p ∈ o.adapted ++ o.extended, p.mandatory = true →
        p.name ∈ (propNames (o.adapted ++ o.extended)).take args.length ∨ p.name ∈ kwargs.keys := by
    have hc : ∀ n, Dict.contains ((Dict.keys o.propEntries).zip args ++ kwargs) n = true ↔
        n ∈ (propNames (o.adapted ++ o.extended)).take args.length ∨ n ∈ kwargs.keys := by
      intro n
      rw [contains_iff, ← hfst, hkeys]
      simp only [Dict.keys, List.map_append, List.mem_append]
    rw [List.any_eq_false]
    simp only [Bool.and_eq_true, Bool.not_eq_true', not_and, Bool.not_eq_false]
    constructor
    · intro hall p hp hm
      exact (hc _).mp (hall (p.name, p) (by rw [he]; exact List.mem_map.mpr ⟨p, hp, rfl⟩) hm)
    · intro hall e hemem hm
      rw [he] at hemem
      obtain ⟨p, hp, rfl⟩ := List.mem_map.mp hemem
      exact (hc _).mpr (hall p hp hm)
  have hnod : args.length ≤ (o.adapted ++ o.extended).length →
      (∀ n ∈ (propNames (o.adapted ++ o.extended)).take args.length, n ∉ kwargs.keys) →
      (((propNames (o.adapted ++ o.extended)).zip args ++ kwargs).map Prod.fst).Nodup := by
    intro _ hdis
    rw [List.map_append, hfst, List.nodup_append]
    refine ⟨hd.sublist (List.take_sublist _ _), hk, ?_⟩
    rintro n hn m hm rfl
    exact hdis n hn hm
  have hin : ∀ a ∈ (propNames (o.adapted ++ o.extended)).zip args,
      a.1 ∈ propNames (o.adapted ++ o.extended) := fun a ha => (List.of_mem_zip ha).1
  unfold PsObj.init
  simp only
  constructor
  · rintro ⟨o', ho⟩
    split at ho
    · cases ho
    · rename_i h1
      split at ho
      · cases ho
      · rename_i h2
        split at ho
        · cases ho
        · rename_i h3
          rw [Bool.not_eq_true] at h2 h3
          have h1' : args.length ≤ (o.adapted ++ o.extended).length := by omega
          have h2' := hdup.mp h2
          have h3' := hman.mp h3
          rw [hkeys] at ho
          have hall := initLoop_only h (hnod h1' h2') hcont ho
          refine ⟨h1', h2', h3', ?_, ?_⟩
          · intro n hn
            obtain ⟨a, ha, rfl⟩ := List.mem_map.mp hn
            obtain ⟨p, w, hp, _⟩ := hall a (List.mem_append_right _ ha)
            obtain ⟨hp, hn⟩ := propOf_mem hp
            rw [← hn]; exact mem_propNames hp
          · intro a ha p hp hn
            obtain ⟨q, w, hq, hw⟩ := hall a ha
            rw [(hmem a.1 p).mpr ⟨hp, hn⟩] at hq
            cases hq
            exact ⟨w, hw⟩
  · rintro ⟨h1, h2, h3, h4, h5⟩
    rw [if_neg (by omega), if_neg (by rw [Bool.not_eq_true]; exact hdup.mpr h2),
      if_neg (by rw [Bool.not_eq_true]; exact hman.mpr h3), hkeys]
    obtain ⟨o', ho, _⟩ := initLoop_ok (env := env) h (hnod h1 h2) hcont
      (fun a ha => by
        rcases List.mem_append.mp ha with ha | ha
        · exact hin a ha
        · exact h4 _ (List.mem_map.mpr ⟨a, ha, rfl⟩))
      (fun a ha p hp => by
        obtain ⟨hp, hn⟩ := propOf_mem hp
        exact h5 a ha p hp hn)
    exact ⟨o', ho⟩

/-- C56 (values): then every property that is given reads as its value, cast to the type of the
property, positional arguments being for the properties in their order; the others read as before. -/
theorem C56_values (env : Scripts V) (fuel : Nat) (o o' : PsObj V) (args : List (Option V))
    (kwargs : Dict PyStr (Option V)) (h : o.Plain) (hk : kwargs.keys.Nodup)
    (ho : o.init env args kwargs = .ok o') :
    (∀ a ∈ (propNames (o.adapted ++ o.extended)).zip args ++ kwargs,
      ∀ p ∈ o.adapted ++ o.extended, p.name = a.1 →
        ∃ w, p.castValue a.2 = .ok w ∧ o'.getAttr env fuel a.1 = .ok w) ∧
    (∀ p ∈ o.adapted ++ o.extended, p.name ∉ (propNames (o.adapted ++ o.extended)).take args.length →
      p.name ∉ kwargs.keys → o'.getAttr env fuel p.name = o.getAttr env fuel p.name) := by
  have hd := h.2.1
  obtain ⟨h1, h2, h3, h4, h5⟩ := (C56 env o args kwargs h hk).mp ⟨o', ho⟩
  have hfst := fun ns : List PyStr => zip_fst ns args
  have he := propEntries_plain hd
  have hkeys : o.propEntries.keys = propNames (o.adapted ++ o.extended) := by
    rw [he]; simp [Dict.keys, propNames, Function.comp_def]
  have hcont : ∀ n, o.propEntries.contains n = true ↔ n ∈ propNames (o.adapted ++ o.extended) := by
    intro n; rw [contains_iff, hkeys]
  have hnod : (((propNames (o.adapted ++ o.extended)).zip args ++ kwargs).map Prod.fst).Nodup := by
    rw [List.map_append, hfst, List.nodup_append]
    refine ⟨hd.sublist (List.take_sublist _ _), hk, ?_⟩
    rintro n hn m hm rfl
    exact h2 n hn hm
  obtain ⟨o'', hl, r⟩ := initLoop_ok (env := env) h hnod hcont
    (fun a ha => by
      rcases List.mem_append.mp ha with ha | ha
      · exact (List.of_mem_zip ha).1
      · exact h4 _ (List.mem_map.mpr ⟨a, ha, rfl⟩))
    (fun a ha p hp => by
      obtain ⟨hp, hn⟩ := propOf_mem hp
      exact h5 a ha p hp hn)
  have hoo : o'' = o' := by
    unfold PsObj.init at ho
    simp only at ho
    split at ho
    · cases ho
    · split at ho
      · cases ho
      · split at ho
        · cases ho
        · rw [hkeys, hl] at ho
          cases ho
          rfl
  subst hoo
  have hpy : ∀ n p, o.propOf n = some p → o''.pyAttr n = none := by
    intro n p hp
    have := h.pyAttr hp
    unfold PsObj.pyAttr at *
    rw [r.cls, r.attrs]
    exact this
  constructor
  · intro a ha p hp hn
    have hpo : o.propOf a.1 = some p := by rw [← hn]; exact propOf_of_mem hd hp
    obtain ⟨w, hw, hget⟩ := r.given a ha p hpo
    exact ⟨w, hw, getAttr_note (hpy _ _ hpo) hget rfl⟩
  · intro p hp hn1 hn2
    have hpo : o.propOf p.name = some p := propOf_of_mem hd hp
    have hrest := r.rest p.name (by
      rw [List.map_append, List.mem_append, hfst]
      exact fun hm => hm.elim hn1 hn2)
    obtain ⟨u, hb⟩ := (h.1 p hp).1
    rw [getAttr_note (hpy _ _ hpo) (hrest.trans hpo) hb, getAttr_note (h.pyAttr hpo) hpo hb]

/-- A class with a mandatory and an optional property. -/
def exampleClass : PsObj Nat where
  extended := [
    { name := lit "ci"
      mandatory := true
      cast := fun n => if n < 100 then .ok n else .error .valueError },
    { name := lit "Count" }]

example : exampleClass.Plain := by
  refine ⟨?_, by decide +kernel, rfl⟩
  intro p hp
  simp only [exampleClass, List.nil_append, List.mem_cons, List.not_mem_nil, or_false] at hp
  rcases hp with rfl | rfl <;> exact ⟨⟨_, rfl⟩, rfl⟩

example : (match exampleClass.init noScripts [some 4] [(lit "Count", some 9)] with
    | .ok o => o.getAttr noScripts 10 (lit "ci") | .error e => .error e) = .ok (some 4) ∧
  (match exampleClass.init noScripts [] [(lit "Count", some 9)] with
    | .ok _ => false | .error e => e == .typeError) = true ∧
  (match exampleClass.init noScripts [some 4] [(lit "ci", some 9)] with
    | .ok _ => false | .error e => e == .typeError) = true ∧
  (match exampleClass.init noScripts [some 400] [] with
    | .ok _ => false | .error e => e == .valueError) = true := by decide +kernel

end Verif
