import Verif.Props.Builder

/-!
# C92: parameters that are given to a `Command` object itself
-/

namespace Verif
open Builder

variable {V : Type}

private theorem object_parameters (ps : List (PyStr × V)) : ∀ c : Command V,
    objectParameters c ps = { c with parameters := c.parameters ++ ps.map fun p => (some p.1, p.2) } := by
  induction ps with
  | nil => intro c; simp [objectParameters]
  | cons p ps ih =>
    intro c
    obtain ⟨n, v⟩ := p
    rw [objectParameters, ih]
    simp [Command.addParameter]

private theorem changed (b : Builder V) (r : Nat) (f : Command V → Command V) (c : Command V) (hc : b.objs[r]? = some c) :
    (b.change r f).commands = b.commands ∧ (b.change r f).objs[r]? = some (f c) ∧
      ∀ i, i ≠ r → (b.change r f).objs[i]? = b.objs[i]? := by
  refine ⟨rfl, ?_, fun i hi => ?_⟩
  · simp [change, List.getElem?_modify, hc]
  · simp only [change, List.getElem?_modify]
    cases b.objs[i]? with
    | none => rfl
    | some d => simp [Ne.symm hi]

/-- C92: `command.add_parameters` on a `Command` object gives it the parameters in the order given,
after those it has. Its other settings, the other objects and the commands of the pipeline stay. -/
theorem C92_object_parameters (b : Builder V) (r : Nat) (c : Command V) (hc : b.objs[r]? = some c)
    (ps : List (PyStr × V)) :
    let b' := b.step (.commandParameters r ps)
    b'.2 = .ok () ∧ b'.1.commands = b.commands ∧ (∀ i, i ≠ r → b'.1.objs[i]? = b.objs[i]?) ∧
    b'.1.objs[r]? = some { c with parameters := c.parameters ++ ps.map fun p => (some p.1, p.2) } := by
  have hlt := (List.getElem?_eq_some_iff.mp hc).1
  simp only [step, if_pos hlt]
  obtain ⟨h1, h2, h3⟩ := changed b r (objectParameters · ps) c hc
  refine ⟨trivial, h1, h3, ?_⟩
  rw [h2, object_parameters]

/-- C92: `command.add_parameter` gives the object one parameter more, with or without a
name. -/
theorem C92_object_parameter (b : Builder V) (r : Nat) (c : Command V) (hc : b.objs[r]? = some c)
    (name : Option PyStr) (value : V) :
    let b' := b.step (.commandParameter r name value)
    b'.2 = .ok () ∧ b'.1.commands = b.commands ∧ (∀ i, i ≠ r → b'.1.objs[i]? = b.objs[i]?) ∧
    b'.1.objs[r]? = some { c with parameters := c.parameters ++ [(name, value)] } := by
  have hlt := (List.getElem?_eq_some_iff.mp hc).1
  simp only [step, if_pos hlt]
  obtain ⟨h1, h2, h3⟩ := changed b r (·.addParameter name value) c hc
  exact ⟨trivial, h1, h3, h2⟩

/-! ## Cases -/

/-- Two objects, the first of which is in the pipeline and has an argument. -/
private def twoObjects : Builder Nat :=
  (run {} [.command (txt! "a") false none, .command (txt! "b") true (some true), .addObject 0 none,
    .commandParameter 0 none 4]).1

example : twoObjects.objs[0]? = some { commandText := txt! "a", parameters := [(none, 4)] } ∧
    ((twoObjects.step (.commandParameters 0 [(txt! "x", 5), (txt! "y", 6)])).1.view.map (·.parameters)) =
      [[(none, 4), (some (txt! "x"), 5), (some (txt! "y"), 6)]] :=
  ⟨by decide +kernel, by decide +kernel⟩

end Verif
