import Verif.Model.Guard

/-! # C89: operators of durations do not depend on what was done before -/

namespace Verif

variable {C R : Type}

private theorem types_of (sub : C → C → Bool) (base : C) : ∀ (ops : List (C × C)) (g : TypeGuard C), (∀ t ∈ g.types, sub t base = true) →
    (∀ p ∈ ops, sub p.1 base = true) → (∀ t ∈ (g.calls sub ops).types, sub t base = true) ∧
      (g.calls sub ops).types.length = g.types.length + ops.length ∧ ∀ t ∈ g.types, t ∈ (g.calls sub ops).types
  | [], g, hg, _ => ⟨hg, rfl, fun _ h => h⟩
  | (a, b) :: r, g, hg, ho => by
    obtain ⟨h1, h2, h3⟩ := types_of sub base r (g.call sub a b ()).1 (fun t ht => by
      rcases List.mem_append.mp ht with h | h
      · exact hg t h
      · rw [List.mem_singleton] at h; subst h; exact ho (t, b) List.mem_cons_self) (fun p hp => ho p (List.mem_cons_of_mem _ hp))
    refine ⟨h1, ?_, fun t ht => h3 t (List.mem_append_left _ ht)⟩
    show (TypeGuard.calls sub (g.call sub a b ()).1 r).types.length = _
    rw [h2]
    simp [TypeGuard.call]
    omega

/-- C89 (full statement: an operator accepts an operand exactly if it is a `timedelta`, and leaves nothing behind; see `C89_grows_violated`).
Whatever was compared, added or subtracted before, and whatever classes are derived from `PSDuration`, an operand is accepted exactly if it
is an instance of the class the operator is for. `sub` is whether the instances of one class are instances of the other. -/
theorem C89_partial (sub : C → C → Bool) (base : C) (hr : sub base base = true)
    (ht : ∀ a b c, sub a b = true → sub b c = true → sub a c = true) (ops : List (C × C)) (ho : ∀ p ∈ ops, sub p.1 base = true)
    (self other : C) (hs : sub self base = true) (f : R) :
    (((TypeGuard.new base).calls sub ops).call sub self other f).2 = if sub other base then .result f else .notImplemented := by
  obtain ⟨h1, _, h3⟩ := types_of sub base ops (TypeGuard.new base) (fun t ht => by
    rw [List.mem_singleton.mp ht]; exact hr) ho
  unfold TypeGuard.call
  dsimp only
  cases hb : sub other base with
  | true =>
    rw [if_pos, if_pos rfl]
    rw [List.any_eq_true]
    exact ⟨base, List.mem_append_left _ (h3 base (List.mem_singleton_self base)), hb⟩
  | false =>
    rw [if_neg, if_neg (by simp)]
    rw [List.any_eq_true]
    rintro ⟨t, h, he⟩
    have : sub t base = true := by
      rcases List.mem_append.mp h with h | h
      · exact h1 t h
      · rw [List.mem_singleton.mp h]; exact hs
    rw [ht other t base he this] at hb
    exact nomatch hb

/-- Class 0 is `timedelta`, 1 is `PSDuration`, 2 is a class derived from it, 3 is `int`. -/
example : let sub : Fin 4 → Fin 4 → Bool := fun a b => a == b || (decide (b < a) && decide (a ≠ 3))
    sub 0 0 = true ∧ (∀ a b c, sub a b = true → sub b c = true → sub a c = true) ∧
      (∀ p ∈ [(2, 3), (1, 0)], sub p.1 0 = true) ∧ sub 1 0 = true ∧
      (((TypeGuard.new (0 : Fin 4)).calls sub [(2, 3), (1, 0)]).call sub 1 3 ()).2 = .notImplemented ∧
      (((TypeGuard.new (0 : Fin 4)).calls sub [(2, 3), (1, 0)]).call sub 1 2 ()).2 = .result () := by decide +kernel

/-- Each call leaves the class of the duration in a list that later calls go through: after `n` calls it has `n + 1` entries, so that
programs which compare many durations take ever more memory and time. -/
theorem C89_grows_violated (sub : C → C → Bool) (base self other : C) (n : Nat) :
    ((TypeGuard.new base).calls sub (List.replicate n (self, other))).types.length = n + 1 := by
  have key : ∀ (n : Nat) (g : TypeGuard C), (g.calls sub (List.replicate n (self, other))).types.length = g.types.length + n := by
    intro n
    induction n with
    | zero => intro g; rfl
    | succ n ih =>
      intro g
      rw [List.replicate_succ]
      show (TypeGuard.calls sub (g.call sub self other ()).1 _).types.length = _
      rw [ih]
      simp [TypeGuard.call]
      omega
  rw [key]
  show 1 + n = n + 1
  omega

end Verif
