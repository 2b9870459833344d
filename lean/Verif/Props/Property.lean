import Verif.Proof.Property

/-! # C86: getters, setters and values of properties -/

namespace Verif

variable {O V : Type}

/-- C86, callables (full statement: a getter or setter is accepted exactly if it can be called with the object, or with the object and the
value; see `C86_accepts_violated` and `C86_methods_violated`). For functions whose keyword-only parameters have defaults it is so, and
what is refused is refused with `TypeError`. `n` is 1 for getters and 2 for setters. -/
theorem C86_accepts_partial (f : Func) (s : Signature) (hf : f.params = s.params) (hs : s.Legal) (hk : ∀ b ∈ s.kwOnly, b = true)
    (n : Nat) : (validateCallable (.func f) n = .ok () ↔ s.Takes n) ∧
      (validateCallable (.func f) n = .error .typeError ↔ ¬ s.Takes n) := by
  have h1 : validateCallable (.func f) n = .ok () ↔ s.Takes n := by
    rw [validate_func f n s hf hs]
    exact ⟨fun ⟨a, b⟩ => ⟨a, hk, b⟩, fun ⟨a, _, b⟩ => ⟨a, b⟩⟩
  refine ⟨h1, ?_⟩
  rw [← h1]
  cases hv : validateCallable (.func f) n with
  | ok u => simp
  | error e => rw [validate_error hv]; simp

/-- `def f(a, b=0, *args, k=0)`: taken with one argument and with two. -/
example : let s : Signature := { posOrKw := [false, true], varArgs := true, kwOnly := [true] }
    s.Legal ∧ (∀ b ∈ s.kwOnly, b = true) ∧ validateCallable (.func ⟨0, s.params⟩) 1 = .ok () ∧
      validateCallable (.func ⟨0, s.params⟩) 2 = .ok () ∧ validateCallable (.func ⟨0, s.params⟩) 0 = .error .typeError := by
  refine ⟨?_, ?_, ?_, ?_, ?_⟩ <;> first | decide | simp [Signature.Legal, Signature.positional]

/-- A function with a keyword-only parameter without default, `lambda s, *, k: ...`, is accepted, and each reading of the property is a
`TypeError`. -/
theorem C86_accepts_violated : ∃ (f : Func) (s : Signature), f.params = s.params ∧ s.Legal ∧ ¬ s.Takes 1 ∧
    (PropInfo.newScript (V := V) (txt! "p") (.func f) .none false none).toOption.isSome ∧
    ∀ p, PropInfo.newScript (V := V) (txt! "p") (.func f) .none false none = .ok p → ∀ (env : Calls O V) o,
      p.getValue env o = .error .typeError := by
  refine ⟨⟨0, Signature.params { posOrKw := [false], kwOnly := [false] }⟩, { posOrKw := [false], kwOnly := [false] }, rfl, ?_, ?_, rfl, ?_⟩
  · simp [Signature.Legal, Signature.positional]
  · simp [Signature.Takes]
  · intro p hp env o
    cases hp
    rfl

/-- What is no function of Python is refused, though it may be a callable: bound methods, classes, functions of modules written in C. -/
theorem C86_methods_violated (p : PropInfo V) (b : Bool) (h : p.value = none) (n : Nat) :
    validateCallable (.other b) n = .error .typeError ∧ p.setGetter (.other b) = (p, .error .typeError) := by
  refine ⟨rfl, ?_⟩
  simp [PropInfo.setGetter, h]

example : ∃ p : PropInfo Nat, p.value = none := ⟨{ kind := .note, name := txt! "p" }, rfl⟩

/-- C86, reading and writing through functions: a function that was accepted is called, so that the value is what it returns, cast to the
type of the property, and a write is what the setter does, with the object and the value in this order. -/
theorem C86_called (env : Calls O V) (p : PropInfo V) (hp : p.Constructed) (ops : List (PropOp V)) (o : O) :
    let q := (PropInfo.after env ops (p, o)).1
    (∀ (f : Func) (s : Signature), q.getter = some (.func f) → f.params = s.params → s.Legal → (∀ b ∈ s.kwOnly, b = true) → ∀ x,
      q.getValue env x = (env.get f.code x).bind q.castTo) ∧
    (∀ (f : Func) (s : Signature), q.setter = some f → f.params = s.params → s.Legal → (∀ b ∈ s.kwOnly, b = true) → ∀ v x,
      q.setValue env v x = ((q, (env.set f.code x v).1), (env.set f.code x v).2)) := by
  have hc := hp.coherent.after env ops p o
  dsimp only
  constructor
  · intro f s hq hf hs hk x
    have h1 := (binds_iff f 1 s hf).mpr (((C86_accepts_partial f s hf hs hk 1).1).mp (hc.getter f hq))
    unfold PropInfo.getValue
    rw [hq]
    dsimp only
    rw [if_pos h1]
  · intro f s hq hf hs hk v x
    have h1 := (binds_iff f 2 s hf).mpr (((C86_accepts_partial f s hf hs hk 2).1).mp (hc.setter f hq))
    unfold PropInfo.setValue
    rw [hq]
    dsimp only
    rw [if_pos h1]

/-- The example of a script property: its getter gives the double of the object, its setter adds the value to it. -/
def doubler : Calls Nat Nat := ⟨fun _ _ => .error .attributeError, fun _ o => .ok (some (2 * o)), fun _ o v => (o + v.getD 0, .ok ())⟩

example : ∃ p : PropInfo Nat, p.Constructed ∧
    p.getter = some (.func ⟨0, Signature.params { posOrKw := [false] }⟩) ∧
    p.setter = some ⟨1, Signature.params { posOrKw := [false, false] }⟩ ∧ p.getValue doubler 4 = .ok (some 8) ∧
    (p.setValue doubler (some 3) 4).1.2 = 7 := by
  have h : PropInfo.newScript (V := Nat) (txt! "p") (.func ⟨0, Signature.params { posOrKw := [false] }⟩)
      (.func ⟨1, Signature.params { posOrKw := [false, false] }⟩) true none = .ok
      { kind := .script, name := txt! "p", mandatory := true, getter := some (.func ⟨0, Signature.params { posOrKw := [false] }⟩),
        setter := some ⟨1, Signature.params { posOrKw := [false, false] }⟩ } := rfl
  exact ⟨_, .inr (.inr ⟨_, _, _, _, _, h⟩), rfl, rfl, rfl, rfl⟩

/-- C86, one source: whatever callers do with a property, it never has both a value of its own and a getter, nor a setter without a getter. -/
theorem C86_one_source (env : Calls O V) (p : PropInfo V) (hp : p.Constructed) (ops : List (PropOp V)) (o : O) :
    let q := (PropInfo.after env ops (p, o)).1
    (q.value.isSome → q.getter = none) ∧ (q.setter.isSome → q.getter.isSome) :=
  have hc := hp.coherent.after env ops p o
  ⟨hc.one, hc.read⟩

/-- A note gets a getter and a setter as long as it has no value; then values are the setter's business. -/
example : let g := Given.func ⟨0, Signature.params { posOrKw := [false] }⟩
    let s := Given.func ⟨1, Signature.params { posOrKw := [false, false] }⟩
    ∃ p : PropInfo Nat, p.Constructed ∧
      (let r := PropInfo.after doubler [.setter s, .getter g, .setter s, .value (some 5)] (p, 4)
       r.1.value = none ∧ r.1.getter.isSome ∧ r.1.setter.isSome ∧ r.2 = 9) ∧
      (let r := PropInfo.after doubler [.value (some 5), .getter g] (p, 4)
       r.1.value = some (some 5) ∧ r.1.getter = none) :=
  ⟨{ kind := .note, name := txt! "p" }, .inl ⟨txt! "p", none, false, none, rfl⟩, ⟨rfl, rfl, rfl, rfl⟩, rfl, rfl⟩

/-- C86, when assignments are refused: a getter if there is a value or it cannot be called, a setter if there is no getter or it cannot be
called, a value if there is a getter only. A refused assignment changes nothing. -/
theorem C86_refused (env : Calls O V) (p : PropInfo V) (g : Given) (v : Option V) (o : O) :
    ((p.setGetter g).2 = .ok () ↔ p.value = none ∧ validateCallable g 1 = .ok ()) ∧
    ((p.setSetter g).2 = .ok () ↔ p.getter.isSome ∧ (g = .none ∨ validateCallable g 2 = .ok ())) ∧
    (p.getter.isSome → p.setter = none → p.setValue env v o = ((p, o), .error .valueError)) ∧
    ((p.setGetter g).2 ≠ .ok () → (p.setGetter g).1 = p) ∧ ((p.setSetter g).2 ≠ .ok () → (p.setSetter g).1 = p) := by
  refine ⟨?_, ?_, ?_, ?_, ?_⟩
  · rcases setGetter_cases p g with ⟨h1, f, rfl, h2, h3⟩ | ⟨h1, e, h3⟩ <;> rw [h3]
    · simp [h1, h2]
    · refine ⟨fun h => (nomatch h), fun ⟨h4, h5⟩ => ?_⟩
      rcases h1 with h1 | h1
      · simp [h4] at h1
      · exact absurd h5 h1
  · rcases setSetter_cases p g with ⟨h1, rfl, h3⟩ | ⟨h1, f, rfl, h2, h3⟩ | ⟨h1, e, h3⟩ <;> rw [h3]
    · simp [h1]
    · simp [h1, h2]
    · refine ⟨fun h => (nomatch h), fun ⟨h4, h5⟩ => ?_⟩
      rcases h1 with h1 | ⟨h1, h2⟩
      · simp [h1] at h4
      · exact h5.elim (fun h => absurd h h1) (fun h => absurd h h2)
  · intro h1 h2
    simp [PropInfo.setValue, h1, h2]
  · rcases setGetter_cases p g with ⟨h1, f, rfl, h2, h3⟩ | ⟨h1, e, h3⟩ <;> rw [h3] <;> simp
  · rcases setSetter_cases p g with ⟨h1, rfl, h3⟩ | ⟨h1, f, rfl, h2, h3⟩ | ⟨h1, e, h3⟩ <;> rw [h3] <;> simp

/-- C86, notes: what is written to a property without getter is read from it, cast to its type. -/
theorem C86_note (env : Calls O V) (p : PropInfo V) (v : Option V) (o : O) (hg : p.getter = none) (hs : p.setter = none) :
    (∀ w, p.castTo v = .ok w → (p.setValue env v o).2 = .ok () ∧ (p.setValue env v o).1.1.getValue env o = .ok w ∧
      (p.setValue env v o).1.2 = o) ∧
    (∀ e, p.castTo v = .error e → p.setValue env v o = ((p, o), .error e)) := by
  constructor
  · intro w hw
    simp [PropInfo.setValue, hg, hs, hw, PropInfo.getValue]
  · intro e he
    simp [PropInfo.setValue, hg, hs, he]

example : let p : PropInfo Nat := { kind := .note, name := txt! "p", psType := some ⟨fun n => decide (n < 10), fun n => if n < 100 then .ok (n / 10) else .error .valueError⟩ }
    p.castTo (some 42) = .ok (some 4) ∧ (p.setValue doubler (some 42) 0).1.1.getValue doubler 0 = .ok (some 4) ∧
      p.castTo (some 420) = .error .valueError := ⟨rfl, rfl, rfl⟩

/-- The documentation of `set_value` says that to set `None` on a mandatory property fails (`_base.py:350-351`). It does not. -/
theorem C86_mandatory_violated (env : Calls O V) (o : O) : ∃ p : PropInfo V, p.Constructed ∧ p.mandatory = true ∧
    (p.setValue env none o).2 = .ok () ∧ (p.setValue env none o).1.1.getValue env o = .ok none :=
  ⟨{ kind := .note, name := txt! "p", mandatory := true }, .inl ⟨txt! "p", none, true, none, rfl⟩, rfl, rfl, rfl⟩

/-- C86, copies (full statement: the copy of a property, as each new object has it of those of its class, is like the property; see
`C86_copy_violated`). That is so of properties as the constructors make them, whatever values they were given since. -/
theorem C86_copy_partial (env : Calls O V) (p : PropInfo V) (hp : p.Constructed) (ht : p.TypeMakes)
    (hg : p.kind = .script → p.getter.isSome) (vs : List (Option V)) (o : O) :
    let q := (PropInfo.after env (vs.map .value) (p, o)).1
    q.copy = .ok q :=
  PropInfo.Regular.copy (PropInfo.Regular.values env vs p o (hp.regular ht hg) ht)

example : ∃ p : PropInfo Nat, p.Constructed ∧ p.TypeMakes ∧ (p.kind = .script → p.getter.isSome) ∧
    (PropInfo.after doubler [.value (some 1), .value (some 42)] (p, 0)).1.value = some (some 4) := by
  refine ⟨{ kind := .note, name := txt! "p", psType := some ⟨fun n => decide (n < 10), fun n => if n < 100 then .ok (n / 10) else .error .valueError⟩ },
    .inl ⟨txt! "p", none, false, _, rfl⟩, ?_, fun h => (nomatch h), rfl⟩
  intro t h v w hm
  cases h
  dsimp only at hm ⊢
  split at hm
  · cases hm; simp; omega
  · exact nomatch hm

/-- A getter that is assigned to a note later, and a setter assigned to an alias, are not in the copy: objects made of the class do not have
them. A script property whose getter is falsy, such as `0`, is accepted, and then no object can be made of the class. -/
theorem C86_copy_violated (env : Calls O V) (o : O) : (∃ p q : PropInfo V, p.Constructed ∧
      (p.setGetter (.func ⟨0, [⟨.positionalOrKeyword, false⟩]⟩)) = (q, .ok ()) ∧ ∃ r, q.copy = .ok r ∧ r.getter = none ∧
      r.getValue env o = .ok none ∧ q.getValue env o = env.get 0 o) ∧
    (∃ p q : PropInfo V, p.Constructed ∧ p.setSetter (.func ⟨0, [⟨.varPositional, false⟩]⟩) = (q, .ok ()) ∧
      ∃ r, q.copy = .ok r ∧ q.setter.isSome ∧ r.setter = none) ∧
    (∃ p : PropInfo V, p.Constructed ∧ p.kind = .script ∧ p.copy = .error .typeError) := by
  refine ⟨⟨{ kind := .note, name := txt! "p" }, _, .inl ⟨txt! "p", none, false, none, rfl⟩, rfl, _, rfl, rfl, rfl, ?_⟩,
    ⟨{ kind := .alias (txt! "t"), name := txt! "p", getter := some (.alias (txt! "t")) }, _, .inr (.inl ⟨txt! "p", txt! "t", none, rfl⟩), rfl,
      _, rfl, rfl, rfl⟩,
    ⟨{ kind := .script, name := txt! "p" }, .inr (.inr ⟨txt! "p", .other false, .none, false, none, rfl⟩), rfl, rfl⟩⟩
  have : ∀ v : Option V, PropInfo.castTo { kind := .note, name := txt! "p", getter := some (.func ⟨0, [⟨.positionalOrKeyword, false⟩]⟩) } v = .ok v := by
    intro v; cases v <;> rfl
  unfold PropInfo.getValue
  dsimp only
  rw [if_pos (by decide)]
  cases h : env.get 0 o with
  | error e => rfl
  | ok v => exact this v

end Verif
