import Verif.Spec.Command

/-! # Commands and pipelines: helper lemmas -/

namespace Verif

theorem tuple_eq (v : PSVersion) : ∃ r, v.tuple = v.major :: v.minor :: r := by
  obtain ⟨ma, mi, bu, re⟩ := v
  cases bu <;> cases re <;> exact ⟨_, rfl⟩

theorem ge_two_iff (v : PSVersion) (n : Int) :
    v.ge { major := 2, minor := n } = true ↔ 2 < v.major ∨ v.major = 2 ∧ n ≤ v.minor := by
  obtain ⟨r, hr⟩ := tuple_eq v
  have h2 : ({ major := 2, minor := n } : PSVersion).tuple = [2, n] := rfl
  unfold PSVersion.ge PSVersion.cmp
  rw [hr, h2]
  simp only [PSVersion.tupleCmp]
  by_cases h1 : v.major < 2
  · rw [if_pos h1]; simp; omega
  · rw [if_neg h1]
    by_cases h2 : 2 < v.major
    · rw [if_pos h2]; simp [h2]
    · rw [if_neg h2]
      by_cases h3 : v.minor < n
      · rw [if_pos h3]; simp; omega
      · rw [if_neg h3]
        by_cases h4 : n < v.minor
        · rw [if_pos h4]; simp; omega
        · rw [if_neg h4]
          cases r <;> simp [PSVersion.tupleCmp] <;> omega

theorem ge_two (v : PSVersion) (n : Int) :
    v.ge { major := 2, minor := n } = decide (v.AtLeast2 n) := by
  rw [Bool.eq_iff_iff, ge_two_iff, decide_eq_true_iff]
  rfl

namespace Command

variable {V : Type}

theorem from_to (c : Command V) (peer : Option PSVersion) :
    fromRemoting (c.toRemoting peer) = c.knownTo (peer.getD Win7RC) := by
  have h3 := ge_two (peer.getD Win7RC) 2
  have h5 := ge_two (peer.getD Win7RC) 3
  have e3 : Pwsh3 = { major := 2, minor := 2 } := rfl
  have e5 : Pwsh5 = { major := 2, minor := 3 } := rfl
  obtain ⟨t, sc, ls, ps, es, mu, mm, mt, me, mw, mv, md, mi⟩ := c
  cases mu <;> by_cases a3 : (peer.getD Win7RC).AtLeast2 2 <;>
    by_cases a5 : (peer.getD Win7RC).AtLeast2 3 <;>
    simp [fromRemoting, toRemoting, knownTo, e3, e5, h3, h5, a3, a5, mergePrevious, ResultType.none,
      ResultType.output, ResultType.error]

end Command

namespace PowerShell

variable {V H : Type}

theorem markLast_append (xs : List (Command V)) (x : Command V) :
    markLast (xs ++ [x]) = .ok (xs ++ [{ x with endOfStatement := true }]) := by
  induction xs with
  | nil => rfl
  | cons y xs ih =>
    cases xs with
    | nil => rfl
    | cons z xs =>
      simp only [List.cons_append] at ih ⊢
      simp only [markLast, ih]

theorem groupLoop_done (done : List (List (Command V))) (cur cs : List (Command V)) :
    groupLoop done cur cs = done ++ groupLoop [] cur cs := by
  induction cs generalizing done cur with
  | nil => simp [groupLoop]
  | cons c cs ih =>
    unfold groupLoop
    split
    · rw [ih, ih ([] ++ _)]; simp
    · rw [ih]

/-- What becomes of a command with its mark. -/
def conv (peer : Option PSVersion) (c : Command V) : Command V :=
  { c.knownTo (peer.getD Win7RC) with endOfStatement := c.endOfStatement }

theorem conv_unmarked (peer : Option PSVersion) (c : Command V) (h : c.endOfStatement = false) :
    Command.fromRemoting (c.toRemoting peer) = conv peer c := by
  rw [Command.from_to, conv, h]
  rfl

theorem conv_marked (peer : Option PSVersion) (c : Command V) (h : c.endOfStatement = true) :
    { Command.fromRemoting (c.toRemoting peer) with endOfStatement := true } = conv peer c := by
  rw [Command.from_to, conv, h]

theorem conv_unmarked_map (peer : Option PSVersion) (cs : List (Command V))
    (h : ∀ c ∈ cs, c.endOfStatement = false) :
    (cs.map (·.toRemoting peer)).map Command.fromRemoting = cs.map (conv peer) := by
  rw [List.map_map]
  exact List.map_congr_left fun c hc => conv_unmarked peer c (h c hc)

theorem readLoop_group (peer : Option PSVersion) (acc cur cs : List (Command V))
    (hc : ∀ c ∈ cur, c.endOfStatement = false) :
    readLoop acc ((groupLoop [] cur cs).map (·.map (·.toRemoting peer))) =
      markLast (acc ++ (cur ++ cs).map (conv peer)) := by
  induction cs generalizing acc cur with
  | nil =>
    have e : groupLoop [] cur [] = [cur] := rfl
    rw [e]
    simp only [List.map_cons, List.map_nil, readLoop, conv_unmarked_map peer cur hc, List.append_nil]
    cases markLast (acc ++ cur.map (conv peer)) <;> rfl
  | cons c cs ih =>
    unfold groupLoop
    split
    · rename_i hm
      rw [groupLoop_done]
      simp only [List.nil_append, List.cons_append, List.map_cons, readLoop, List.map_append,
        List.map_nil, conv_unmarked_map peer cur hc]
      rw [← List.append_assoc, markLast_append, conv_marked peer c hm]
      simp only
      rw [ih _ [] (by simp)]
      simp
    · rename_i hm
      rw [ih _ _ (by
        intro d hd
        rcases List.mem_append.mp hd with h | h
        · exact hc d h
        · simp only [List.mem_singleton] at h; subst h; simpa using hm)]
      simp

end PowerShell

theorem statements_map_unmarked {V : Type} (f : Command V → Command V)
    (hf : ∀ c, (f c).endOfStatement = c.endOfStatement) (cs : List (Command V)) :
    statements (cs.map f) = (statements cs).map (·.map f) := by
  induction cs with
  | nil => rfl
  | cons c cs ih =>
    simp only [List.map_cons, statements, hf, ih]
    split
    · simp
    · cases statements cs <;> simp

theorem statements_markLast {V : Type} (cs : List (Command V)) (c : Command V) :
    (statements (cs ++ [{ c with endOfStatement := true }])).map (·.map Command.unmarked) =
      (statements (cs ++ [c])).map (·.map Command.unmarked) := by
  induction cs with
  | nil =>
    simp only [List.nil_append, statements, ↓reduceIte]
    cases c.endOfStatement <;> simp [Command.unmarked]
  | cons d cs ih =>
    simp only [List.cons_append, statements]
    split
    · simp only [List.map_cons, ih]
    · cases h1 : statements (cs ++ [{ c with endOfStatement := true }]) <;>
        cases h2 : statements (cs ++ [c]) <;> simp [h1, h2] at ih ⊢
      exact ih

namespace Command

variable {V : Type}

theorem validTarget_iff (s : ResultType) : validTarget s = decide (s = 0 ∨ s = 1 ∨ s = 8) := by
  simp only [validTarget, ResultType.none, ResultType.output, ResultType.null]
  by_cases h0 : s = 0 <;> by_cases h1 : s = 1 <;> by_cases h8 : s = 8 <;> simp [h0, h1, h8]

/-- What one call does to the setting of a stream. -/
theorem run_setting (c : Command V) (r : RedirectCall) (s : RedirectStream) :
    (r.run c).1.setting s =
      if r.Allowed ∧ (r.stream = none ∨ r.stream = some s) then r.target else c.setting s := by
  obtain ⟨st, t⟩ := r
  by_cases h : t = 0 ∨ t = 1 ∨ t = 8
  · have hv : validTarget t = true := by rw [validTarget_iff]; simpa using h
    have ha : RedirectCall.Allowed ⟨st, t⟩ := h
    rcases st with _ | st
    · rcases h with rfl | rfl | rfl <;> cases s <;>
        simp [RedirectCall.run, redirectAll, redirectError, redirectWarning, redirectVerbose,
          redirectDebug, redirectInformation, andThen, setting, ha, hv, ResultType.none,
          ResultType.null]
    · rcases h with rfl | rfl | rfl <;> cases st <;> cases s <;>
        simp [RedirectCall.run, redirectError, redirectWarning, redirectVerbose,
          redirectDebug, redirectInformation, setting, ha, hv, ResultType.none,
          ResultType.null]
  · have hv : validTarget t = false := by rw [validTarget_iff]; simpa using h
    have ha : ¬ RedirectCall.Allowed ⟨st, t⟩ := h
    rcases st with _ | st
    · simp [RedirectCall.run, redirectAll, redirectError, andThen, ha, hv]
    · cases st <;>
        simp [RedirectCall.run, redirectError, redirectWarning, redirectVerbose,
          redirectDebug, redirectInformation, ha, hv]

/-- What one call does to the two settings for old peers. -/
theorem run_legacy (c : Command V) (r : RedirectCall) :
    ((r.run c).1.mergeMy, (r.run c).1.mergeTo) =
      if (r.stream = none ∨ r.stream = some .error) ∧ r.target = 0 then (0, 0)
      else if (r.stream = none ∨ r.stream = some .error) ∧ r.target = 1 then (2, 1)
      else (c.mergeMy, c.mergeTo) := by
  obtain ⟨st, t⟩ := r
  by_cases h : t = 0 ∨ t = 1 ∨ t = 8
  · have hv : validTarget t = true := by rw [validTarget_iff]; simpa using h
    rcases st with _ | st
    · rcases h with rfl | rfl | rfl <;>
        simp [RedirectCall.run, redirectAll, redirectError, redirectWarning, redirectVerbose,
          redirectDebug, redirectInformation, andThen, hv, ResultType.none,
          ResultType.null, ResultType.error]
    · rcases h with rfl | rfl | rfl <;> cases st <;>
        simp [RedirectCall.run, redirectError, redirectWarning, redirectVerbose,
          redirectDebug, redirectInformation, hv, ResultType.none,
          ResultType.null, ResultType.error]
  · have hv : validTarget t = false := by rw [validTarget_iff]; simpa using h
    have h0 : t ≠ 0 := fun e => h (Or.inl e)
    have h1 : t ≠ 1 := fun e => h (Or.inr (Or.inl e))
    rcases st with _ | st
    · simp [RedirectCall.run, redirectAll, redirectError, andThen, hv, h0, h1]
    · cases st <;>
        simp [RedirectCall.run, redirectError, redirectWarning, redirectVerbose,
          redirectDebug, redirectInformation, hv, h0, h1]

end Command

theorem lastTarget_snoc (s : RedirectStream) (rs : List RedirectCall) (r : RedirectCall) :
    lastTarget s (rs ++ [r]) =
      if r.Allowed ∧ (r.stream = none ∨ r.stream = some s) then r.target else lastTarget s rs := by
  unfold lastTarget
  rw [List.filter_append]
  by_cases h : r.Allowed ∧ (r.stream = none ∨ r.stream = some s)
  · rw [if_pos h, List.filter_cons_of_pos (by simpa using h)]
    simp
  · rw [if_neg h, List.filter_cons_of_neg (by simpa using h)]
    simp

theorem runRedirects_snoc {V : Type} (c : Command V) (rs : List RedirectCall) (r : RedirectCall) :
    runRedirects c (rs ++ [r]) = (r.run (runRedirects c rs)).1 := by
  simp [runRedirects]

theorem snoc_induction {α : Type} {P : List α → Prop} (nil : P [])
    (snoc : ∀ xs x, P xs → P (xs ++ [x])) (xs : List α) : P xs := by
  rw [← List.reverse_reverse xs]
  induction xs.reverse with
  | nil => exact nil
  | cons x xs ih => rw [List.reverse_cons]; exact snoc _ _ ih

end Verif
