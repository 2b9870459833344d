import Verif.Proof.Command

/-! # C31, C32, C54: commands and pipelines -/

namespace Verif

variable {V H : Type}

/-! ## C31: statements -/

/-- C31: a pipeline is refused exactly when it has no commands; otherwise the peer reads the same
commands in the same order, each with its mark, and the last one marked as the end of a statement. -/
theorem C31 (p : PowerShell V H) (peer : Option PSVersion) :
    (p.toRemoting peer = .error .valueError ↔ p.commands = []) ∧
    (p.commands ≠ [] → ∃ m q, p.toRemoting peer = .ok m ∧ PowerShell.fromRemoting m = .ok q ∧
      q.commands.length = p.commands.length ∧
      ∀ i, (h : i < p.commands.length) → (h' : i < q.commands.length) →
        q.commands[i] = { p.commands[i].knownTo (peer.getD Win7RC) with
          endOfStatement := p.commands[i].endOfStatement || decide (i + 1 = p.commands.length) }) := by
  constructor
  · unfold PowerShell.toRemoting
    split <;> simp_all
  · intro hne
    have hr := PowerShell.readLoop_group peer [] [] p.commands (by simp)
    simp only [List.nil_append] at hr
    obtain ⟨xs, x, hx⟩ : ∃ xs x, p.commands = xs ++ [x] :=
      ⟨_, _, (List.dropLast_concat_getLast hne).symm⟩
    have hm : PowerShell.markLast (p.commands.map (PowerShell.conv peer)) =
        .ok (xs.map (PowerShell.conv peer) ++
          [{ PowerShell.conv peer x with endOfStatement := true }]) := by
      rw [hx, List.map_append, List.map_cons, List.map_nil, PowerShell.markLast_append]
    rw [hm] at hr
    refine ⟨_, { p with commands := xs.map (PowerShell.conv peer) ++
      [{ PowerShell.conv peer x with endOfStatement := true }] },
      by rw [PowerShell.toRemoting, if_neg hne], ?_, ?_, ?_⟩
    · unfold PowerShell.fromRemoting
      simp only
      by_cases hl : ((PowerShell.groupLoop [] [] p.commands).map (·.map (·.toRemoting peer))).length > 1
      · simp only [hl, ↓reduceIte, Option.getD_some, hr]
      · simp only [hl, ↓reduceIte, Option.getD_none]
        have : ∀ l : List (List (RemoteCommand V)), l ≠ [] → ¬ l.length > 1 → [l.headD []] = l := by
          intro l h1 h2
          match l, h1, h2 with
          | [], h1, _ => exact absurd rfl h1
          | [a], _, _ => rfl
          | a :: b :: l, _, h2 => simp at h2
        rw [this _ ?_ hl]
        · simp only [hr]
        · intro h
          rw [h] at hr
          have h := Except.ok.inj hr
          simp at h
    · simp [hx]
    · intro i h h'
      simp only [hx, List.length_append, List.length_cons, List.length_nil] at h ⊢
      by_cases hi : i < xs.length
      · simp only [List.getElem_append, List.length_map, hi, ↓reduceDIte, List.getElem_map,
          PowerShell.conv]
        have : ¬ i = xs.length := by omega
        simp [this]
      · have hi : i = xs.length := by omega
        subst hi
        simp [PowerShell.conv]

/-- C31 (statements): the statements the peer reads are those of the pipeline. -/
theorem C31_statements (p q : PowerShell V H) (m : CreatePipeline V H) (peer : Option PSVersion)
    (hm : p.toRemoting peer = .ok m) (hq : PowerShell.fromRemoting m = .ok q) :
    (statements q.commands).map (·.map Command.unmarked) =
      (statements p.commands).map (·.map (·.knownTo (peer.getD Win7RC))) := by
  have hne : p.commands ≠ [] := by
    intro h
    unfold PowerShell.toRemoting at hm
    rw [if_pos h] at hm
    cases hm
  obtain ⟨m', q', h1, h2, hl, hi⟩ := (C31 p peer).2 hne
  rw [h1] at hm
  cases hm
  rw [h2] at hq
  cases hq
  obtain ⟨xs, x, hx⟩ : ∃ xs x, p.commands = xs ++ [x] :=
    ⟨_, _, (List.dropLast_concat_getLast hne).symm⟩
  have hq : q.commands = xs.map (PowerShell.conv peer) ++
      [{ PowerShell.conv peer x with endOfStatement := true }] := by
    apply List.ext_getElem
    · simp [hl, hx]
    · intro i h h'
      rw [hi i (by omega) h]
      simp only [hx, List.length_append, List.length_map, List.length_cons, List.length_nil] at h' ⊢
      by_cases hi : i < xs.length
      · simp only [List.getElem_append, List.length_map, hi, ↓reduceDIte, List.getElem_map,
          PowerShell.conv]
        have : ¬ i = xs.length := by omega
        simp [this]
      · have hi : i = xs.length := by omega
        subst hi
        simp [PowerShell.conv]
  have hu : ∀ c : Command V, (PowerShell.conv peer c).unmarked = c.knownTo (peer.getD Win7RC) :=
    fun _ => rfl
  rw [hq, statements_markLast]
  have : xs.map (PowerShell.conv peer) ++ [PowerShell.conv peer x] =
      p.commands.map (PowerShell.conv peer) := by simp [hx]
  rw [this, statements_map_unmarked (PowerShell.conv peer) (fun _ => rfl), List.map_map]
  apply List.map_congr_left
  intro s _
  rw [Function.comp, List.map_map]
  exact List.map_congr_left fun c _ => hu c

/-- C31 (settings): the settings of the pipeline itself come back too. -/
theorem C31_settings (p q : PowerShell V H) (m : CreatePipeline V H) (peer : Option PSVersion)
    (hm : p.toRemoting peer = .ok m) (hq : PowerShell.fromRemoting m = .ok q) :
    q = { p with commands := q.commands } := by
  unfold PowerShell.toRemoting at hm
  split at hm
  · cases hm
  · cases hm
    unfold PowerShell.fromRemoting at hq
    simp only at hq
    generalize PowerShell.readLoop _ _ = r at hq
    cases r with
    | error e => cases hq
    | ok cs => cases hq; rfl

/-- C31 (reading): whatever statements a peer sends, reading them fails only if the first of them is
empty, and otherwise gives all their commands in order. -/
theorem C31_read (m : CreatePipeline V H) (ss : List (List (RemoteCommand V)))
    (hs : ss = m.extraCmds.getD [m.cmds]) :
    (PowerShell.fromRemoting m = .error .indexError ↔ ss.head? = some []) ∧
    (ss.head? ≠ some [] → ∃ q, PowerShell.fromRemoting m = .ok q ∧
      q.commands.map Command.unmarked = ss.flatten.map Command.fromRemoting) := by
  have hu : ∀ o : RemoteCommand V, (Command.fromRemoting o).unmarked = Command.fromRemoting o :=
    fun _ => rfl
  have mark : ∀ cs : List (Command V), cs ≠ [] → ∃ ds, PowerShell.markLast cs = .ok ds ∧ ds ≠ [] ∧
      ds.map Command.unmarked = cs.map Command.unmarked := by
    intro cs hcs
    obtain ⟨xs, x, rfl⟩ : ∃ xs x, cs = xs ++ [x] :=
      ⟨_, _, (List.dropLast_concat_getLast hcs).symm⟩
    refine ⟨_, PowerShell.markLast_append xs x, by simp, ?_⟩
    simp [Command.unmarked]
  have loop : ∀ (ss : List (List (RemoteCommand V))) (acc : List (Command V)), acc ≠ [] →
      ∃ ds, PowerShell.readLoop acc ss = .ok ds ∧
        ds.map Command.unmarked = acc.map Command.unmarked ++ ss.flatten.map Command.fromRemoting := by
    intro ss
    induction ss with
    | nil => intro acc _; exact ⟨acc, rfl, by simp⟩
    | cons s ss ih =>
      intro acc hacc
      obtain ⟨ds, h1, h2, h3⟩ := mark (acc ++ s.map Command.fromRemoting) (by simp [hacc])
      obtain ⟨es, h4, h5⟩ := ih ds h2
      refine ⟨es, by rw [PowerShell.readLoop, h1]; exact h4, ?_⟩
      rw [h5, h3]
      simp [Function.comp_def, hu]
  have key : ss.head? ≠ some [] → ∃ ds, PowerShell.readLoop [] ss = .ok ds ∧
      ds.map Command.unmarked = ss.flatten.map Command.fromRemoting := by
    intro h
    cases ss with
    | nil => exact ⟨[], rfl, rfl⟩
    | cons s ss =>
      have hne : s ≠ [] := by intro e; exact h (by simp [e])
      obtain ⟨ds, h1, h2, h3⟩ := mark (s.map Command.fromRemoting) (by simpa using hne)
      obtain ⟨es, h4, h5⟩ := loop ss ds h2
      refine ⟨es, by rw [PowerShell.readLoop, List.nil_append, h1]; exact h4, ?_⟩
      rw [h5, h3]
      simp [Function.comp_def, hu]
  unfold PowerShell.fromRemoting
  rw [← hs]
  constructor
  · constructor
    · intro h
      apply Classical.byContradiction
      intro hn
      obtain ⟨ds, h1, _⟩ := key hn
      rw [h1] at h
      cases h
    · intro h
      cases ss with
      | nil => cases h
      | cons s ss =>
        have : s = [] := by simpa using h
        subst this
        rfl
  · intro h
    obtain ⟨ds, h1, h2⟩ := key h
    exact ⟨_, by rw [h1], h2⟩

/-- Three commands in two statements. -/
def examplePipeline : PowerShell Nat Unit where
  commands := [{ commandText := lit "Get-Process", endOfStatement := false },
    { commandText := lit "Stop-Process", parameters := [(some (lit "Id"), 7)], endOfStatement := true },
    { commandText := lit "1 + 1", isScript := true }]
  host := ()

example : examplePipeline.commands ≠ [] := by decide
example : ∃ m q, examplePipeline.toRemoting (some Pwsh5) = .ok m ∧ PowerShell.fromRemoting m = .ok q ∧
    (statements q.commands).map (·.length) = [2, 1] := ⟨_, _, rfl, rfl, rfl⟩

/-! ## C32: settings of a command per version of the peer -/

/-- C32: what a peer reads from a command is exactly what its version knows of it. A peer that has not
told its version counts as 2.0. -/
theorem C32 (c : Command V) (peer : Option PSVersion) :
    Command.fromRemoting (c.toRemoting peer) = c.knownTo (peer.getD Win7RC) :=
  Command.from_to c peer

/-- C32 (version 2.3): everything survives. -/
theorem C32_current (c : Command V) (v : PSVersion) (hv : v.AtLeast2 3) :
    Command.fromRemoting (c.toRemoting (some v)) = c.unmarked := by
  have h2 : v.AtLeast2 2 := by unfold PSVersion.AtLeast2 at *; omega
  rw [Command.from_to]
  simp [Command.knownTo, Command.unmarked, hv, h2]

/-- C32 (calls): after any calls of the redirect methods the setting of every stream is the target of
the last allowed call for it. -/
theorem C32_redirect (c : Command V) (rs : List RedirectCall) (s : RedirectStream)
    (hc : c.setting s = 0) : (runRedirects c rs).setting s = lastTarget s rs := by
  induction rs using snoc_induction with
  | nil => exact hc
  | snoc rs r ih => rw [runRedirects_snoc, Command.run_setting, ih, lastTarget_snoc]

/-- C32 (calls): a call with any other target raises ValueError and changes nothing, an allowed one
raises nothing. -/
theorem C32_redirect_refused (c : Command V) (r : RedirectCall) :
    (¬ r.Allowed → r.run c = (c, .error .valueError)) ∧ (r.Allowed → (r.run c).2 = .ok ()) := by
  obtain ⟨st, t⟩ := r
  constructor
  · intro h
    have hv : Command.validTarget t = false := by
      rw [Command.validTarget_iff]; simpa [RedirectCall.Allowed] using h
    rcases st with _ | st
    · simp [RedirectCall.run, Command.redirectAll, Command.redirectError, Command.andThen, hv]
    · cases st <;>
        simp [RedirectCall.run, Command.redirectError, Command.redirectWarning,
          Command.redirectVerbose, Command.redirectDebug, Command.redirectInformation, hv]
  · intro h
    have hv : Command.validTarget t = true := by
      rw [Command.validTarget_iff]; simpa [RedirectCall.Allowed] using h
    rcases st with _ | st
    · simp [RedirectCall.run, Command.redirectAll, Command.redirectError, Command.redirectWarning,
          Command.redirectVerbose, Command.redirectDebug, Command.redirectInformation,
          Command.andThen, hv]
    · cases st <;>
        simp [RedirectCall.run, Command.redirectError, Command.redirectWarning,
          Command.redirectVerbose, Command.redirectDebug, Command.redirectInformation, hv]

/-- A command with every stream redirected, in two calls. -/
def exampleCommand : Command Nat :=
  runRedirects { commandText := lit "Get-Item", parameters := [(none, 3), (some (lit "Force"), 1)] }
    [⟨none, 1⟩, ⟨some .verbose, 8⟩, ⟨some .debug, 2⟩]

example : Pwsh5.AtLeast2 3 ∧ ¬ Pwsh3.AtLeast2 3 ∧ ¬ Pwsh2.AtLeast2 2 := by decide
example : (exampleCommand.mergeError, exampleCommand.mergeVerbose, exampleCommand.mergeDebug) = (1, 8, 1) := by
  decide
example : (Command.fromRemoting (exampleCommand.toRemoting (some Pwsh2))).mergeMy = 2 ∧
    (Command.fromRemoting (exampleCommand.toRemoting (some Pwsh2))).mergeError = 0 := by decide
example : ¬ RedirectCall.Allowed ⟨some .debug, 2⟩ := by decide

/-! ## C54: error redirection towards old peers -/

/-- C54: a peer before 2.2 reads that errors go to the output exactly when the last call for errors says
so, as long as errors were never redirected to null. Partial: a redirection to null does not undo an
earlier one, see `C54_violated`. -/
theorem C54_partial (c : Command V) (hm : c.mergeMy = 0 ∧ c.mergeTo = 0) (rs : List RedirectCall)
    (hn : ∀ r ∈ rs, r.target ≠ 8) (peer : Option PSVersion) :
    ((Command.fromRemoting ((runRedirects c rs).toRemoting peer)).mergeMy,
      (Command.fromRemoting ((runRedirects c rs).toRemoting peer)).mergeTo) =
      if lastTarget .error rs = 1 then (2, 1) else (0, 0) := by
  rw [Command.from_to]
  show ((runRedirects c rs).mergeMy, (runRedirects c rs).mergeTo) = _
  induction rs using snoc_induction with
  | nil => simp [runRedirects, hm, lastTarget]
  | snoc rs r ih =>
    have ih := ih (fun r hr => hn r (by simp [hr]))
    have h8 := hn r (by simp)
    rw [runRedirects_snoc, Command.run_legacy, ih, lastTarget_snoc]
    unfold RedirectCall.Allowed
    by_cases hs : r.stream = none ∨ r.stream = some .error
    · by_cases h0 : r.target = 0
      · simp [hs, h0]
      · by_cases h1 : r.target = 1
        · simp [hs, h1]
        · simp [h0, h1, h8]
    · simp [hs]

/-- C54 (exact): what an old peer reads is the last call for errors that is not to null. -/
theorem C54_exact (c : Command V) (hm : c.mergeMy = 0 ∧ c.mergeTo = 0) (rs : List RedirectCall)
    (peer : Option PSVersion) :
    ((Command.fromRemoting ((runRedirects c rs).toRemoting peer)).mergeMy,
      (Command.fromRemoting ((runRedirects c rs).toRemoting peer)).mergeTo) =
      if lastTarget .error (rs.filter (·.target ≠ 8)) = 1 then (2, 1) else (0, 0) := by
  rw [Command.from_to]
  show ((runRedirects c rs).mergeMy, (runRedirects c rs).mergeTo) = _
  induction rs using snoc_induction with
  | nil => simp [runRedirects, hm, lastTarget]
  | snoc rs r ih =>
    rw [runRedirects_snoc, Command.run_legacy, ih, List.filter_append]
    by_cases h8 : r.target = 8
    · simp [h8]
    · rw [List.filter_cons_of_pos (by simpa using h8), List.filter_nil, lastTarget_snoc]
      unfold RedirectCall.Allowed
      by_cases hs : r.stream = none ∨ r.stream = some .error
      · by_cases h0 : r.target = 0
        · simp [hs, h0]
        · by_cases h1 : r.target = 1
          · simp [hs, h1]
          · simp [h0, h1, h8]
      · simp [hs]

/-- C54 fails: errors redirected to the output and then to null still go to the output of a peer of
version 2.1. -/
theorem C54_violated :
    let rs : List RedirectCall := [⟨some .error, 1⟩, ⟨some .error, 8⟩]
    let c : Command Nat := runRedirects { commandText := lit "Get-Item" } rs
    lastTarget .error rs = 8 ∧ c.mergeError = 8 ∧
    (Command.fromRemoting (c.toRemoting (some Pwsh2))).mergeMy = 2 ∧
    (Command.fromRemoting (c.toRemoting (some Pwsh2))).mergeTo = 1 := by decide

example : ∀ r ∈ ([⟨none, 1⟩, ⟨some .error, 0⟩, ⟨some .error, 1⟩] : List RedirectCall), r.target ≠ 8 := by
  decide

end Verif
