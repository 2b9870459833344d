import Verif.Proof.Builder
import Verif.Props.Command

/-!
# C92: a pipeline that is built by calls is the pipeline that was meant

`Verif.Spec.Builder` says what commands, scripts and parameters a program wants, and which calls it
makes for them.
-/

namespace Verif
open Builder

variable {V H : Type}

/-- The commands a command keeps on the way to a peer of any version, when nothing is redirected. -/
private theorem known_wanted (v : PSVersion) (w : Wanted V) : w.command.knownTo v = w.command := by
  unfold Wanted.command Command.knownTo
  simp only [ResultType.none, ite_self]

/-- C92: the calls for some statements are all carried out, and the pipeline then consists of these
statements: their commands and scripts in order, each with its parameters in the order given. A
further `add_statement` at the end does not matter. -/
theorem C92_built (ss : List (List (Wanted V))) (hss : ∀ s ∈ ss, s ≠ []) (trailing : Bool) :
    let r := run {} (callsFor ss ++ if trailing then [.addStatement] else [])
    (∀ x ∈ r.2, x = .ok ()) ∧
    (statements r.1.view).map (·.map Command.unmarked) = ss.map (·.map Wanted.command) := by
  obtain ⟨h1, h2, h3⟩ := run_calls ss hss {} rfl
  have h1' : (run {} (callsFor ss)).1.objs = made ss := by rw [h1]; rfl
  cases trailing with
  | false =>
    simp only [Bool.false_eq_true, if_false, List.append_nil]
    refine ⟨h3, ?_⟩
    rw [h2.view, h1']
    exact statements_made ss hss
  | true =>
    simp only [if_true]
    by_cases hne : ss = []
    · subst hne
      refine ⟨?_, rfl⟩
      intro x hx
      simp only [callsFor, List.nil_append, run, step, addStatement, List.getLast?_nil,
        List.mem_singleton] at hx
      exact hx
    · have hm := made_ne ss hne hss
      obtain ⟨a1, a2, a3⟩ := step_statement _ h2 [] (made ss) hm (by rw [h1']; rfl)
      refine ⟨fine_append h3 ?_, ?_⟩
      · intro x hx
        simp only [run, List.mem_singleton] at hx
        rw [hx]; exact a3
      · rw [run_append]
        simp only [run]
        rw [a2.view, a1, List.nil_append]
        obtain ⟨xs, x, hx⟩ : ∃ xs x, made ss = xs ++ [x] :=
          ⟨_, _, (List.dropLast_concat_getLast hm).symm⟩
        rw [hx, marked_append, statements_markLast, ← hx]
        exact statements_made ss hss

/-- C92: and this is what a peer of any version reads when the pipeline is started. -/
theorem C92_arrives (ss : List (List (Wanted V))) (hne : ss ≠ []) (hss : ∀ s ∈ ss, s ≠ [])
    (trailing : Bool) (p : PowerShell V H) (peer : Option PSVersion)
    (hp : p.commands = (run {} (callsFor ss ++ if trailing then [.addStatement] else [])).1.view) :
    ∃ m q, p.toRemoting peer = .ok m ∧ PowerShell.fromRemoting m = .ok q ∧
      (statements q.commands).map (·.map Command.unmarked) = ss.map (·.map Wanted.command) ∧
      q = { p with commands := q.commands } := by
  have hb := (C92_built ss hss trailing).2
  rw [← hp] at hb
  have hc : p.commands ≠ [] := by
    intro h
    rw [h] at hb
    cases ss with
    | nil => exact hne rfl
    | cons s ss => cases hb
  obtain ⟨m, q, h1, h2, _⟩ := (C31 p peer).2 hc
  refine ⟨m, q, h1, h2, ?_, C31_settings p q m peer h1 h2⟩
  rw [C31_statements p q m peer h1 h2]
  have e : (statements p.commands).map (·.map (·.knownTo (peer.getD Win7RC))) =
      ((statements p.commands).map (·.map Command.unmarked)).map (·.map (·.knownTo (peer.getD Win7RC))) := by
    rw [List.map_map]
    apply List.map_congr_left
    intro s _
    rw [Function.comp, List.map_map]
    rfl
  rw [e, hb, List.map_map]
  apply List.map_congr_left
  intro s _
  rw [Function.comp, List.map_map]
  apply List.map_congr_left
  intro w _
  exact known_wanted _ w

/-- C92: a parameter is refused exactly when there is no command yet. -/
theorem C92_needs_command (b : Builder V) (name : Option PyStr) (value : V) :
    (b.step (.addParameter name value)).2 = .error .valueError ↔ b.commands = [] := by
  simp only [step, Builder.addParameter]
  cases hl : b.commands.getLast? with
  | none => exact ⟨fun _ => List.getLast?_eq_none_iff.mp hl, fun _ => rfl⟩
  | some r =>
    refine ⟨fun h => (by cases h), fun h => ?_⟩
    rw [h] at hl; cases hl

/-- C92: parameters and arguments are refused only when there is no command yet, a `Command` only
when a scope is given with it, and refused calls change nothing. -/
theorem C92_refused (b : Builder V) (op : BuildOp V) (e : Err) (h : (b.step op).2 = .error e) :
    (b.step op).1 = b ∧
    (e = .valueError → b.commands = []) ∧
    (e = .typeError → ∃ r s, op = .addObject r (some s)) := by
  have hp : ∀ n v, (b.addParameter n v).2 = .error e →
      (b.addParameter n v).1 = b ∧ b.commands = [] ∧ e = .valueError := by
    intro n v h
    unfold addParameter at h ⊢
    cases hl : b.commands.getLast? with
    | none => rw [hl] at h; cases h; exact ⟨rfl, List.getLast?_eq_none_iff.mp hl, rfl⟩
    | some r => rw [hl] at h; cases h
  have hps : ∀ (ps : List (PyStr × V)) (b' : Builder V), b'.commands ≠ [] →
      (b'.addParameters ps).2 = .ok () := by
    intro ps
    induction ps with
    | nil => intro _ _; rfl
    | cons p ps ih =>
      intro b' hb'
      obtain ⟨n, v⟩ := p
      unfold addParameters addParameter
      cases hl : b'.commands.getLast? with
      | none => exact absurd (List.getLast?_eq_none_iff.mp hl) hb'
      | some r => exact ih _ hb'
  have val : ∀ {p : Prop}, e = .valueError → (e = .typeError → p) := by
    intro p h1 h2; rw [h1] at h2; cases h2
  cases op with
  | command => cases h
  | addText => cases h
  | addScript => cases h
  | addObject r scope =>
    simp only [step] at h ⊢
    split at h
    · split at h
      · rename_i h1 h2
        rw [if_pos h1, if_pos h2]
        cases h
        refine ⟨rfl, (fun h => by cases h), fun _ => ?_⟩
        cases scope with
        | none => exact absurd rfl h2
        | some s => exact ⟨r, s, rfl⟩
      · cases h
    · rename_i h1
      rw [if_neg h1]
      cases h
      exact ⟨rfl, (fun h => by cases h), (fun h => by cases h)⟩
  | addParameter n v => obtain ⟨a, c, d⟩ := hp n v h; exact ⟨a, fun _ => c, val d⟩
  | addArgument v => obtain ⟨a, c, d⟩ := hp none v h; exact ⟨a, fun _ => c, val d⟩
  | addParameters ps =>
    simp only [step] at h ⊢
    by_cases hb : b.commands = []
    · cases ps with
      | nil => cases h
      | cons p ps =>
        obtain ⟨n, v⟩ := p
        have hl : b.commands.getLast? = none := List.getLast?_eq_none_iff.mpr hb
        simp only [addParameters, addParameter, hl] at h ⊢
        cases h
        exact ⟨trivial, fun _ => hb, fun h => by cases h⟩
    · rw [hps ps b hb] at h; cases h
  | addStatement =>
    simp only [step, addStatement] at h
    split at h <;> cases h
  | commandParameter r n v =>
    simp only [step] at h ⊢
    split at h
    · cases h
    · rename_i h1
      rw [if_neg h1]; cases h
      exact ⟨rfl, (fun h => by cases h), (fun h => by cases h)⟩
  | commandParameters r ps =>
    simp only [step] at h ⊢
    split at h
    · cases h
    · rename_i h1
      rw [if_neg h1]; cases h
      exact ⟨rfl, (fun h => by cases h), (fun h => by cases h)⟩

/-- C92: while no `Command` object is added twice, a parameter goes to the last command and to no
other, and so does the end of a statement. -/
theorem C92_last_partial (ops : List (BuildOp V)) (ho : AddsOnce {} ops) (cs : List (Command V))
    (c : Command V) (hv : (run {} ops).1.view = cs ++ [c]) (name : Option PyStr) (value : V) :
    ((run {} ops).1.step (.addParameter name value)).1.view =
      cs ++ [{ c with parameters := c.parameters ++ [(name, value)] }] ∧
    ((run {} ops).1.step (.addParameter name value)).2 = .ok () ∧
    ((run {} ops).1.step .addStatement).1.view = cs ++ [{ c with endOfStatement := true }] := by
  have inv : ∀ (ops : List (BuildOp V)) (b : Builder V), b.Ok → b.commands.Nodup → AddsOnce b ops →
      (run b ops).1.Ok ∧ (run b ops).1.commands.Nodup := by
    intro ops
    induction ops with
    | nil => intro b h1 h2 _; exact ⟨h1, h2⟩
    | cons op ops ih =>
      intro b h1 h2 h3
      have := step_once b op h1 h2 h3.1
      exact ih _ this.1 this.2 h3.2
  obtain ⟨h1, h2⟩ := inv ops {} (by intro r hr; cases hr) List.nodup_nil ho
  generalize (run {} ops).1 = b at *
  have hne : b.commands ≠ [] := by
    intro h
    unfold Builder.view at hv
    rw [h] at hv
    exact absurd hv (by simp)
  obtain ⟨rs, r, hr⟩ : ∃ rs r, b.commands = rs ++ [r] :=
    ⟨_, _, (List.dropLast_concat_getLast hne).symm⟩
  have hl : b.commands.getLast? = some r := by rw [hr]; simp
  have hnr : r ∉ rs := by
    rw [hr] at h2
    have := (List.nodup_append.mp h2).2.2
    intro hm
    exact this r hm r (by simp) rfl
  simp only [step, Builder.addParameter, Builder.addStatement, hl]
  exact ⟨view_change_last b rs r hr hnr _ cs c h1 hv, trivial,
    view_change_last b rs r hr hnr _ cs c h1 hv⟩

/-- The same `Command` object added twice is one object: a parameter that is meant for the second
use is a parameter of the first one too, and a statement that ends after the second use ends after
the first one. -/
theorem C92_twice_violated : ∃ (ops : List (BuildOp Nat)) (a b : Command Nat),
    (run {} ops).1.view = [a, b] ∧ a = b ∧ a.parameters = [] ∧ a.endOfStatement = false ∧
    (∀ x ∈ (run {} ops).2, x = .ok ()) ∧
    ((run {} ops).1.step (.addParameter none 5)).1.view.map (·.parameters) =
      [[(none, 5)], [(none, 5)]] ∧
    (statements ((run {} ops).1.step .addStatement).1.view).length = 2 := by
  refine ⟨[.command (txt! "Write-Output") false none, .addObject 0 none, .addObject 0 none],
    { commandText := txt! "Write-Output" }, { commandText := txt! "Write-Output" }, ?_⟩
  refine ⟨by decide +kernel, rfl, rfl, rfl, ?_, by decide +kernel, by decide +kernel⟩
  intro x hx
  simp [run, step] at hx
  exact hx

/-- C92 (settings): a pipeline has the settings that were given, and the apartment state of its pool
when none was given. The missing case is `STA`. -/
theorem C92_settings_partial (pool : Apartment) (addToHistory : Bool) (apartment : Option Apartment)
    (history : Option PyStr) (host : Option H) (defaultHost : H) (isNested noInput : Bool)
    (options : Nat) (redirect : Bool) (ha : apartment ≠ some .STA) :
    (newPowerShell pool addToHistory apartment history host defaultHost isNested noInput options
      redirect : PowerShell V H) =
      { addToHistory := addToHistory, apartmentState := some (apartment.getD pool).number,
        history := history, host := host.getD defaultHost, isNested := isNested, noInput := noInput,
        remoteStreamOptions := options, redirectShellErrorToOut := redirect, commands := [] } := by
  unfold newPowerShell pipelineApartment
  cases apartment with
  | none => rfl
  | some a =>
    cases a with
    | STA => exact absurd rfl ha
    | MTA => rfl
    | Unknown => rfl

/-- A pipeline for which the apartment state `STA` was asked gets that of its pool. -/
theorem C92_sta_violated : ∃ pool : Apartment, ∃ host : Nat,
    (newPowerShell pool false (some .STA) none none host false true 0 true : PowerShell Nat Nat).apartmentState
      = some Apartment.Unknown.number ∧
    Apartment.Unknown.number ≠ Apartment.STA.number := ⟨.Unknown, 0, rfl, by decide⟩

/-! ## Cases -/

/-- `Get-Process -Name 5 | Sort-Object 6; script`. -/
private def wants : List (List (Wanted Nat)) :=
  [[⟨txt! "Get-Process", false, none, [.parameters [(txt! "Name", 5)]]⟩,
    ⟨txt! "Sort-Object", false, some true, [.argument 6, .parameter (some (txt! "Top")) 7]⟩],
   [⟨txt! "$a", true, none, []⟩]]

example : (∀ s ∈ wants, s ≠ []) ∧ wants ≠ [] ∧ (callsFor wants).length = 7 ∧
    ((run {} (callsFor wants)).1.view.map (·.parameters.length)) = [1, 2, 0] :=
  ⟨by decide, by decide, by decide +kernel, by decide +kernel⟩

example : ((({} : Builder Nat).step (.addArgument 5)).2 = .error .valueError) := rfl

example : AddsOnce ({} : Builder Nat)
      [.command (txt! "a") false none, .addObject 0 none, .addText (txt! "b") none,
        .commandParameter 0 none 4] ∧
    ∃ cs c, (run ({} : Builder Nat) [.command (txt! "a") false none, .addObject 0 none,
      .addText (txt! "b") none, .commandParameter 0 none 4]).1.view = cs ++ [c] :=
  ⟨⟨trivial, by simp [BuildOp.AddsNew, step], trivial, trivial, trivial⟩,
    [{ commandText := txt! "a", parameters := [(none, 4)] }], { commandText := txt! "b" },
    by decide +kernel⟩

example : (some Apartment.MTA : Option Apartment) ≠ some .STA := by decide

end Verif
