import Verif.Spec.Builder
import Verif.Proof.Command

/-!
# Facts for C92
-/

namespace Verif

variable {V : Type}

theorem modify_last (xs : List (Command V)) (c : Command V) (f : Command V → Command V) :
    (xs ++ [c]).modify xs.length f = xs ++ [f c] := by
  induction xs with
  | nil => rfl
  | cons x xs ih => simp [List.modify_succ_cons, ih]

namespace Builder

/-- A builder whose last command is object `objs.length`. -/
theorem addParameter_last (objs : List (Command V)) (rs : List Nat) (c : Command V)
    (name : Option PyStr) (value : V) :
    addParameter ⟨objs ++ [c], rs ++ [objs.length]⟩ name value =
      (⟨objs ++ [c.addParameter name value], rs ++ [objs.length]⟩, .ok ()) := by
  simp [addParameter, change, modify_last]

theorem addParameters_last (ps : List (PyStr × V)) (objs : List (Command V)) (rs : List Nat)
    (c : Command V) :
    addParameters ⟨objs ++ [c], rs ++ [objs.length]⟩ ps =
      (⟨objs ++ [{ c with parameters := c.parameters ++ ps.map fun p => (some p.1, p.2) }],
        rs ++ [objs.length]⟩, .ok ()) := by
  induction ps generalizing c with
  | nil => simp [addParameters]
  | cons p ps ih =>
    obtain ⟨n, v⟩ := p
    simp only [addParameters, addParameter_last, ih, Command.addParameter, List.map_cons,
      List.append_assoc, List.singleton_append]

theorem addStatement_last (objs : List (Command V)) (rs : List Nat) (c : Command V) :
    addStatement ⟨objs ++ [c], rs ++ [objs.length]⟩ =
      (⟨objs ++ [{ c with endOfStatement := true }], rs ++ [objs.length]⟩, .ok ()) := by
  simp [addStatement, change, modify_last]

theorem call_last (p : ParamCall V) (objs : List (Command V)) (rs : List Nat) (c : Command V) :
    step ⟨objs ++ [c], rs ++ [objs.length]⟩ p.call =
      (⟨objs ++ [{ c with parameters := c.parameters ++ p.meant }], rs ++ [objs.length]⟩, .ok ()) := by
  cases p with
  | parameter n v => simp only [ParamCall.call, step, addParameter_last]; rfl
  | argument v => simp only [ParamCall.call, step, addParameter_last]; rfl
  | parameters ps => simp only [ParamCall.call, step, addParameters_last]; rfl

theorem run_append (b : Builder V) (xs ys : List (BuildOp V)) :
    run b (xs ++ ys) = ((run (run b xs).1 ys).1, (run b xs).2 ++ (run (run b xs).1 ys).2) := by
  induction xs generalizing b with
  | nil => rfl
  | cons x xs ih => simp only [List.cons_append, run, ih]

/-- All calls of a history are carried out. -/
def Fine (r : Builder V × List (Except Err Unit)) : Prop := ∀ x ∈ r.2, x = .ok ()

theorem run_params (ps : List (ParamCall V)) (objs : List (Command V)) (rs : List Nat) (c : Command V) :
    (run ⟨objs ++ [c], rs ++ [objs.length]⟩ (ps.map ParamCall.call)).1 =
      ⟨objs ++ [{ c with parameters := c.parameters ++ ps.flatMap ParamCall.meant }],
        rs ++ [objs.length]⟩ ∧
    Fine (run ⟨objs ++ [c], rs ++ [objs.length]⟩ (ps.map ParamCall.call)) := by
  induction ps generalizing c with
  | nil => simp [run, Fine]
  | cons p ps ih =>
    obtain ⟨h1, h2⟩ := ih { c with parameters := c.parameters ++ p.meant }
    simp only [List.map_cons, run, call_last, h1, List.flatMap_cons, List.append_assoc]
    refine ⟨trivial, ?_⟩
    intro x hx
    simp only [List.mem_cons] at hx
    rcases hx with rfl | hx
    · rfl
    · exact h2 x hx

theorem run_wanted (w : Wanted V) (b : Builder V) :
    (run b w.calls).1 = b.append w.command ∧ Fine (run b w.calls) := by
  have key : ∀ c : Command V, c.parameters = [] →
      (run (b.append c) (w.params.map ParamCall.call)).1 =
        b.append { c with parameters := w.params.flatMap ParamCall.meant } ∧
      Fine (run (b.append c) (w.params.map ParamCall.call)) := by
    intro c hc
    have := run_params w.params b.objs b.commands c
    rw [hc] at this
    exact this
  unfold Wanted.calls
  cases hs : w.isScript
  · obtain ⟨h1, h2⟩ := key { commandText := w.text, useLocalScope := w.scope } rfl
    simp only [Bool.false_eq_true, if_false, run, step]
    refine ⟨by rw [h1]; simp only [Wanted.command, hs], ?_⟩
    intro x hx
    simp only [List.mem_cons] at hx
    rcases hx with rfl | hx
    · rfl
    · exact h2 x hx
  · obtain ⟨h1, h2⟩ := key { commandText := w.text, isScript := true, useLocalScope := w.scope } rfl
    simp only [if_true, run, step]
    refine ⟨by rw [h1]; simp only [Wanted.command, hs], ?_⟩
    intro x hx
    simp only [List.mem_cons] at hx
    rcases hx with rfl | hx
    · rfl
    · exact h2 x hx

/-- The pipeline has all objects, in the order of their creation. -/
def Whole (b : Builder V) : Prop := b.commands = List.range b.objs.length

theorem Whole.append {b : Builder V} (h : b.Whole) (c : Command V) : (b.append c).Whole := by
  unfold Whole Builder.append at *
  simp only [List.length_append, List.length_cons, List.length_nil, Nat.zero_add, List.range_succ, h]

theorem filterMap_range' (ys xs : List (Command V)) :
    (List.range' ys.length xs.length).filterMap ((ys ++ xs)[·]?) = xs := by
  induction xs generalizing ys with
  | nil => rfl
  | cons x xs ih =>
    have h := ih (ys ++ [x])
    rw [List.length_append, List.length_singleton, List.append_assoc, List.singleton_append] at h
    rw [List.length_cons, List.range'_succ, List.filterMap_cons]
    simp only [List.getElem?_append_right (Nat.le_refl _), Nat.sub_self, List.getElem?_cons_zero]
    rw [h]

theorem Whole.view {b : Builder V} (h : b.Whole) : b.view = b.objs := by
  unfold Whole at h
  unfold Builder.view
  rw [h, List.range_eq_range']
  exact filterMap_range' [] b.objs

theorem fine_append {b : Builder V} {xs ys : List (BuildOp V)} (h1 : Fine (run b xs))
    (h2 : Fine (run (run b xs).1 ys)) : Fine (run b (xs ++ ys)) := by
  intro x hx
  rw [run_append] at hx
  rcases List.mem_append.mp hx with h | h
  · exact h1 x h
  · exact h2 x h

theorem run_statement (s : List (Wanted V)) (b : Builder V) (hb : b.Whole) :
    (run b (s.flatMap Wanted.calls)).1.objs = b.objs ++ s.map Wanted.command ∧
    (run b (s.flatMap Wanted.calls)).1.Whole ∧ Fine (run b (s.flatMap Wanted.calls)) := by
  induction s generalizing b with
  | nil => exact ⟨by simp [run], hb, by simp [run, Fine]⟩
  | cons w s ih =>
    obtain ⟨h1, h2⟩ := run_wanted w b
    obtain ⟨i1, i2, i3⟩ := ih (b.append w.command) (hb.append _)
    rw [List.flatMap_cons]
    refine ⟨?_, ?_, fine_append h2 (by rw [h1]; exact i3)⟩
    · rw [run_append, h1, i1]; simp [Builder.append]
    · rw [run_append, h1]; exact i2

/-- The commands of a statement, the last one marked. -/
def marked (cs : List (Command V)) : List (Command V) :=
  cs.modify (cs.length - 1) fun c => { c with endOfStatement := true }

theorem marked_append (cs : List (Command V)) (c : Command V) :
    marked (cs ++ [c]) = cs ++ [{ c with endOfStatement := true }] := by
  unfold marked
  rw [List.length_append, List.length_singleton, Nat.add_sub_cancel]
  exact modify_last _ _ _

/-- The objects that the calls for some statements make. -/
def made : List (List (Wanted V)) → List (Command V)
  | [] => []
  | [s] => s.map Wanted.command
  | s :: ss => marked (s.map Wanted.command) ++ made ss

theorem step_statement (b : Builder V) (hb : b.Whole) (pre : List (Command V)) (cs : List (Command V))
    (hcs : cs ≠ []) (ho : b.objs = pre ++ cs) :
    (b.step .addStatement).1.objs = pre ++ marked cs ∧ (b.step .addStatement).1.Whole ∧
      (b.step .addStatement).2 = .ok () := by
  obtain ⟨xs, x, rfl⟩ : ∃ xs x, cs = xs ++ [x] := ⟨_, _, (List.dropLast_concat_getLast hcs).symm⟩
  obtain ⟨objs, commands⟩ := b
  simp only [Whole] at hb ho
  subst ho
  subst hb
  have h := addStatement_last (pre ++ xs) (List.range (pre ++ xs).length) x
  have e : List.range (pre ++ (xs ++ [x])).length =
      List.range (pre ++ xs).length ++ [(pre ++ xs).length] := by
    rw [← List.range_succ]
    congr 1
    simp only [List.length_append, List.length_singleton]
    omega
  rw [e, ← List.append_assoc]
  simp only [step, h]
  refine ⟨by rw [marked_append, List.append_assoc], ?_, trivial⟩
  simp only [Whole]
  rw [← List.range_succ]
  simp [Nat.add_assoc]

theorem run_calls (ss : List (List (Wanted V))) (hss : ∀ s ∈ ss, s ≠ []) (b : Builder V) (hb : b.Whole) :
    (run b (callsFor ss)).1.objs = b.objs ++ made ss ∧
    (run b (callsFor ss)).1.Whole ∧ Fine (run b (callsFor ss)) := by
  induction ss generalizing b with
  | nil => exact ⟨by simp [callsFor, run, made], hb, by simp [callsFor, run, Fine]⟩
  | cons s ss ih =>
    obtain ⟨h1, h2, h3⟩ := run_statement s b hb
    cases ss with
    | nil => exact ⟨h1, h2, h3⟩
    | cons s' ss =>
      have hne : s.map Wanted.command ≠ [] := by
        have := hss s (List.mem_cons_self ..)
        simpa using this
      obtain ⟨a1, a2, a3⟩ := step_statement _ h2 b.objs _ hne h1
      obtain ⟨i1, i2, i3⟩ := ih (fun t ht => hss t (List.mem_cons_of_mem _ ht)) _ a2
      simp only [callsFor, made]
      refine ⟨?_, ?_, fine_append h3 ?_⟩
      · rw [run_append]; simp only [run]; rw [i1, a1, List.append_assoc]
      · rw [run_append]; simp only [run]; exact i2
      · intro x hx
        simp only [run, List.mem_cons] at hx
        rcases hx with rfl | hx
        · exact a3
        · exact i3 x hx

theorem statements_plain (cs : List (Command V)) (hne : cs ≠ [])
    (h : ∀ c ∈ cs, c.endOfStatement = false) : statements cs = [cs] := by
  induction cs with
  | nil => exact absurd rfl hne
  | cons c cs ih =>
    simp only [statements, h c (List.mem_cons_self ..), Bool.false_eq_true, if_false]
    cases cs with
    | nil => rfl
    | cons d ds => rw [ih (by simp) fun c hc => h c (List.mem_cons_of_mem _ hc)]

theorem statements_marked (cs rest : List (Command V)) (c : Command V)
    (h : ∀ c ∈ cs, c.endOfStatement = false) :
    statements ((cs ++ [{ c with endOfStatement := true }]) ++ rest) =
      (cs ++ [{ c with endOfStatement := true }]) :: statements rest := by
  induction cs with
  | nil => simp [statements]
  | cons d cs ih =>
    have ih := ih fun c hc => h c (List.mem_cons_of_mem _ hc)
    simp only [List.cons_append, statements, h d (List.mem_cons_self ..), Bool.false_eq_true, if_false]
    rw [ih]

theorem command_unmarked (w : Wanted V) : w.command.unmarked = w.command := rfl

theorem statements_made (ss : List (List (Wanted V))) (hss : ∀ s ∈ ss, s ≠ []) :
    (statements (made ss)).map (·.map Command.unmarked) = ss.map (·.map Wanted.command) := by
  have plain : ∀ s : List (Wanted V), ∀ c ∈ s.map Wanted.command, c.endOfStatement = false := by
    intro s c hc
    obtain ⟨w, _, rfl⟩ := List.mem_map.mp hc
    rfl
  have un : ∀ s : List (Wanted V), (s.map Wanted.command).map Command.unmarked = s.map Wanted.command := by
    intro s; rw [List.map_map]; rfl
  induction ss with
  | nil => rfl
  | cons s ss ih =>
    have hs := hss s (List.mem_cons_self ..)
    cases ss with
    | nil =>
      simp only [made]
      rw [statements_plain _ (by simpa using hs) (plain s)]
      simp [un s]
    | cons s' ss =>
      obtain ⟨xs, x, rfl⟩ : ∃ xs x, s = xs ++ [x] := ⟨_, _, (List.dropLast_concat_getLast hs).symm⟩
      have ih := ih fun t ht => hss t (List.mem_cons_of_mem _ ht)
      simp only [made]
      rw [List.map_append, List.map_singleton, marked_append, statements_marked _ _ _ (plain xs),
        List.map_cons, ih]
      simp [un xs, Command.unmarked, Wanted.command]

theorem made_ne (ss : List (List (Wanted V))) (hne : ss ≠ []) (hss : ∀ s ∈ ss, s ≠ []) :
    made ss ≠ [] := by
  intro h
  have := statements_made ss hss
  rw [h] at this
  cases ss with
  | nil => exact hne rfl
  | cons s ss => cases this

theorem filterMap_same {α β : Type} {f g : α → Option β} (xs : List α) (h : ∀ x ∈ xs, f x = g x) :
    xs.filterMap f = xs.filterMap g := by
  induction xs with
  | nil => rfl
  | cons x xs ih =>
    rw [List.filterMap_cons, List.filterMap_cons, h x (List.mem_cons_self ..),
      ih fun y hy => h y (List.mem_cons_of_mem _ hy)]

theorem addParameters_shape (ps : List (PyStr × V)) (b : Builder V) :
    (b.addParameters ps).1.commands = b.commands ∧ (b.addParameters ps).1.objs.length = b.objs.length := by
  induction ps generalizing b with
  | nil => exact ⟨rfl, rfl⟩
  | cons p ps ih =>
    obtain ⟨n, v⟩ := p
    unfold addParameters addParameter
    cases b.commands.getLast? with
    | none => exact ⟨rfl, rfl⟩
    | some r =>
      have := ih (b.change r (·.addParameter (some n) v))
      refine ⟨this.1, this.2.trans ?_⟩
      simp [change]

theorem step_once (b : Builder V) (op : BuildOp V) (h1 : b.Ok) (h2 : b.commands.Nodup)
    (h3 : op.AddsNew b) : (b.step op).1.Ok ∧ (b.step op).1.commands.Nodup := by
  have same : ∀ b' : Builder V, b'.commands = b.commands → b'.objs.length = b.objs.length →
      b'.Ok ∧ b'.commands.Nodup := by
    intro b' e1 e2
    unfold Ok
    rw [e1, e2]
    exact ⟨h1, h2⟩
  have app : ∀ c : Command V, (b.append c).Ok ∧ (b.append c).commands.Nodup := by
    intro c
    constructor
    · intro r hr
      simp only [Builder.append, List.mem_append, List.mem_singleton, List.length_append,
        List.length_singleton] at hr ⊢
      rcases hr with hr | hr
      · have := h1 r hr; omega
      · omega
    · simp only [Builder.append]
      refine List.nodup_append.mpr ⟨h2, by simp, ?_⟩
      intro a ha c' hc' he
      simp only [List.mem_singleton] at hc'
      have := h1 a ha
      omega
  have par : ∀ n v, (b.addParameter n v).1.Ok ∧ (b.addParameter n v).1.commands.Nodup := by
    intro n v
    unfold addParameter
    split
    · exact ⟨h1, h2⟩
    · exact same _ rfl (by simp [change])
  cases op with
  | command t i s =>
    refine ⟨?_, h2⟩
    intro r hr
    have := h1 r hr
    simp only [step, List.length_append, List.length_singleton]
    omega
  | addText => exact app _
  | addScript => exact app _
  | addObject r scope =>
    simp only [step]
    split
    · split
      · exact ⟨h1, h2⟩
      · rename_i hr _
        refine ⟨?_, List.nodup_append.mpr ⟨h2, by simp, ?_⟩⟩
        · intro r' hr'
          simp only [List.mem_append, List.mem_singleton] at hr'
          rcases hr' with hr' | hr'
          · exact h1 r' hr'
          · subst hr'; exact hr
        · intro a ha c' hc' he
          simp only [List.mem_singleton] at hc'
          subst hc'; subst he
          exact h3 ha
    · exact ⟨h1, h2⟩
  | addParameter n v => exact par n v
  | addArgument v => exact par none v
  | addParameters ps => exact same _ (addParameters_shape ps b).1 (addParameters_shape ps b).2
  | addStatement =>
    simp only [step, addStatement]
    split
    · exact ⟨h1, h2⟩
    · exact same _ rfl (by simp [change])
  | commandParameter r n v =>
    simp only [step]
    split
    · exact same _ rfl (by simp [change])
    · exact ⟨h1, h2⟩
  | commandParameters r ps =>
    simp only [step]
    split
    · exact same _ rfl (by simp [change])
    · exact ⟨h1, h2⟩

/-- Changing the object of the last command, when it is no other command too. -/
theorem view_change_last (b : Builder V) (rs : List Nat) (r : Nat) (hc : b.commands = rs ++ [r])
    (hr : r ∉ rs) (f : Command V → Command V) (cs : List (Command V)) (c : Command V)
    (hok : b.Ok) (hv : b.view = cs ++ [c]) : (b.change r f).view = cs ++ [f c] := by
  have hlt : r < b.objs.length := hok r (by rw [hc]; simp)
  have h1 : b.view = rs.filterMap (b.objs[·]?) ++ [b.objs[r]] := by
    unfold view; rw [hc, List.filterMap_append]
    simp [List.getElem?_eq_getElem hlt]
  rw [h1] at hv
  have hcs : rs.filterMap (b.objs[·]?) = cs := by
    have := List.append_inj' hv (by simp)
    exact this.1
  have hcc : b.objs[r] = c := by
    have := (List.append_inj' hv (by simp)).2
    simpa using this
  unfold view change
  simp only [hc, List.filterMap_append]
  congr 1
  · rw [← hcs]
    apply filterMap_same
    intro x hx
    rw [List.getElem?_modify]
    have : r ≠ x := fun h => hr (h ▸ hx)
    simp [this]
  · simp [List.getElem?_modify, List.getElem?_eq_getElem hlt, hcc]

end Builder

end Verif
