import Verif.Model.Builder
import Verif.Spec.Command

/-!
# Specification of C92: what a program wants to run, and the calls it makes for that
-/

namespace Verif

/-- The ways to give a parameter to a command. -/
inductive ParamCall (V : Type)
  | parameter (name : Option PyStr) (value : V)
  | argument (value : V)
  | parameters (ps : List (PyStr × V))

variable {V : Type}

/-- The parameters that are meant. -/
def ParamCall.meant : ParamCall V → List (Option PyStr × V)
  | .parameter name value => [(name, value)]
  | .argument value => [(none, value)]
  | .parameters ps => ps.map fun p => (some p.1, p.2)

/-- The call that is made. -/
def ParamCall.call : ParamCall V → BuildOp V
  | .parameter name value => .addParameter name value
  | .argument value => .addArgument value
  | .parameters ps => .addParameters ps

/-- A command or script a program wants to run. -/
structure Wanted (V : Type) where
  text : PyStr
  isScript : Bool
  scope : Option Bool
  params : List (ParamCall V)

/-- The command that is meant: nothing is redirected, and the parameters are in the order given. -/
def Wanted.command (w : Wanted V) : Command V :=
  { commandText := w.text, isScript := w.isScript, useLocalScope := w.scope,
    parameters := w.params.flatMap ParamCall.meant }

/-- The calls a program makes for a command: `add_command` or `add_script`, then its parameters. -/
def Wanted.calls (w : Wanted V) : List (BuildOp V) :=
  (if w.isScript then .addScript w.text w.scope else .addText w.text w.scope) ::
    w.params.map ParamCall.call

/-- The calls for a number of statements: `add_statement` between them. -/
def callsFor : List (List (Wanted V)) → List (BuildOp V)
  | [] => []
  | [s] => s.flatMap Wanted.calls
  | s :: ss => s.flatMap Wanted.calls ++ .addStatement :: callsFor ss

/-- The objects a pipeline refers to exist, as they always do. -/
def Builder.Ok (b : Builder V) : Prop := ∀ r ∈ b.commands, r < b.objs.length

/-- A call that does not add a `Command` object a second time. -/
def BuildOp.AddsNew (b : Builder V) : BuildOp V → Prop
  | .addObject r _ => r ∉ b.commands
  | _ => True

/-- A history in which no `Command` object is added a second time. -/
def AddsOnce : Builder V → List (BuildOp V) → Prop
  | _, [] => True
  | b, op :: ops => op.AddsNew b ∧ AddsOnce (b.step op).1 ops

end Verif
