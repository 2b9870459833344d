import Verif.Model.Command

/-!
# Building a pipeline

Models the methods of `ClientPowerShell` that add commands, parameters and statements,
/repo/src/psrpcore/_client.py:518-693, and the constructors. `Command` objects are shared between
the program and the pipeline, so that they are kept apart from the list of the pipeline, which
refers to them.
-/

namespace Verif

/-- The `Command` objects of a program in order of creation, and `metadata.commands` of one
pipeline, which refers to them (/repo/src/psrpcore/_pipeline.py:54, /repo/src/psrpcore/_client.py:607). -/
structure Builder (V : Type) where
  objs : List (Command V) := []
  commands : List Nat := []

/-- The calls of a program that builds a pipeline, /repo/src/psrpcore/_client.py:568-693 and
/repo/src/psrpcore/_command.py:33-122. Objects are named by their place in the order of creation. -/
inductive BuildOp (V : Type)
  /-- `Command(text, is_script, use_local_scope)` -/
  | command (text : PyStr) (isScript : Bool) (scope : Option Bool)
  /-- `add_command(text, use_local_scope)` -/
  | addText (text : PyStr) (scope : Option Bool)
  /-- `add_command(command, use_local_scope)` -/
  | addObject (r : Nat) (scope : Option Bool)
  | addScript (text : PyStr) (scope : Option Bool)
  | addParameter (name : Option PyStr) (value : V)
  | addArgument (value : V)
  /-- `add_parameters(**parameters)`; the name `self`, which Python refuses, is not modelled -/
  | addParameters (parameters : List (PyStr × V))
  | addStatement
  /-- `command.add_parameter(name, value)` -/
  | commandParameter (r : Nat) (name : Option PyStr) (value : V)
  /-- `command.add_parameters(**parameters)` -/
  | commandParameters (r : Nat) (parameters : List (PyStr × V))

namespace Builder

variable {V : Type}

/-- The commands the pipeline has, as `metadata.commands` shows them
(/repo/src/psrpcore/_pipeline.py:114). -/
def view (b : Builder V) : List (Command V) := b.commands.filterMap (b.objs[·]?)

/-- A change of one `Command` object (/repo/src/psrpcore/_command.py:111). -/
def change (b : Builder V) (r : Nat) (f : Command V → Command V) : Builder V :=
  { b with objs := b.objs.modify r f }

/-- A new `Command` object that is appended at once, /repo/src/psrpcore/_client.py:601-608, 677. -/
def append (b : Builder V) (c : Command V) : Builder V :=
  { objs := b.objs ++ [c], commands := b.commands ++ [b.objs.length] }

/-- `ClientPowerShell.add_parameter`, /repo/src/psrpcore/_client.py:610-636. -/
def addParameter (b : Builder V) (name : Option PyStr) (value : V) : Builder V × Except Err Unit :=
  match b.commands.getLast? with
  | none => (b, .error .valueError)
  | some r => (b.change r (·.addParameter name value), .ok ())

/-- The loop of `add_parameters`, /repo/src/psrpcore/_client.py:638-657. -/
def addParameters (b : Builder V) : List (PyStr × V) → Builder V × Except Err Unit
  | [] => (b, .ok ())
  | (name, value) :: rest =>
    match b.addParameter (some name) value with
    | (b, .ok _) => b.addParameters rest
    | (b, .error e) => (b, .error e)

/-- The loop of `Command.add_parameters`, /repo/src/psrpcore/_command.py:114-122. -/
def objectParameters (c : Command V) : List (PyStr × V) → Command V
  | [] => c
  | (name, value) :: rest => objectParameters (c.addParameter (some name) value) rest

/-- `add_statement`, /repo/src/psrpcore/_client.py:679-693. -/
def addStatement (b : Builder V) : Builder V × Except Err Unit :=
  match b.commands.getLast? with
  | none => (b, .ok ())
  | some r => (b.change r fun c => { c with endOfStatement := true }, .ok ())

/-- One call, /repo/src/psrpcore/_client.py:568-693. A name of an object that does not exist is
none a program can write; it is an `AttributeError`. -/
def step (b : Builder V) : BuildOp V → Builder V × Except Err Unit
  | .command text isScript scope =>
    ({ b with objs := b.objs ++
      [{ commandText := text, isScript := isScript, useLocalScope := scope }] }, .ok ())
  | .addText text scope => (b.append { commandText := text, useLocalScope := scope }, .ok ())
  | .addObject r scope =>
    if r < b.objs.length then
      if scope ≠ none then (b, .error .typeError)
      else ({ b with commands := b.commands ++ [r] }, .ok ())
    else (b, .error .attributeError)
  | .addScript text scope =>
    (b.append { commandText := text, isScript := true, useLocalScope := scope }, .ok ())
  | .addParameter name value => b.addParameter name value
  | .addArgument value => b.addParameter none value
  | .addParameters ps => b.addParameters ps
  | .addStatement => b.addStatement
  | .commandParameter r name value =>
    if r < b.objs.length then (b.change r (·.addParameter name value), .ok ())
    else (b, .error .attributeError)
  | .commandParameters r ps =>
    if r < b.objs.length then (b.change r (objectParameters · ps), .ok ())
    else (b, .error .attributeError)

/-- A number of calls with their results (/repo/src/psrpcore/_client.py:568-693); the program
catches the exceptions. -/
def run (b : Builder V) : List (BuildOp V) → Builder V × List (Except Err Unit)
  | [] => (b, [])
  | op :: ops =>
    let r := b.step op
    let rest := run r.1 ops
    (rest.1, r.2 :: rest.2)

end Builder

/-- `ApartmentState`, /repo/src/psrpcore/types/_complex.py:259-273. -/
inductive Apartment
  | STA | MTA | Unknown
deriving DecidableEq, Repr

/-- Its number, /repo/src/psrpcore/types/_complex.py:271-273. -/
def Apartment.number : Apartment → Nat
  | .STA => 0
  | .MTA => 1
  | .Unknown => 2

/-- `apartment_state or runspace_pool.apartment_state`, /repo/src/psrpcore/_client.py:558: members
of enums are ints, so that the one of number 0 counts as false
(/repo/src/psrpcore/types/_enum.py:53-58, 74). -/
def pipelineApartment (given : Option Apartment) (pool : Apartment) : Apartment :=
  match given with
  | none => pool
  | some a => if a.number = 0 then pool else a

/-- `ClientPowerShell.__init__`, /repo/src/psrpcore/_client.py:542-566, with
`PowerShell.__init__`, /repo/src/psrpcore/_pipeline.py:41-60; the host is the one given or the
default one. -/
def newPowerShell {V H : Type} (pool : Apartment) (addToHistory : Bool) (apartment : Option Apartment)
    (history : Option PyStr) (host : Option H) (defaultHost : H) (isNested noInput : Bool)
    (options : Nat) (redirect : Bool) : PowerShell V H where
  addToHistory := addToHistory
  apartmentState := some (pipelineApartment apartment pool).number
  history := history
  host := host.getD defaultHost
  isNested := isNested
  noInput := noInput
  remoteStreamOptions := options
  redirectShellErrorToOut := redirect

end Verif
