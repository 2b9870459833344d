import Verif.Model.Command
import Verif.Model.Host
import Verif.Model.Events

/-!
# The objects of pipelines

The objects that the remoting form of commands and pipelines consists of, and what is read from the objects that were received.
`Model/Command.lean` has the rest of these functions, with the properties as fields of a structure.
-/

namespace Verif

/-- A text of a received object, /repo/src/psrpcore/_command.py:204. Values that are no text, which Python keeps as they are, are not
modelled and raise here. -/
def HVal.theStr : HVal → Except Err PyStr
  | .str s => .ok s
  | _ => .error .typeError

/-- The same with `None`, /repo/src/psrpcore/_command.py:209, /repo/src/psrpcore/_pipeline.py:81. -/
def HVal.theStr? : HVal → Except Err (Option PyStr)
  | .nil => .ok none
  | .str s => .ok (some s)
  | _ => .error .typeError

/-- A bool of a received object, /repo/src/psrpcore/_command.py:205. Other values, which Python keeps, raise here. -/
def HVal.theBool : HVal → Except Err Bool
  | .bool b => .ok b
  | _ => .error .typeError

/-- The same with `None`, /repo/src/psrpcore/_command.py:206. -/
def HVal.theBool? : HVal → Except Err (Option Bool)
  | .nil => .ok none
  | .bool b => .ok (some b)
  | _ => .error .typeError

/-- The number of a flag or enum member, /repo/src/psrpcore/_command.py:212-215, /repo/src/psrpcore/_pipeline.py:85. Values that are not
equal to a natural number, which Python keeps, raise here. -/
def HVal.theFlag (v : HVal) : Except Err Nat :=
  match v.number with
  | .ok n => if n < 0 then .error .valueError else .ok n.toNat
  | .error e => .error e

/-- The same with `None`, /repo/src/psrpcore/_command.py:219-221, /repo/src/psrpcore/_pipeline.py:80. -/
def HVal.theFlag? : HVal → Except Err (Option Nat)
  | .nil => .ok none
  | v => v.theFlag.map some

namespace RemoteCommand

/-- `dict_to_psobject(N=n, V=v)`, /repo/src/psrpcore/_command.py:246. -/
def argTree (a : Option PyStr × HVal) : HVal := .obj [(lit "N", .ofStr a.1), (lit "V", a.2)]

/-- A property that is there for some versions of the peer, /repo/src/psrpcore/_command.py:255-262. -/
def optTree (name : PyStr) : Option ResultType → List (PyStr × HVal)
  | none => []
  | some r => [(name, .enum r)]

/-- The object of `Command.ToPSObjectForRemoting`, /repo/src/psrpcore/_command.py:244-264. -/
def tree (r : RemoteCommand HVal) : HVal :=
  .obj ([(lit "Cmd", .str r.cmd), (lit "Args", .list (r.args.map argTree)), (lit "IsScript", .bool r.isScript),
    (lit "UseLocalScope", .ofBool r.useLocalScope), (lit "MergeMyResult", .enum r.mergeMyResult),
    (lit "MergeToResult", .enum r.mergeToResult), (lit "MergePreviousResults", .enum r.mergePreviousResults)] ++
    optTree (lit "MergeError") r.mergeError ++ optTree (lit "MergeWarning") r.mergeWarning ++
    optTree (lit "MergeVerbose") r.mergeVerbose ++ optTree (lit "MergeDebug") r.mergeDebug ++
    optTree (lit "MergeInformation") r.mergeInformation)

/-- `argument.N, argument.V`, /repo/src/psrpcore/_command.py:208-209. -/
def readArg (a : HVal) : Except Err (Option PyStr × HVal) := do
  return (← (← a.attr (lit "N")).theStr?, ← a.attr (lit "V"))

/-- What `Command.FromPSObjectForRemoting` reads of an object, /repo/src/psrpcore/_command.py:197-223. -/
def read (o : HVal) : Except Err (RemoteCommand HVal) := do
  let cmd ← (← o.attr (lit "Cmd")).theStr
  let isScript ← (← o.attr (lit "IsScript")).theBool
  let useLocalScope ← (← o.attr (lit "UseLocalScope")).theBool?
  let args ← (← (← o.attr (lit "Args")).elems).mapM readArg
  let previous ← (← o.attr (lit "MergePreviousResults")).theFlag
  let my ← (← o.attr (lit "MergeMyResult")).theFlag
  let to ← (← o.attr (lit "MergeToResult")).theFlag
  return {
    cmd := cmd
    args := args
    isScript := isScript
    useLocalScope := useLocalScope
    mergeMyResult := my
    mergeToResult := to
    mergePreviousResults := previous
    mergeError := ← (o.attrOrNone (lit "MergeError")).theFlag?
    mergeWarning := ← (o.attrOrNone (lit "MergeWarning")).theFlag?
    mergeVerbose := ← (o.attrOrNone (lit "MergeVerbose")).theFlag?
    mergeDebug := ← (o.attrOrNone (lit "MergeDebug")).theFlag?
    mergeInformation := ← (o.attrOrNone (lit "MergeInformation")).theFlag? }

end RemoteCommand

namespace CreatePipeline

variable {H : Type}

/-- A list of commands, /repo/src/psrpcore/_pipeline.py:118, 123. -/
def cmdsTree (cs : List (RemoteCommand HVal)) : HVal := .list (cs.map RemoteCommand.tree)

/-- `dict_to_psobject(Cmds=s)`, /repo/src/psrpcore/_pipeline.py:132. -/
def statementTree (s : List (RemoteCommand HVal)) : HVal := .obj [(lit "Cmds", cmdsTree s)]

/-- The value of `PowerShell` in the message, /repo/src/psrpcore/_pipeline.py:120-132, 140. -/
def commandTree (m : CreatePipeline HVal H) : HVal :=
  .obj ([(lit "Cmds", cmdsTree m.cmds), (lit "IsNested", .bool m.powerShellIsNested), (lit "History", .ofStr m.history),
    (lit "RedirectShellErrorOutputPipe", .bool m.redirectShellErrorOutputPipe)] ++
    match m.extraCmds with
    | none => []
    | some ss => [(lit "ExtraCmds", .list (ss.map statementTree))])

/-- The commands of a statement, /repo/src/psrpcore/_pipeline.py:95-97. -/
def readCmds (v : HVal) : Except Err (List (RemoteCommand HVal)) := do (← v.elems).mapM RemoteCommand.read

/-- `[c.Cmds for c in extra_cmds]`, /repo/src/psrpcore/_pipeline.py:89-91. Only `None` and lists are modelled. -/
def readExtra : HVal → Except Err (Option (List (List (RemoteCommand HVal))))
  | .nil => .ok none
  | v => do return some (← (← v.elems).mapM fun c => do readCmds (← c.attr (lit "Cmds")))

/-- What `PowerShell.FromPSObjectForRemoting` reads of the message, /repo/src/psrpcore/_pipeline.py:70-97: the properties `NoInput`,
`ApartmentState`, `RemoteStreamOptions`, `AddToHistory`, `HostInfo`, `PowerShell` and `IsNested`. `Cmds` is only looked at without
`ExtraCmds`, `IsNested` of the `PowerShell` object is not. -/
def read (noInput apartment options history host command nested : HVal) : Except Err (CreatePipeline HVal HostInfo) := do
  let text ← (← command.attr (lit "History")).theStr?
  let host ← HostInfo.fromHost host
  let pipe ← (← command.attr (lit "RedirectShellErrorOutputPipe")).theBool
  let extra ← readExtra (command.attrOrNone (lit "ExtraCmds"))
  let cmds ← match extra with
    | some _ => .ok []
    | none => do readCmds (← command.attr (lit "Cmds"))
  return {
    noInput := ← noInput.theBool
    apartmentState := ← apartment.theFlag?
    remoteStreamOptions := ← options.theFlag
    addToHistory := ← history.theBool
    hostInfo := host
    isNested := ← nested.theBool
    cmds := cmds
    powerShellIsNested := false
    history := text
    redirectShellErrorOutputPipe := pipe
    extraCmds := extra }

end CreatePipeline

/-- `PowerShell.FromPSObjectForRemoting`, /repo/src/psrpcore/_pipeline.py:70-102, on the properties of the message. -/
def PowerShell.read (noInput apartment options history host command nested : HVal) : Except Err (PowerShell HVal HostInfo) := do
  PowerShell.fromRemoting (← CreatePipeline.read noInput apartment options history host command nested)

end Verif
