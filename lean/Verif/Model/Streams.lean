import Verif.Model.Events
import Verif.Model.Client

/-!
# Information and progress records

`ServerPipeline.write_information` and `write_progress`, /repo/src/psrpcore/_server.py:645-762, with
`InformationRecord.create`, /repo/src/psrpcore/types/_complex.py:1085-1128: which message they make. Lists of tags are `PSList` objects of
the caller (a `list` is copied into one, /repo/src/psrpcore/types/_base.py:371-372). That the message is given to `prepare_message` is in
`Pool.pipeWriteRecord`.
-/

namespace Verif

/-- What `getpass.getuser` does: it returns a name, raises `ModuleNotFoundError` (there is no module `pwd`), or raises another exception
(no variable is set and the id of the user has no name) (/repo/src/psrpcore/types/_complex.py:1103-1108). -/
inductive UserLookup
  | name (n : PyStr)
  | noModule
  | raises (e : Err)
deriving DecidableEq, Repr

/-- What the machine tells, /repo/src/psrpcore/types/_complex.py:1099-1114. -/
structure Machine where
  now : DateFields
  user : UserLookup
  node : PyStr
  processId : Int
  threadId : Int

/-- The arguments of `write_information`, /repo/src/psrpcore/_server.py:695-706. -/
structure InformationArgs where
  data : PVal
  source : PyStr
  time : Option DateFields := none
  tags : Option Nat := none
  user : Option PyStr := none
  computer : Option PyStr := none
  process : Option Int := none
  native : Option Int := none
  managed : Option Int := none

/-- `not tags`, /repo/src/psrpcore/types/_complex.py:1100. -/
def noTags (H : Heap) : Option Nat → Bool
  | none => true
  | some a =>
    match (H a).data with
    | .list _ [] => true
    | _ => false

/-- `PSList([])`, /repo/src/psrpcore/types/_complex.py:1101, /repo/src/psrpcore/types/_collection.py:205. -/
def emptyList : PObj where
  data := .list .list []
  types := [txt! "System.Collections.ArrayList", txt! "System.Object"]

/-- The user, /repo/src/psrpcore/types/_complex.py:1103-1109. -/
def userOf (M : Machine) : Option PyStr → Except Err PyStr
  | some u => .ok u
  | none =>
    match M.user with
    | .name n => .ok n
    | .noModule => .ok (txt! "Unknown")
    | .raises e => .error e

/-- `default if x is None else x`, /repo/src/psrpcore/types/_complex.py:1099, 1111-1115, and arguments with a default. -/
def orDefault {α : Type} (x : Option α) (default : α) : α :=
  match x with
  | none => default
  | some v => v

/-- `x or 0`, /repo/src/psrpcore/types/_complex.py:1127. -/
def orZero (x : Option Int) : Int :=
  match x with
  | none => 0
  | some n => if n = 0 then 0 else n

/-- `InformationRecord.create` and the message made of its result, /repo/src/psrpcore/types/_complex.py:1085-1128 and
/repo/src/psrpcore/_server.py:740-761. Both classes convert the fields to the same types; the objects are the caller's with the new list of
tags, if any, at `fresh`. -/
def createInformation (M : Machine) (H : Heap) (fresh : Nat) (a : InformationArgs) : Except Err (Heap × Letter) :=
  let time := orDefault a.time M.now
  let heap : Heap := if noTags H a.tags then fun q => if q = fresh then emptyList else H q else H
  let tags : PVal := if noTags H a.tags then .ref fresh else match a.tags with
    | none => .nil
    | some q => .ref q
  match userOf M a.user with
  | .error e => .error e
  | .ok user =>
    let computer := orDefault a.computer M.node
    let process := orDefault a.process M.processId
    let native := orDefault a.native M.threadId
    let managed := orZero a.managed
    let l := Letter.informationRecord a.data (some a.source) (some time) tags (some user) (some computer) (some process) (some native)
      (some managed)
    match l.shape with
    | .error e => .error e
    | .ok _ => .ok (heap, l)

/-- `write_information`, /repo/src/psrpcore/_server.py:695-762: the message it prepares. -/
def writeInformation (version : PSVersion) (state : PipeState) (M : Machine) (H : Heap) (fresh : Nat) (a : InformationArgs) :
    Except Err (Heap × Letter) :=
  if version.lt Pwsh5 then .error .invalidProtocolVersion
  else if state ≠ .Running then .error .invalidPipelineState
  else createInformation M H fresh a

/-- The arguments of `write_progress` with their defaults, /repo/src/psrpcore/_server.py:645-655. The type is a member of
`ProgressRecordType`, `none` if it is not given. -/
structure ProgressArgs where
  activity : PyStr
  activityId : Int
  status : PyStr
  operation : Option PyStr := none
  parentId : Int := -1
  percent : Int := -1
  type : Option PVal := none
  seconds : Int := -1

/-- `write_progress`, /repo/src/psrpcore/_server.py:645-693: the message it prepares. `processing` is `ProgressRecordType.Processing`. -/
def writeProgress (state : PipeState) (processing : PVal) (a : ProgressArgs) : Except Err Letter :=
  if state ≠ .Running then .error .invalidPipelineState
  else
    let l := Letter.progressRecord (some a.activity) (some a.activityId) (some a.status) a.operation (some a.parentId) (some a.percent)
      (orDefault a.type processing) (some a.seconds)
    match l.shape with
    | .error e => .error e
    | .ok _ => .ok l

end Verif
