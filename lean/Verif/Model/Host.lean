import Verif.Model.Ints
import Verif.Model.Enum
import Verif.Model.HostMethod

/-!
# Host calls: objects, parameters and results

Models /repo/src/psrpcore/types/_host.py:188-792, /repo/src/psrpcore/_host.py and
/repo/src/psrpcore/_events.py:74-202. Serializing the message and reading it on the other side gives
the same values here; that is the matter of the serializer.
-/

namespace Verif

/-- The values in the parameters and results of host calls, /repo/src/psrpcore/types/_psrp.py. `obj` is
a `PSObject` with note properties, `dict` has int keys. `other` is any other value, which the library passes on
as it is. -/
inductive HVal
  | nil
  | bool (b : Bool)
  | int (n : Int)
  | char (c : Int)
  | str (s : PyStr)
  | enum (v : Int)
  | list (l : List HVal)
  | dict (d : List (Int × HVal))
  | obj (props : List (PyStr × HVal))
  | other (i : Nat)

/-- `obj.name`, /repo/src/psrpcore/types/_base.py:663-692: `AttributeError` without the property. -/
def HVal.attr (name : PyStr) : HVal → Except Err HVal
  | .obj ps =>
    match Dict.get? ps name with
    | some v => .ok v
    | none => .error .attributeError
  | _ => .error .attributeError

/-- `getattr(obj, name, None)`, /repo/src/psrpcore/types/_host.py:765. -/
def HVal.attrOrNone (name : PyStr) (v : HVal) : HVal :=
  match v.attr name with
  | .ok w => w
  | .error _ => .nil

/-- `obj[key]` of a dict, /repo/src/psrpcore/types/_host.py:680-689. -/
def HVal.item (key : Int) : HVal → Except Err HVal
  | .dict d =>
    match Dict.get? d key with
    | some v => .ok v
    | none => .error .keyError
  | _ => .error .typeError

/-- Iterating a value, /repo/src/psrpcore/_events.py:131, 148, 190-191. Only lists are modelled. -/
def HVal.elems : HVal → Except Err (List HVal)
  | .list l => .ok l
  | _ => .error .typeError

/-- `parameters[i]`, /repo/src/psrpcore/_events.py:110-179. -/
def paramAt (ps : List HVal) (i : Nat) : Except Err HVal :=
  match ps[i]? with
  | some v => .ok v
  | none => .error .indexError

/-- What a property with `ps_type=PSInt` makes of a value, /repo/src/psrpcore/types/_base.py:369-375 and
/repo/src/psrpcore/types/_primitive.py:106-137; lists, dicts and
objects raise `TypeError`, and so do here other values. -/
def HVal.asInt : HVal → Except Err (Option Int)
  | .nil => .ok none
  | .int n => (IntKind.psInt.new (.number n)).map some
  | .bool b => .ok (some (if b then 1 else 0))
  | .char c => (IntKind.psInt.new (.number c)).map some
  | .enum v => (IntKind.psInt.new (.enum v)).map some
  | .str s =>
    match intOfText s with
    | .ok n => (IntKind.psInt.new (.number n)).map some
    | .error e => .error e
  | _ => .error .typeError

/-- A property with `ps_type=PSChar`, /repo/src/psrpcore/types/_primitive.py:273-288. -/
def HVal.asChar : HVal → Except Err (Option Int)
  | .nil => .ok none
  | .char c => .ok (some c)
  | .int n => (charOfInt n).map some
  | .bool b => (charOfInt (if b then 1 else 0)).map some
  | .enum v => (charOfInt v).map some
  | .str s => (charOfStr s).map some
  | _ => .error .typeError

/-- A property with `ps_type=PSString`, /repo/src/psrpcore/types/_primitive.py:206-239. The texts of
enum members, lists, dicts, objects and other values are not modelled and raise here. -/
def HVal.asStr : HVal → Except Err (Option PyStr)
  | .nil => .ok none
  | .str s => .ok (some s)
  | .int n => .ok (some (intStr n))
  | .char c => .ok (some (charStr c))
  | .bool b => .ok (some (if b then lit "True" else lit "False"))
  | _ => .error .typeError

/-- A property with `ps_type=PSBool`, which is `bool` (/repo/src/psrpcore/types/_primitive.py:298). The truth of
other values is not modelled and raises here. -/
def HVal.asBool : HVal → Except Err (Option Bool)
  | .nil => .ok none
  | .bool b => .ok (some b)
  | .int n => .ok (some (n ≠ 0))
  | .char c => .ok (some (c ≠ 0))
  | .enum v => .ok (some (v ≠ 0))
  | .str s => .ok (some (s ≠ []))
  | .list l => .ok (some (!l.isEmpty))
  | .dict d => .ok (some (!d.isEmpty))
  | .obj _ => .ok (some true)
  | .other _ => .error .typeError

/-- The number in a call of an enum class, /repo/src/psrpcore/_events.py:82, 110, 140-141, 153, 162. -/
def HVal.number : HVal → Except Err Int
  | .int n => .ok n
  | .char n => .ok n
  | .enum n => .ok n
  | .bool b => .ok (if b then 1 else 0)
  | _ => .error .valueError

/-- An optional int as a value, /repo/src/psrpcore/types/_host.py:361. -/
def HVal.ofInt : Option Int → HVal
  | none => .nil
  | some n => .int n

/-- An optional char as a value, /repo/src/psrpcore/types/_host.py:250. -/
def HVal.ofChar : Option Int → HVal
  | none => .nil
  | some n => .char n

/-- An optional text as a value, /repo/src/psrpcore/types/_host.py:304. -/
def HVal.ofStr : Option PyStr → HVal
  | none => .nil
  | some s => .str s

/-- An optional bool as a value, /repo/src/psrpcore/types/_host.py:509. -/
def HVal.ofBool : Option Bool → HVal
  | none => .nil
  | some b => .bool b

/-- `ConsoleColor`, /repo/src/psrpcore/types/_complex.py:87-117. -/
def consoleColors : Members Int :=
  [(lit "Black", 0), (lit "DarkBlue", 1), (lit "DarkGreen", 2), (lit "DarkCyan", 3), (lit "DarkRed", 4),
   (lit "DarkMagenta", 5), (lit "DarkYellow", 6), (lit "Gray", 7), (lit "DarkGray", 8), (lit "Blue", 9),
   (lit "Green", 10), (lit "Cyan", 11), (lit "Red", 12), (lit "Magenta", 13), (lit "Yellow", 14),
   (lit "White", 15)]

/-- `PSCredentialTypes`, /repo/src/psrpcore/types/_complex.py:137-152. -/
def credentialTypes : Members Nat := [(lit "Generic", 1), (lit "Domain", 2), (lit "Default", 3)]

/-- `ConsoleColor(value)`, /repo/src/psrpcore/_events.py:82. -/
def toColor (v : HVal) : Except Err Int :=
  match v.number with
  | .ok n => enumOf consoleColors n
  | .error e => .error e

/-- `SomeFlag(value)`, /repo/src/psrpcore/_events.py:140-141, 162. Negative numbers are not modelled
and raise. `strict` is Python 3.11 or later. -/
def toFlag (strict : Bool) (ms : Members Nat) (v : HVal) : Except Err Nat :=
  match v.number with
  | .ok n => if n < 0 then .error .valueError else flagOf strict ms n.toNat
  | .error e => .error e

/-- A property with an enum class as `ps_type`, /repo/src/psrpcore/types/_base.py:369-375, given a
member or a number. -/
def HVal.asColor : HVal → Except Err (Option Int)
  | .nil => .ok none
  | v => (toColor v).map some

/-- A property with a flag class as `ps_type`, /repo/src/psrpcore/types/_base.py:369-375. -/
def HVal.asFlag (strict : Bool) (ms : Members Nat) : HVal → Except Err (Option Nat)
  | .nil => .ok none
  | v => (toFlag strict ms v).map some

/-! ## Objects -/

/-- `Coordinates`, /repo/src/psrpcore/types/_host.py:310-336. -/
structure Coordinates where
  x : Option Int
  y : Option Int
deriving DecidableEq, Repr

namespace Coordinates

/-- `Coordinates(X=x, Y=y)`, /repo/src/psrpcore/types/_host.py:310-319. -/
def new (x y : HVal) : Except Err Coordinates := do return ⟨← x.asInt, ← y.asInt⟩

/-- `ToPSObjectForRemoting(for_host=True)`, /repo/src/psrpcore/types/_host.py:349-364. -/
def toHost (c : Coordinates) : HVal := .obj [(lit "x", .ofInt c.x), (lit "y", .ofInt c.y)]

/-- `FromPSObjectForRemoting`, /repo/src/psrpcore/types/_host.py:338-347. Here and below an object that
already is of the class, which is returned as it is, is not modelled. -/
def fromHost (v : HVal) : Except Err Coordinates := do new (← v.attr (lit "x")) (← v.attr (lit "y"))

end Coordinates

/-- `Size`, /repo/src/psrpcore/types/_host.py:574-601. -/
structure HostSize where
  width : Option Int
  height : Option Int
deriving DecidableEq, Repr

namespace HostSize

/-- `Size(Width=w, Height=h)`, /repo/src/psrpcore/types/_host.py:574-583. -/
def new (w h : HVal) : Except Err HostSize := do return ⟨← w.asInt, ← h.asInt⟩

/-- `ToPSObjectForRemoting(for_host=True)`, /repo/src/psrpcore/types/_host.py:614-629. -/
def toHost (c : HostSize) : HVal := .obj [(lit "width", .ofInt c.width), (lit "height", .ofInt c.height)]

/-- `FromPSObjectForRemoting`, /repo/src/psrpcore/types/_host.py:603-612. -/
def fromHost (v : HVal) : Except Err HostSize := do
  new (← v.attr (lit "width")) (← v.attr (lit "height"))

end HostSize

/-- `Rectangle`, /repo/src/psrpcore/types/_host.py:514-541. -/
structure Rectangle where
  left : Option Int
  top : Option Int
  right : Option Int
  bottom : Option Int
deriving DecidableEq, Repr

namespace Rectangle

/-- `Rectangle(Left, Top, Right, Bottom)`, /repo/src/psrpcore/types/_host.py:514-525. -/
def new (l t r b : HVal) : Except Err Rectangle := do
  return ⟨← l.asInt, ← t.asInt, ← r.asInt, ← b.asInt⟩

/-- `ToPSObjectForRemoting(for_host=True)`, /repo/src/psrpcore/types/_host.py:554-571. -/
def toHost (c : Rectangle) : HVal :=
  .obj [(lit "left", .ofInt c.left), (lit "top", .ofInt c.top), (lit "right", .ofInt c.right),
        (lit "bottom", .ofInt c.bottom)]

/-- `FromPSObjectForRemoting`, /repo/src/psrpcore/types/_host.py:543-552. -/
def fromHost (v : HVal) : Except Err Rectangle := do
  new (← v.attr (lit "left")) (← v.attr (lit "top")) (← v.attr (lit "right")) (← v.attr (lit "bottom"))

end Rectangle

/-- `KeyInfo`, /repo/src/psrpcore/types/_host.py:450-476. -/
structure KeyInfo where
  virtualKeyCode : Option Int
  character : Option Int
  controlKeyState : Option Nat
  keyDown : Option Bool
deriving DecidableEq, Repr

namespace KeyInfo

/-- `KeyInfo(VirtualKeyCode, Character, ControlKeyState, KeyDown)`,
/repo/src/psrpcore/types/_host.py:450-458. -/
def new (strict : Bool) (vk ch st dn : HVal) : Except Err KeyInfo := do
  return ⟨← vk.asInt, ← ch.asChar, ← st.asFlag strict controlKeyStates, ← dn.asBool⟩

/-- `ToPSObjectForRemoting(for_host=True)`, /repo/src/psrpcore/types/_host.py:494-511: without a
control key state, `None.value` raises. -/
def toHost (k : KeyInfo) : Except Err HVal :=
  match k.controlKeyState with
  | none => .error .attributeError
  | some st =>
    .ok (.obj [(lit "virtualKeyCode", .ofInt k.virtualKeyCode), (lit "character", .ofChar k.character),
               (lit "controlKeyState", .int st), (lit "keyDown", .ofBool k.keyDown)])

/-- `FromPSObjectForRemoting`, /repo/src/psrpcore/types/_host.py:478-492. -/
def fromHost (strict : Bool) (v : HVal) : Except Err KeyInfo := do
  let vk ← v.attr (lit "virtualKeyCode")
  let ch ← v.attr (lit "character")
  let st ← toFlag strict controlKeyStates (← v.attr (lit "controlKeyState"))
  let dn ← v.attr (lit "keyDown")
  new strict vk ch (.enum st) dn

end KeyInfo

/-- `BufferCell`, /repo/src/psrpcore/types/_host.py:189-220. -/
structure BufferCell where
  character : Option Int
  foreground : Option Int
  background : Option Int
  cellType : Option Nat
deriving DecidableEq, Repr

namespace BufferCell

/-- `BufferCell(Character, ForegroundColor, BackgroundColor, BufferCellType)`,
/repo/src/psrpcore/types/_host.py:189-200. -/
def new (strict : Bool) (ch fg bg ty : HVal) : Except Err BufferCell := do
  return ⟨← ch.asChar, ← fg.asColor, ← bg.asColor, ← ty.asFlag strict bufferCellTypes⟩

/-- `ToPSObjectForRemoting(for_host=True)`, /repo/src/psrpcore/types/_host.py:238-255: `None.value`
raises for a missing colour or cell type. -/
def toHost (c : BufferCell) : Except Err HVal :=
  match c.foreground, c.background, c.cellType with
  | some fg, some bg, some ty =>
    .ok (.obj [(lit "character", .ofChar c.character), (lit "foregroundColor", .int fg),
               (lit "backgroundColor", .int bg), (lit "bufferCellType", .int ty)])
  | _, _, _ => .error .attributeError

/-- `FromPSObjectForRemoting`, /repo/src/psrpcore/types/_host.py:222-236. -/
def fromHost (strict : Bool) (v : HVal) : Except Err BufferCell := do
  let ch ← v.attr (lit "character")
  let fg ← toColor (← v.attr (lit "foregroundColor"))
  let bg ← toColor (← v.attr (lit "backgroundColor"))
  let ty ← toFlag strict bufferCellTypes (← v.attr (lit "bufferCellType"))
  new strict ch (.enum fg) (.enum bg) (.enum ty)

end BufferCell

/-- `ChoiceDescription`, /repo/src/psrpcore/types/_host.py:258-279. -/
structure ChoiceDescription where
  label : Option PyStr
  helpMessage : Option PyStr
deriving DecidableEq, Repr

namespace ChoiceDescription

/-- `ChoiceDescription(Label, HelpMessage)`, /repo/src/psrpcore/types/_host.py:258-264. -/
def new (l h : HVal) : Except Err ChoiceDescription := do return ⟨← l.asStr, ← h.asStr⟩

/-- `ToPSObjectForRemoting(for_host=True)`, /repo/src/psrpcore/types/_host.py:292-307. -/
def toHost (c : ChoiceDescription) : HVal :=
  .obj [(lit "label", .ofStr c.label), (lit "helpMessage", .ofStr c.helpMessage)]

/-- `FromPSObjectForRemoting`, /repo/src/psrpcore/types/_host.py:281-290. -/
def fromHost (v : HVal) : Except Err ChoiceDescription := do
  new (← v.attr (lit "label")) (← v.attr (lit "helpMessage"))

end ChoiceDescription

/-- `FieldDescription`, /repo/src/psrpcore/types/_host.py:367-402. -/
structure FieldDescription where
  name : Option PyStr
  parameterTypeName : Option PyStr := none
  parameterTypeFullName : Option PyStr := none
  parameterAssemblyFullName : Option PyStr := none
  label : Option PyStr := some []
  helpMessage : Option PyStr := some []
  isMandatory : Option Bool := some true
  defaultValue : HVal := .nil
  attributes : Option (List HVal) := none

namespace FieldDescription

/-- `ToPSObjectForRemoting(for_host=True)`, /repo/src/psrpcore/types/_host.py:424-447: the default value
and the attributes are left out. -/
def toHost (f : FieldDescription) : HVal :=
  .obj [(lit "name", .ofStr f.name), (lit "label", .ofStr f.label),
        (lit "parameterTypeName", .ofStr f.parameterTypeName),
        (lit "parameterTypeFullName", .ofStr f.parameterTypeFullName),
        (lit "parameterAssemblyFullName", .ofStr f.parameterAssemblyFullName),
        (lit "helpMessage", .ofStr f.helpMessage), (lit "isMandatory", .ofBool f.isMandatory),
        (lit "metadata", .list []), (lit "modifiedByRemotingProtocol", .bool false),
        (lit "isFromRemoteHost", .bool false)]

/-- A property with `ps_type=PSList`, /repo/src/psrpcore/types/_host.py:378. -/
def asList : HVal → Except Err (Option (List HVal))
  | .nil => .ok none
  | .list l => .ok (some l)
  | _ => .error .typeError

/-- `FromPSObjectForRemoting`, /repo/src/psrpcore/types/_host.py:404-422. -/
def fromHost (v : HVal) : Except Err FieldDescription := do
  return { name := ← (← v.attr (lit "name")).asStr
           parameterTypeName := ← (← v.attr (lit "parameterTypeName")).asStr
           parameterTypeFullName := ← (← v.attr (lit "parameterTypeFullName")).asStr
           parameterAssemblyFullName := ← (← v.attr (lit "parameterAssemblyFullName")).asStr
           label := ← (← v.attr (lit "label")).asStr
           helpMessage := ← (← v.attr (lit "helpMessage")).asStr
           isMandatory := ← (← v.attr (lit "isMandatory")).asBool
           attributes := ← asList (← v.attr (lit "metadata")) }

end FieldDescription

/-- `ProgressRecord`, /repo/src/psrpcore/types/_complex.py:1007-1044; the fields of
`ProgressRecordMsg` (/repo/src/psrpcore/types/_psrp.py:664-697) are the same. -/
structure HostProgress where
  activity : Option PyStr
  activityId : Option Int
  statusDescription : Option PyStr
  currentOperation : Option PyStr
  parentActivityId : Option Int
  percentComplete : Option Int
  recordType : Option Int
  secondsRemaining : Option Int
deriving DecidableEq, Repr

/-- `ProgressRecordType`, /repo/src/psrpcore/types/_complex.py:120-134. -/
def progressTypes : Members Int := [(lit "Processing", 0), (lit "Completed", 1)]

/-- A property with `ps_type=ProgressRecordType`, /repo/src/psrpcore/types/_psrp.py:673. -/
def HVal.asProgressType : HVal → Except Err (Option Int)
  | .nil => .ok none
  | v =>
    match v.number with
    | .ok n => (enumOf progressTypes n).map some
    | .error e => .error e

/-- An optional enum member as a value, /repo/src/psrpcore/_host.py:1129. -/
def HVal.ofEnum : Option Int → HVal
  | none => .nil
  | some n => .enum n

namespace HostProgress

/-- The `ProgressRecordMsg` of `write_progress`, /repo/src/psrpcore/_host.py:1119-1133. -/
def toHost (p : HostProgress) : HVal :=
  .obj [(lit "Activity", .ofStr p.activity), (lit "ActivityId", .ofInt p.activityId),
        (lit "StatusDescription", .ofStr p.statusDescription),
        (lit "CurrentOperation", .ofStr p.currentOperation),
        (lit "ParentActivityId", .ofInt p.parentActivityId),
        (lit "PercentComplete", .ofInt p.percentComplete), (lit "Type", .ofEnum p.recordType),
        (lit "SecondsRemaining", .ofInt p.secondsRemaining)]

/-- `ProgressRecord(...)` from the parameter, /repo/src/psrpcore/_events.py:113-125. -/
def fromHost (v : HVal) : Except Err HostProgress := do
  return { activity := ← (← v.attr (lit "Activity")).asStr
           activityId := ← (← v.attr (lit "ActivityId")).asInt
           currentOperation := ← (← v.attr (lit "CurrentOperation")).asStr
           parentActivityId := ← (← v.attr (lit "ParentActivityId")).asInt
           percentComplete := ← (← v.attr (lit "PercentComplete")).asInt
           recordType := ← (← v.attr (lit "Type")).asProgressType
           secondsRemaining := ← (← v.attr (lit "SecondsRemaining")).asInt
           statusDescription := ← (← v.attr (lit "StatusDescription")).asStr }

end HostProgress

/-! ## Arrays -/

/-- `_create_multi_dimensional_array`, /repo/src/psrpcore/_host.py:48-66, with the packing function
applied to the flattened values. `values[0]` raises on the empty list; it is read before the packing. -/
def createArray {α : Type} (pack : α → Except Err HVal) (values : List (List α)) : Except Err HVal :=
  match values.head? with
  | none => .error .indexError
  | some row =>
    match values.flatten.mapM pack with
    | .error e => .error e
    | .ok mae =>
      .ok (.obj [(lit "mae", .list mae), (lit "mal", .list [.int values.length, .int row.length])])

/-- The inner loop of `_unpack_multi_dimensional_array`, /repo/src/psrpcore/_events.py:195-200: entries
go to the current group until it has `count` of them; a group that stays incomplete is dropped. -/
def chunkLoop {α : Type} (count : Int) (done : List (List α)) (entries : List α) : List α → List (List α)
  | [] => done
  | e :: es =>
    if ((entries ++ [e]).length : Int) = count then chunkLoop count (done ++ [entries ++ [e]]) [] es
    else chunkLoop count done (entries ++ [e]) es

/-- `_unpack_multi_dimensional_array`, /repo/src/psrpcore/_events.py:186-202, for the two counts that
`_create_multi_dimensional_array` writes; other numbers of counts raise here and are not modelled. -/
def unpackArray {α : Type} (unpack : HVal → Except Err α) (v : HVal) : Except Err (List (List α)) := do
  let items ← (← (← v.attr (lit "mae")).elems).mapM unpack
  let mal ← (← v.attr (lit "mal")).elems
  match mal with
  | [.int rows, .int cols] =>
    match (chunkLoop rows [] [] (chunkLoop cols [] [] items)).head? with
    | some r => return r
    | none => .error .indexError
  | _ => .error .typeError

/-! ## Calls -/

/-- What the application gets for a parameter or a result, /repo/src/psrpcore/_events.py:74-183. -/
inductive HParam
  | raw (v : HVal)
  | color (c : Int)
  | coordinates (c : Coordinates)
  | size (s : HostSize)
  | rectangle (r : Rectangle)
  | cell (c : BufferCell)
  | cells (c : List (List BufferCell))
  | key (k : KeyInfo)
  | fields (f : List FieldDescription)
  | choices (c : List ChoiceDescription)
  | progress (p : HostProgress)
  | credentialTypes (f : Nat)
  | credentialOptions (f : Nat)
  | readKeyOptions (f : Nat)

/-- `_decode_host_call_parameters`, /repo/src/psrpcore/_events.py:105-183. -/
def decodeParams (strict : Bool) (m : HostMethod) (ps : List HVal) : Except Err (List HParam) :=
  match m with
  | .Write2 | .WriteLine3 => do
    return [.color (← toColor (← paramAt ps 0)), .color (← toColor (← paramAt ps 1)), .raw (← paramAt ps 2)]
  | .WriteProgress => do
    return [.raw (← paramAt ps 0), .progress (← HostProgress.fromHost (← paramAt ps 1))]
  | .Prompt => do
    return [.raw (← paramAt ps 0), .raw (← paramAt ps 1),
            .fields (← (← (← paramAt ps 2).elems).mapM FieldDescription.fromHost)]
  | .PromptForCredential2 => do
    return [.raw (← paramAt ps 0), .raw (← paramAt ps 1), .raw (← paramAt ps 2), .raw (← paramAt ps 3),
            .credentialTypes (← toFlag strict credentialTypes (← paramAt ps 4)),
            .credentialOptions (← toFlag strict credentialUIOptions (← paramAt ps 5))]
  | .PromptForChoice | .PromptForChoiceMultipleSelection => do
    return [.raw (← paramAt ps 0), .raw (← paramAt ps 1),
            .choices (← (← (← paramAt ps 2).elems).mapM ChoiceDescription.fromHost),
            .raw (← paramAt ps 3)]
  | .SetForegroundColor | .SetBackgroundColor => do return [.color (← toColor (← paramAt ps 0))]
  | .SetCursorPosition | .SetWindowPosition => do
    return [.coordinates (← Coordinates.fromHost (← paramAt ps 0))]
  | .SetBufferSize | .SetWindowSize => do return [.size (← HostSize.fromHost (← paramAt ps 0))]
  | .ReadKey => do return [.readKeyOptions (← toFlag strict readKeyOptions (← paramAt ps 0))]
  | .SetBufferContents1 => do
    return [.rectangle (← Rectangle.fromHost (← paramAt ps 0)),
            .cell (← BufferCell.fromHost strict (← paramAt ps 1))]
  | .SetBufferContents2 => do
    let cells ← unpackArray (BufferCell.fromHost strict) (← paramAt ps 1)
    return [.coordinates (← Coordinates.fromHost (← paramAt ps 0)), .cells cells]
  | .GetBufferContents => do return [.rectangle (← Rectangle.fromHost (← paramAt ps 0))]
  | .ScrollBufferContents => do
    return [.rectangle (← Rectangle.fromHost (← paramAt ps 0)),
            .coordinates (← Coordinates.fromHost (← paramAt ps 1)),
            .rectangle (← Rectangle.fromHost (← paramAt ps 2)),
            .cell (← BufferCell.fromHost strict (← paramAt ps 3))]
  | _ => .ok (ps.map .raw)

/-- `_decode_host_resp_result`, /repo/src/psrpcore/_events.py:74-102. -/
def decodeResult (strict : Bool) (m : HostMethod) (r : HVal) : Except Err HParam :=
  match r with
  | .nil => .ok (.raw .nil)
  | r =>
    match m with
    | .GetForegroundColor | .GetBackgroundColor => (toColor r).map .color
    | .GetCursorPosition | .GetWindowPosition => (Coordinates.fromHost r).map .coordinates
    | .GetBufferSize | .GetWindowSize | .GetMaxWindowSize | .GetMaxPhysicalWindowSize =>
      (HostSize.fromHost r).map .size
    | .ReadKey => (KeyInfo.fromHost strict r).map .key
    | .GetBufferContents => (unpackArray (BufferCell.fromHost strict) r).map .cells
    | _ => .ok (.raw r)

/-- A call of a method of `ServerHostRequestor`, /repo/src/psrpcore/_host.py:628-1978. Numbers of
positions, sizes and the like are Python ints, colours and flags are members of their classes, a
character is an int or a text. Methods without arguments are `get`. -/
inductive HostCall
  | get (m : HostMethod)
  | setShouldExit (code : HVal)
  | write (value : HVal) (fg bg : Option Int)
  | writeLine (line : Option PyStr) (fg bg : Option Int)
  | writeErrorLine (line : HVal)
  | writeDebugLine (line : HVal)
  | writeProgress (source : HVal) (p : HostProgress)
  | writeVerboseLine (line : HVal)
  | writeWarningLine (line : HVal)
  | prompt (caption message : HVal) (fields : List FieldDescription)
  | promptForCredential (caption message username : HVal) (target : Option PyStr)
      (types options : Option Nat)
  | promptForChoice (caption message : HVal) (choices : List ChoiceDescription) (default : HVal)
  | promptForMultipleChoice (caption message : HVal) (choices : List ChoiceDescription)
      (defaults : Option (List HVal))
  | setForegroundColor (c : Int)
  | setBackgroundColor (c : Int)
  | setCursorPosition (x y : Int)
  | setWindowPosition (x y : Int)
  | setCursorSize (size : HVal)
  | setBufferSize (width height : Int)
  | setWindowSize (width height : Int)
  | setWindowTitle (title : HVal)
  | readKey (options : Nat)
  | setBufferCells (left top right bottom : Int) (character : HVal) (fg bg : Int)
  | setBufferContents (x y : Int) (contents : List (List BufferCell))
  | getBufferContents (left top right bottom : Int)
  | scrollBufferContents (source : Int × Int × Int × Int) (x y : Int) (clip : Int × Int × Int × Int)
      (character : HVal) (fg bg : Int)

/-- The methods that take no arguments: /repo/src/psrpcore/_host.py:647-748, 773-906, 912-952,
1329-1348, 1372-1391, 1415-1434, 1463-1483, 1513-1532, 1556-1575, 1603-1622, 1650-1669, 1693-1755,
1781-1797. -/
def HostMethod.plain : HostMethod → Bool
  | .GetName | .GetVersion | .GetInstanceId | .GetCurrentCulture | .GetCurrentUICulture
  | .EnterNestedPrompt | .ExitNestedPrompt | .NotifyBeginApplication | .NotifyEndApplication
  | .PopRunspace | .GetIsRunspacePushed | .ReadLine | .ReadLineAsSecureString | .GetForegroundColor
  | .GetBackgroundColor | .GetCursorPosition | .GetWindowPosition | .GetCursorSize | .GetBufferSize
  | .GetWindowSize | .GetWindowTitle | .GetMaxWindowSize | .GetMaxPhysicalWindowSize
  | .GetKeyAvailable | .FlushInputBuffer => true
  | _ => false

/-- A rectangle argument, /repo/src/psrpcore/_host.py:1826, 1913, 1960-1966. -/
def rectArg (r : Int × Int × Int × Int) : Except Err HVal :=
  (Rectangle.new (.int r.1) (.int r.2.1) (.int r.2.2.1) (.int r.2.2.2)).map Rectangle.toHost

/-- A cell argument, /repo/src/psrpcore/_host.py:1828-1836, 1968-1976. -/
def cellArg (strict : Bool) (ch : HVal) (fg bg : Int) : Except Err HVal := do
  (← BufferCell.new strict ch (.enum fg) (.enum bg) (.enum 0)).toHost

/-- The method and parameters each call gives to `host_call`, /repo/src/psrpcore/_host.py:647-1978. -/
def HostCall.encode (strict : Bool) : HostCall → Except Err (HostMethod × List HVal)
  | .get m => .ok (m, [])
  | .setShouldExit c => .ok (.SetShouldExit, [c])
  | .write v fg bg =>
    if fg = none ∧ bg = none then .ok (.Write1, [v])
    else .ok (.Write2, [.int (fg.getD 0), .int (bg.getD 0), v])
  | .writeLine line fg bg =>
    if fg = none ∧ bg = none then
      match line with
      | none => .ok (.WriteLine1, [])
      | some l => .ok (.WriteLine2, [.str l])
    else .ok (.WriteLine3, [.int (fg.getD 0), .int (bg.getD 0), .str (line.getD [])])
  | .writeErrorLine l => .ok (.WriteErrorLine, [l])
  | .writeDebugLine l => .ok (.WriteDebugLine, [l])
  | .writeProgress s p => .ok (.WriteProgress, [s, p.toHost])
  | .writeVerboseLine l => .ok (.WriteVerboseLine, [l])
  | .writeWarningLine l => .ok (.WriteWarningLine, [l])
  | .prompt c m fs => .ok (.Prompt, [c, m, .list (fs.map FieldDescription.toHost)])
  | .promptForCredential c m u t types options =>
    let base := [c, m, u, .str (t.getD [])]
    if types = none ∧ options = none then .ok (.PromptForCredential1, base)
    else .ok (.PromptForCredential2, base ++ [.int (types.getD 3), .int (options.getD 1)])
  | .promptForChoice c m cs d => .ok (.PromptForChoice, [c, m, .list (cs.map ChoiceDescription.toHost), d])
  | .promptForMultipleChoice c m cs ds =>
    .ok (.PromptForChoiceMultipleSelection,
         [c, m, .list (cs.map ChoiceDescription.toHost), .list (ds.getD [])])
  | .setForegroundColor c => .ok (.SetForegroundColor, [.int c])
  | .setBackgroundColor c => .ok (.SetBackgroundColor, [.int c])
  | .setCursorPosition x y => do
    return (.SetCursorPosition, [(← Coordinates.new (.int x) (.int y)).toHost])
  | .setWindowPosition x y => do
    return (.SetWindowPosition, [(← Coordinates.new (.int x) (.int y)).toHost])
  | .setCursorSize s => .ok (.SetCursorSize, [s])
  | .setBufferSize w h => do return (.SetBufferSize, [(← HostSize.new (.int w) (.int h)).toHost])
  | .setWindowSize w h => do return (.SetWindowSize, [(← HostSize.new (.int w) (.int h)).toHost])
  | .setWindowTitle t => .ok (.SetWindowTitle, [t])
  | .readKey o => .ok (.ReadKey, [.int o])
  | .setBufferCells l t r b ch fg bg => do
    return (.SetBufferContents1, [← rectArg (l, t, r, b), ← cellArg strict ch fg bg])
  | .setBufferContents x y cells => do
    let c := (← Coordinates.new (.int x) (.int y)).toHost
    return (.SetBufferContents2, [c, ← createArray BufferCell.toHost cells])
  | .getBufferContents l t r b => do return (.GetBufferContents, [← rectArg (l, t, r, b)])
  | .scrollBufferContents s x y c ch fg bg => do
    let source ← rectArg s
    let dest := (← Coordinates.new (.int x) (.int y)).toHost
    let clip ← rectArg c
    let fill ← cellArg strict ch fg bg
    return (.ScrollBufferContents, [source, dest, clip, fill])

/-- A call of a method of `ClientHostResponder`, /repo/src/psrpcore/_host.py:69-625. `plain` stands for
the methods that pass the value on as it is. -/
inductive HostReply
  | plain (m : HostMethod) (v : HVal)
  | multipleChoice (choices : HVal)
  | color (m : HostMethod) (c : Int)
  | coordinates (m : HostMethod) (x y : Int)
  | size (m : HostMethod) (width height : Int)
  | key (character : HVal) (down : Bool) (state : Nat) (code : Int)
  | contents (cells : List (List BufferCell))

/-- The return value each reply gives to `host_response`, /repo/src/psrpcore/_host.py:87-625. -/
def HostReply.encode (strict : Bool) : HostReply → Except Err HVal
  | .plain _ v => .ok v
  | .multipleChoice (.list l) => .ok (.list l)
  | .multipleChoice v => .ok (.list [v])
  | .color _ c => .ok (.int c)
  | .coordinates _ x y => do return (← Coordinates.new (.int x) (.int y)).toHost
  | .size _ w h => do return (← HostSize.new (.int w) (.int h)).toHost
  | .key ch dn st code => do
    let c ← ch.asChar
    (← KeyInfo.new strict (.int code) (.ofChar c) (.enum st) (.bool dn)).toHost
  | .contents cells => createArray BufferCell.toHost cells

/-! ## Host info -/

/-- `HostDefaultData`, /repo/src/psrpcore/types/_host.py:632-671. The types of the values are checked
when the object is made. -/
structure HostDefaultData where
  foreground : Option Int
  background : Option Int
  cursorPosition : Option Coordinates
  windowPosition : Option Coordinates
  cursorSize : Option Int
  bufferSize : Option HostSize
  windowSize : Option HostSize
  maxWindowSize : Option HostSize
  maxPhysicalWindowSize : Option HostSize
  windowTitle : Option PyStr
deriving DecidableEq, Repr

namespace HostDefaultData

/-- `dict_value`, /repo/src/psrpcore/types/_host.py:700-704. -/
def dictValue (v : HVal) (type : PyStr) : HVal := .obj [(lit "T", .str type), (lit "V", v)]

/-- One entry of the default data: its type name and value, `None` has neither
(/repo/src/psrpcore/types/_host.py:708-721). -/
def entry (type : PyStr) : Option HVal → Except Err HVal
  | some v => .ok (dictValue v type)
  | none => .error .attributeError

/-- `ToPSObjectForRemoting`, /repo/src/psrpcore/types/_host.py:692-727, in the order of the extended
properties (lines 633-644). -/
def toHost (d : HostDefaultData) : Except Err HVal := do
  let color := lit "System.ConsoleColor"
  let coords := lit "System.Management.Automation.Host.Coordinates"
  let size := lit "System.Management.Automation.Host.Size"
  let e0 ← entry color (d.foreground.map .int)
  let e1 ← entry color (d.background.map .int)
  let e2 ← entry coords (d.cursorPosition.map Coordinates.toHost)
  let e3 ← entry coords (d.windowPosition.map Coordinates.toHost)
  let e4 ← entry (lit "System.Int32") (d.cursorSize.map .int)
  let e5 ← entry size (d.bufferSize.map HostSize.toHost)
  let e6 ← entry size (d.windowSize.map HostSize.toHost)
  let e7 ← entry size (d.maxWindowSize.map HostSize.toHost)
  let e8 ← entry size (d.maxPhysicalWindowSize.map HostSize.toHost)
  let e9 ← entry (lit "System.String") (d.windowTitle.map .str)
  return .obj [(lit "data", .dict [(0, e0), (1, e1), (2, e2), (3, e3), (4, e4), (5, e5), (6, e6), (7, e7),
    (8, e8), (9, e9)])]

/-- `obj.data[i].V`, /repo/src/psrpcore/types/_host.py:680-689. -/
def value (v : HVal) (i : Int) : Except Err HVal := do (← (← v.attr (lit "data")).item i).attr (lit "V")

/-- `FromPSObjectForRemoting`, /repo/src/psrpcore/types/_host.py:673-690. -/
def fromHost (v : HVal) : Except Err HostDefaultData := do
  return { foreground := some (← toColor (← value v 0))
           background := some (← toColor (← value v 1))
           cursorPosition := some (← Coordinates.fromHost (← value v 2))
           windowPosition := some (← Coordinates.fromHost (← value v 3))
           cursorSize := ← (← value v 4).asInt
           bufferSize := some (← HostSize.fromHost (← value v 5))
           windowSize := some (← HostSize.fromHost (← value v 6))
           maxWindowSize := some (← HostSize.fromHost (← value v 7))
           maxPhysicalWindowSize := some (← HostSize.fromHost (← value v 8))
           windowTitle := ← (← value v 9).asStr }

end HostDefaultData

/-- `HostInfo`, /repo/src/psrpcore/types/_host.py:730-756. -/
structure HostInfo where
  isHostNull : Option Bool := some true
  isHostUINull : Option Bool := some true
  isHostRawUINull : Option Bool := some true
  useRunspaceHost : Option Bool := some true
  defaultData : Option HostDefaultData := none
deriving DecidableEq, Repr

namespace HostInfo

/-- `ToPSObjectForRemoting`, /repo/src/psrpcore/types/_host.py:777-792; the serializer calls the same
method of the default data (/repo/src/psrpcore/types/_serializer.py:681-684). -/
def toHost (h : HostInfo) : Except Err HVal :=
  let base := [(lit "_isHostNull", .ofBool h.isHostNull), (lit "_isHostUINull", .ofBool h.isHostUINull),
    (lit "_isHostRawUINull", .ofBool h.isHostRawUINull), (lit "_useRunspaceHost", .ofBool h.useRunspaceHost)]
  match h.defaultData with
  | none => .ok (.obj base)
  | some d =>
    match d.toHost with
    | .ok v => .ok (.obj (base ++ [(lit "_hostDefaultData", v)]))
    | .error e => .error e

/-- The default data of a host info, /repo/src/psrpcore/types/_host.py:765-767. -/
def readData : HVal → Except Err (Option HostDefaultData)
  | .nil => .ok none
  | v => (HostDefaultData.fromHost v).map some

/-- `FromPSObjectForRemoting`, /repo/src/psrpcore/types/_host.py:758-775. -/
def fromHost (v : HVal) : Except Err HostInfo := do
  let d ← readData (v.attrOrNone (lit "_hostDefaultData"))
  return { isHostNull := ← (← v.attr (lit "_isHostNull")).asBool
           isHostUINull := ← (← v.attr (lit "_isHostUINull")).asBool
           isHostRawUINull := ← (← v.attr (lit "_isHostRawUINull")).asBool
           useRunspaceHost := ← (← v.attr (lit "_useRunspaceHost")).asBool
           defaultData := d }

end HostInfo

end Verif
