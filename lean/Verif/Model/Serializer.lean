import Verif.Model.Registry
import Verif.Model.DateTime
import Verif.Model.Numbers
import Verif.Model.Crypto

/-!
# The serializer: object graphs as element trees

Models `_Serializer`, /repo/src/psrpcore/types/_serializer.py:633-1210: `serialize`, `deserialize`,
`_get_ref_id` and `_update_value_ref`. Objects live on heaps, since both directions work with the identity
of objects: references, sharing and cycles.

Not modelled: values with `ToPSObjectForRemoting` or `FromPSObjectForRemoting` (they are the matter of
other models, a heap has what these methods make), callables behind properties (a heap has the values),
instances of other Python classes (a heap has their attributes as extended properties).
-/

namespace Verif

/-! ## Element trees -/

/-- The names of elements the code knows, /repo/src/psrpcore/types/_serializer.py:695-963 and the tags of
/repo/src/psrpcore/types/_primitive.py and _collection.py; `other` is any other name. -/
inductive Tag
  | Ref | Nil | B | ToString | Obj | TN | T | TNRef | Props | MS
  | DCT | En | QUE | LST | STK | IE
  | S | URI | XD | SBK | BA | C | DT | TS | Version | G | D | Db | Sg | SS
  | PR | AV | AI | PI | PC | SR | SD
  | int (k : IntKind)
  | other
deriving DecidableEq, Repr

/-- The attributes `RefId`, `N` and `S` of an element,
/repo/src/psrpcore/types/_serializer.py:294, 830, 892. -/
structure Attrs where
  refId : Option PyStr := none
  name : Option PyStr := none
  stream : Option PyStr := none
deriving DecidableEq, Repr

/-- `ElementTree.Element`, /repo/src/psrpcore/types/_serializer.py:673. No text is the empty text. -/
inductive Xml
  | node (tag : Tag) (attrs : Attrs) (text : PyStr) (kids : List Xml)

namespace Xml

/-- `element.tag`, /repo/src/psrpcore/types/_serializer.py:976. -/
def tag : Xml → Tag | node t _ _ _ => t
/-- `element.attrib`, /repo/src/psrpcore/types/_serializer.py:980. -/
def attrs : Xml → Attrs | node _ a _ _ => a
/-- `element.text or ""`, /repo/src/psrpcore/types/_serializer.py:977. -/
def text : Xml → PyStr | node _ _ t _ => t
/-- The children, /repo/src/psrpcore/types/_serializer.py:1076. -/
def kids : Xml → List Xml | node _ _ _ k => k

/-- `element.attrib["N"] = name`, /repo/src/psrpcore/types/_serializer.py:892, 927, 931, 965. -/
def setName (n : PyStr) : Xml → Xml
  | node t a x k => node t { a with name := some n } x k

/-- `element.attrib["S"] = name`, /repo/src/psrpcore/types/_serializer.py:294. -/
def setStream (n : PyStr) : Xml → Xml
  | node t a x k => node t { a with stream := some n } x k

end Xml

/-! ## Values without properties -/

/-- The classes derived from `PSStringBase`, /repo/src/psrpcore/types/_primitive.py:226-240, 931-966,
1116-1157. -/
inductive StrKind
  | string | uri | xml | script
deriving DecidableEq, Repr

/-- The classes derived from `float`, /repo/src/psrpcore/types/_primitive.py:768-815. -/
inductive FloatKind
  | single | double
deriving DecidableEq, Repr

/-- The properties of a `ProgressRecord`, /repo/src/psrpcore/types/_complex.py:1005-1018; `completed` is
`RecordType == ProgressRecordType.Completed`. Records with `None` for the activity, the description or the
type cannot be serialized and are not modelled. -/
structure Progress where
  activityId : Option Int
  activity : PyStr
  status : PyStr
  operation : Option PyStr := none
  parentId : Option Int := some (-1)
  percent : Option Int := some (-1)
  completed : Bool := false
  seconds : Option Int := some (-1)
deriving DecidableEq, Repr

/-- A primitive value, /repo/src/psrpcore/types/_serializer.py:697-815: what is written without an `Obj`
element. Plain Python `str`, `bytes`,
`datetime` and the like are written as the class they come back as (a `float` as a `PSSingle`); a plain `int` is `plainInt`.
The text of a secure string is that of one that is already encrypted (/repo/src/psrpcore/types/_primitive.py:1159-1239) and
not looked into. -/
inductive Prim
  | int (k : IntKind) (v : Int)
  | plainInt (v : Int)
  | char (c : Int)
  | str (k : StrKind) (s : PyStr)
  | bytes (b : Bytes)
  | date (d : DateFields)
  | duration (d : Duration)
  | version (v : PSVersion)
  | guid (n : Nat)
  | decimal (d : PyDecimal)
  | float (k : FloatKind) (x : PyFloat)
  | secure (t : PyStr)
  | progress (r : Progress)
deriving DecidableEq, Repr

/-- What the texts depend on: the decimal digits of Unicode and `%Y` of the platform
(/repo/src/psrpcore/types/_serializer.py:91-104, 507). -/
structure TextEnv where
  uni : Nat → Option Nat
  year4 : Nat → PyStr

/-- The tag of a text class, /repo/src/psrpcore/types/_serializer.py:786-789. -/
def StrKind.tag : StrKind → Tag
  | string => .S
  | uri => .URI
  | xml => .XD
  | script => .SBK

/-- The tag of a class of floats, /repo/src/psrpcore/types/_serializer.py:752. -/
def FloatKind.tag : FloatKind → Tag
  | single => .Sg
  | double => .Db

/-- The class of a plain int, /repo/src/psrpcore/types/_serializer.py:740-741. -/
def plainKind (v : Int) : IntKind := if v > IntKind.psInt.maxValue then .psInt64 else .psInt

/-- The tag and text of a primitive, /repo/src/psrpcore/types/_serializer.py:701-792. -/
def writePrim (E : TextEnv) : Prim → Tag × PyStr
  | .bytes b => (.BA, b64encode b)
  | .date d => (.DT, serializeDateTime E.year4 d)
  | .duration d => (.TS, serializeDuration d)
  | .int k v => (.int k, intStr v)
  | .plainInt v => (.int (plainKind v), intStr v)
  | .char c => (.C, intStr c)
  | .version v => (.Version, v.str)
  | .guid n => (.G, guidStr n)
  | .decimal d => (.D, d.text)
  | .float k x => (k.tag, x.text)
  | .secure t => (.SS, t)
  | .str k s => (k.tag, serializeString s)
  | .progress _ => (.PR, [])

/-- `str(value)` of an int or `None`, /repo/src/psrpcore/types/_serializer.py:798, 805-808. -/
def optIntStr : Option Int → PyStr
  | none => txt! "None"
  | some v => intStr v

/-- The children of a `PR` element, /repo/src/psrpcore/types/_serializer.py:797-809. -/
def progressKids (r : Progress) : List Xml :=
  [.node .AV {} (serializeString r.activity) [],
   .node .AI {} (optIntStr r.activityId) [],
   match r.operation with
   | none => .node .Nil {} [] []
   | some t => .node .S {} (serializeString t) [],
   .node .PI {} (optIntStr r.parentId) [],
   .node .PC {} (optIntStr r.percent) [],
   .node .T {} (serializeString (if r.completed then txt! "Completed" else txt! "Processing")) [],
   .node .SR {} (optIntStr r.seconds) [],
   .node .SD {} (serializeString r.status) []]

/-- The children of the element of a primitive, /repo/src/psrpcore/types/_serializer.py:701-809. -/
def primKids : Prim → List Xml
  | .progress r => progressKids r
  | _ => []

/-- A primitive as an element, /repo/src/psrpcore/types/_serializer.py:701-809. -/
def primXml (E : TextEnv) (p : Prim) : Xml := .node (writePrim E p).1 {} (writePrim E p).2 (primKids p)

/-- `ps_type(element.text)` of an integer class, /repo/src/psrpcore/types/_serializer.py:1010-1025: no
text gives `ps_type(None)`. -/
def readInt (k : IntKind) (text : PyStr) : Except Err Prim :=
  if text = [] then (k.new .none).map (.int k)
  else match intOfText text with
    | .ok v => (k.new (.number v)).map (.int k)
    | .error e => .error e

/-- `ps_type(element.text)` of the other classes in /repo/src/psrpcore/types/_serializer.py:1010-1025: `PSGuid(None)`,
`PSDecimal(None)`, `PSSingle(None)` and `PSDouble(None)` raise. -/
def readText {α : Type} (f : PyStr → Except Err α) (text : PyStr) : Except Err α :=
  if text = [] then .error .typeError else f text

/-- `PSChar(int(element_text))`, /repo/src/psrpcore/types/_serializer.py:1000-1001. -/
def readChar (text : PyStr) : Except Err Prim :=
  match intOfText text with
  | .ok v => (charOfInt v).map .char
  | .error e => .error e

/-- `value.find(element_key)` and its text, `none` if there is no element or no text,
/repo/src/psrpcore/types/_serializer.py:432-434. -/
def findText (kids : List Xml) (t : Tag) : Option PyStr :=
  match kids.find? (·.tag = t) with
  | none => none
  | some x => if x.text = [] then none else some x.text

/-- A property of type `int`, /repo/src/psrpcore/types/_serializer.py:437-438, and its conversion to
`PSInt` (/repo/src/psrpcore/types/_base.py:367-371). `none`: not given. -/
def readProgressInt (kids : List Xml) (t : Tag) : Except Err (Option Int) :=
  match findText kids t with
  | none => .ok none
  | some s =>
    match intOfText s with
    | .error e => .error e
    | .ok v => (IntKind.psInt.new (.number v)).map some

/-- A property of type `str`, /repo/src/psrpcore/types/_serializer.py:440-441. -/
def readProgressText (kids : List Xml) (t : Tag) : Except Err (Option PyStr) :=
  match findText kids t with
  | none => .ok none
  | some s => (deserializeString s).map some

/-- `ProgressRecordType[name]`, /repo/src/psrpcore/types/_serializer.py:443-444. -/
def readProgressType (kids : List Xml) : Except Err Bool :=
  match readProgressText kids .T with
  | .error e => .error e
  | .ok none => .ok false
  | .ok (some s) =>
    if s = txt! "Processing" then .ok false else if s = txt! "Completed" then .ok true else .error .keyError

/-- `ProgressRecord(**record_kwargs)`, /repo/src/psrpcore/types/_serializer.py:448,
/repo/src/psrpcore/types/_base.py:608-613: the first three are mandatory. -/
def newProgress (id : Option Int) (activity status operation : Option PyStr) (parent percent : Option Int)
    (completed : Bool) (seconds : Option Int) : Except Err Progress :=
  match id, activity, status with
  | some i, some a, some d =>
    .ok { activityId := some i, activity := a, status := d, operation := operation,
          parentId := some (parent.getD (-1)), percent := some (percent.getD (-1)), completed := completed,
          seconds := some (seconds.getD (-1)) }
  | _, _, _ => .error .typeError

/-- `_deserialize_progress_record`, /repo/src/psrpcore/types/_serializer.py:406-448. The conversions to
`PSInt` take place in line 448; of several errors another one may be raised first. -/
def readProgress (kids : List Xml) : Except Err Progress :=
  match readProgressText kids .AV with
  | .error e => .error e
  | .ok activity =>
    match readProgressInt kids .AI with
    | .error e => .error e
    | .ok id =>
      match readProgressText kids .S with
      | .error e => .error e
      | .ok operation =>
        match readProgressInt kids .PI with
        | .error e => .error e
        | .ok parent =>
          match readProgressInt kids .PC with
          | .error e => .error e
          | .ok percent =>
            match readProgressType kids with
            | .error e => .error e
            | .ok completed =>
              match readProgressInt kids .SR with
              | .error e => .error e
              | .ok seconds =>
                match readProgressText kids .SD with
                | .error e => .error e
                | .ok status => newProgress id activity status operation parent percent completed seconds

/-- Reading the element of a primitive, /repo/src/psrpcore/types/_serializer.py:992-1038; `none` for the
other tags. -/
def readPrim (E : TextEnv) (tag : Tag) (text : PyStr) (kids : List Xml) : Option (Except Err Prim) :=
  match tag with
  | .PR => some ((readProgress kids).map .progress)
  | .SS => some (.ok (.secure text))
  | .BA => some ((b64decode text).map .bytes)
  | .C => some (readChar text)
  | .DT => some ((deserializeDateTime text).map .date)
  | .TS => some ((deserializeDuration E.uni text).map .duration)
  | .int k => some (readInt k text)
  | .D => some ((readText decimalOfText text).map .decimal)
  | .Db => some ((readText floatOfText text).map (.float .double))
  | .Sg => some ((readText floatOfText text).map (.float .single))
  | .G => some ((readText guidOfText text).map .guid)
  | .Version => some ((PSVersion.parse E.uni text).map .version)
  | .S => some ((deserializeString text).map (.str .string))
  | .URI => some ((deserializeString text).map (.str .uri))
  | .XD => some ((deserializeString text).map (.str .xml))
  | .SBK => some ((deserializeString text).map (.str .script))
  | _ => none

/-! ## The objects to serialize -/

/-- A value: `None`, a bool, a primitive without properties, or an object by its address
(/repo/src/psrpcore/types/_serializer.py:670-692). -/
inductive PVal
  | nil
  | bool (b : Bool)
  | prim (p : Prim)
  | ref (a : Nat)
deriving DecidableEq, Repr

/-- `PSListBase` and `list`, `PSStackBase`, `PSIEnumerable`,
/repo/src/psrpcore/types/_serializer.py:895-903. -/
inductive ListKind
  | list | stack | ienum
deriving DecidableEq, Repr

/-- The tag of a list, /repo/src/psrpcore/types/_serializer.py:896-903. -/
def ListKind.tag : ListKind → Tag
  | list => .LST
  | stack => .STK
  | ienum => .IE

/-- What an object is besides its properties, /repo/src/psrpcore/types/_serializer.py:693-815, 895-932. -/
inductive Data
  /-- just properties -/
  | none
  /-- a primitive with properties -/
  | ext (p : Prim)
  /-- an enum member with its value -/
  | enum (p : Prim)
  | list (k : ListKind) (items : List PVal)
  | queue (items : List PVal)
  | dict (entries : List (PVal × PVal))
deriving DecidableEq, Repr

/-- An object, with the `PSObjectMeta` it is serialized with
(/repo/src/psrpcore/types/_serializer.py:842-860). `key` is what `_get_ref_id` looks it up by: objects
that are equal as keys of a `WeakKeyDictionary` (or the same enum member) have the same `key`; `none` is
an object that is not hashable or has no weak references (/repo/src/psrpcore/types/_serializer.py:1184-1192).
`toStr` is `to_string`, of an enum member the text `_serialize_enum_to_string` makes (line 937). -/
structure PObj where
  key : Option Nat := none
  data : Data := .none
  types : List PyStr := []
  toStr : Option PyStr := none
  adapted : List (PyStr × PVal) := []
  extended : List (PyStr × PVal) := []
deriving DecidableEq, Repr

/-- The objects by address, /repo/src/psrpcore/types/_serializer.py:670. -/
abbrev Heap := Nat → PObj

/-- The attributes of a `_Serializer` that serializes, /repo/src/psrpcore/types/_serializer.py:655-659:
`_obj_ref` and `_obj_ref_enum` are one dict here. `drained` has the queues that were emptied
(line 914). -/
structure SState where
  objRef : Dict Nat Nat := []
  nextId : Nat := 0
  tnRefs : List PyStr := []
  drained : List Nat := []
deriving DecidableEq, Repr

/-- `_get_ref_id`, /repo/src/psrpcore/types/_serializer.py:1177-1199. -/
def getRefId (key : Option Nat) (s : SState) : Nat × Bool × SState :=
  match key with
  | none => (s.nextId, false, { s with nextId := s.nextId + 1 })
  | some k =>
    match s.objRef.get? k with
    | some r =>
      if s.nextId = r then (r, false, { s with nextId := s.nextId + 1 }) else (r, true, s)
    | none =>
      (s.nextId, false, { s with objRef := s.objRef.set k s.nextId, nextId := s.nextId + 1 })

/-- The `TN` or `TNRef` element, /repo/src/psrpcore/types/_serializer.py:863-878. -/
def serTypes (types : List PyStr) (s : SState) : List Xml × SState :=
  match types with
  | [] => ([], s)
  | main :: _ =>
    if s.tnRefs.contains main then
      ([.node .TNRef { refId := some (natStr (s.tnRefs.idxOf main)) } [] []], s)
    else
      let refs := s.tnRefs ++ [main]
      ([.node .TN { refId := some (natStr (refs.idxOf main)) } [] (types.map fun t => .node .T {} t [])],
       { s with tnRefs := refs })

/-- The elements of the properties of one group, with `f` as `self.serialize`,
/repo/src/psrpcore/types/_serializer.py:888-893. -/
def serProps (f : PVal → SState → Except Err (Xml × SState)) :
    List (PyStr × PVal) → SState → Except Err (List Xml × SState)
  | [], s => .ok ([], s)
  | (n, v) :: ps, s =>
    match f v s with
    | .error e => .error e
    | .ok (x, s) =>
      match serProps f ps s with
      | .error e => .error e
      | .ok (xs, s) => .ok (x.setName (serializeString n) :: xs, s)

/-- A group of properties, which is left out when empty,
/repo/src/psrpcore/types/_serializer.py:881-893. -/
def serGroup (f : PVal → SState → Except Err (Xml × SState)) (tag : Tag) (ps : List (PyStr × PVal))
    (s : SState) : Except Err (List Xml × SState) :=
  if ps = [] then .ok ([], s)
  else match serProps f ps s with
    | .error e => .error e
    | .ok (xs, s) => .ok ([.node tag {} [] xs], s)

/-- The entries of a list or queue, /repo/src/psrpcore/types/_serializer.py:906-907, 912-918. -/
def serItems (f : PVal → SState → Except Err (Xml × SState)) :
    List PVal → SState → Except Err (List Xml × SState)
  | [], s => .ok ([], s)
  | v :: vs, s =>
    match f v s with
    | .error e => .error e
    | .ok (x, s) =>
      match serItems f vs s with
      | .error e => .error e
      | .ok (xs, s) => .ok (x :: xs, s)

/-- The entries of a dict, /repo/src/psrpcore/types/_serializer.py:923-932. -/
def serEntries (f : PVal → SState → Except Err (Xml × SState)) :
    List (PVal × PVal) → SState → Except Err (List Xml × SState)
  | [], s => .ok ([], s)
  | (k, v) :: es, s =>
    match f k s with
    | .error e => .error e
    | .ok (xk, s) =>
      match f v s with
      | .error e => .error e
      | .ok (xv, s) =>
        match serEntries f es s with
        | .error e => .error e
        | .ok (xs, s) =>
          .ok (.node .En {} [] [xk.setName (txt! "Key"), xv.setName (txt! "Value")] :: xs, s)

/-- `if to_string:`, /repo/src/psrpcore/types/_serializer.py:935-943. -/
def serString (toStr : Option PyStr) : List Xml :=
  match toStr with
  | none => []
  | some t => if t = [] then [] else [.node .ToString {} t []]

/-- The content of containers, the string form of other objects,
/repo/src/psrpcore/types/_serializer.py:895-943. A queue is emptied at once here; the code takes out one
entry after another, which is the same as nothing else empties it meanwhile. -/
def serContent (f : PVal → SState → Except Err (Xml × SState)) (a : Nat) (o : PObj) (s : SState) :
    Except Err (List Xml × SState) :=
  match o.data with
  | .list k items =>
    match serItems f items s with
    | .error e => .error e
    | .ok (xs, s) => .ok ([.node k.tag {} [] xs], s)
  | .queue items =>
    match serItems f (if s.drained.contains a then [] else items) { s with drained := a :: s.drained } with
    | .error e => .error e
    | .ok (xs, s) => .ok ([.node .QUE {} [] xs], s)
  | .dict entries =>
    match serEntries f entries s with
    | .error e => .error e
    | .ok (xs, s) => .ok ([.node .DCT {} [] xs], s)
  | .ext _ => .ok ([], s)
  | .enum _ => .ok (serString o.toStr, s)
  | .none => .ok (serString o.toStr, s)

/-- The element inside the `Obj` of an extended primitive or an enum,
/repo/src/psrpcore/types/_serializer.py:697-792, 836-840. -/
def serSub (E : TextEnv) : Data → List Xml
  | .ext p => [primXml E p]
  | .enum p => [primXml E p]
  | _ => []

/-- The type names are not written for extended primitives,
/repo/src/psrpcore/types/_serializer.py:863. -/
def writtenTypes (o : PObj) : List PyStr :=
  match o.data with
  | .ext _ => []
  | _ => o.types

/-- How many adapted properties are written in the element of the primitive itself,
/repo/src/psrpcore/types/_serializer.py:811-823. -/
def Prim.ownProps : Prim → Nat
  | .progress _ => 8
  | _ => 0

/-- A primitive object that has no further properties, /repo/src/psrpcore/types/_serializer.py:811-826. -/
def bareExt (o : PObj) : Option Prim :=
  match o.data with
  | .ext p => if o.adapted.length ≤ p.ownProps ∧ o.extended = [] then some p else none
  | _ => none

/-- The `Obj` element after its reference id is known, /repo/src/psrpcore/types/_serializer.py:832-968. -/
def serBody (E : TextEnv) (f : PVal → SState → Except Err (Xml × SState)) (a r : Nat) (o : PObj)
    (s : SState) : Except Err (Xml × SState) :=
  match serGroup f .Props o.adapted (serTypes (writtenTypes o) s).2 with
  | .error e => .error e
  | .ok (ps, s1) =>
    match serGroup f .MS o.extended s1 with
    | .error e => .error e
    | .ok (ms, s2) =>
      match serContent f a o s2 with
      | .error e => .error e
      | .ok (c, s3) =>
        .ok (.node .Obj { refId := some (natStr r) } []
          (serSub E o.data ++ (serTypes (writtenTypes o) s).1 ++ ps ++ ms ++ c), s3)

/-- `serialize` of an object, /repo/src/psrpcore/types/_serializer.py:817-968. -/
def serObj (E : TextEnv) (f : PVal → SState → Except Err (Xml × SState)) (a : Nat) (o : PObj) (s : SState) :
    Except Err (Xml × SState) :=
  match bareExt o with
  | some p => .ok (primXml E p, s)
  | none =>
    if (getRefId o.key s).2.1 then
      .ok (.node .Ref { refId := some (natStr (getRefId o.key s).1) } [] [], (getRefId o.key s).2.2)
    else serBody E f a (getRefId o.key s).1 o (getRefId o.key s).2.2

/-- `serialize`, /repo/src/psrpcore/types/_serializer.py:670-968; the number bounds the depth as Python's
recursion limit does. The values of enum members are serialized without a further step. -/
def ser (E : TextEnv) (H : Heap) : Nat → PVal → SState → Except Err (Xml × SState)
  | 0, _, _ => .error .recursionError
  | _ + 1, .nil, s => .ok (.node .Nil {} [] [], s)
  | _ + 1, .bool b, s => .ok (.node .B {} (if b then txt! "true" else txt! "false") [], s)
  | _ + 1, .prim p, s => .ok (primXml E p, s)
  | n + 1, .ref a, s => serObj E (ser E H n) a (H a) s

/-! ## Reading -/

/-- A value made by `deserialize`: an object is known by its address on the new heap
(/repo/src/psrpcore/types/_serializer.py:970-973). -/
inductive DVal
  | nil
  | bool (b : Bool)
  | prim (p : Prim)
  | ref (b : Nat)
deriving DecidableEq, Repr

/-- What a new object is besides its properties, /repo/src/psrpcore/types/_serializer.py:1086-1146. -/
inductive DData
  | none
  | prim (p : Prim)
  | list (items : List DVal)
  | queue (items : List DVal)
  | dict (entries : List (DVal × DVal))
deriving DecidableEq, Repr

/-- A new object: the class it is an instance of (`none` is `PSObject`), its data, and its
`PSObjectMeta` with note properties. -/
structure DObj where
  cls : Option PyStr := none
  data : DData := .none
  types : List PyStr := []
  toStr : Option PyStr := none
  adapted : List (PyStr × DVal) := []
  extended : List (PyStr × DVal) := []
deriving DecidableEq, Repr

/-- What the classes of the library are, /repo/src/psrpcore/types/_collection.py:17-250,
/repo/src/psrpcore/types/_enum.py:74-109: an enum class has the values of its members by the ints they are
equal to. -/
inductive ClassKind
  | object
  | prim
  | enum (member : Int → Option Prim)
  | list (k : ListKind)
  | queue
  | dict

/-- The kind of a class and the names of the properties its instances start with,
/repo/src/psrpcore/types/_base.py:565-579. Those in `preset` do not start with `None`: they have another
default value or are computed from others (/repo/src/psrpcore/types/_base.py:422-545). -/
structure ClassInfo where
  kind : ClassKind := .object
  adapted : List PyStr := []
  extended : List PyStr := []
  preset : List PyStr := []

/-- The registered classes, /repo/src/psrpcore/types/_base.py:48-84. -/
structure Lib where
  reg : Registry
  info : PyStr → ClassInfo

/-- `cls.PSObject.type_names`, /repo/src/psrpcore/types/_base.py:559-563. -/
def Lib.names (L : Lib) (cls : PyStr) : List PyStr := (L.reg.classes.get? cls).getD []

/-- What a new instance holds, /repo/src/psrpcore/types/_collection.py:71-73, 132-138. -/
def ClassKind.blank : ClassKind → DData
  | .list _ => .list []
  | .queue => .queue []
  | .dict => .dict []
  | _ => .none

/-- A new instance of a class, /repo/src/psrpcore/types/_base.py:77, 565-579. The values of its properties
are defaults, here `None`; those in `preset` really have other values, and the theorems ask for them to be
given by what is read (`DeclaredOk`). -/
def Lib.instance (L : Lib) (cls : PyStr) : DObj where
  cls := some cls
  data := (L.info cls).kind.blank
  types := L.names cls
  adapted := (L.info cls).adapted.map fun n => (n, DVal.nil)
  extended := (L.info cls).extended.map fun n => (n, DVal.nil)

/-- The class of a list, /repo/src/psrpcore/types/_serializer.py:1118-1125. -/
def ListKind.cls : ListKind → PyStr
  | list => txt! "PSList"
  | stack => txt! "PSStack"
  | ienum => txt! "PSIEnumerable"

/-- The class of a primitive that was read, /repo/src/psrpcore/types/_serializer.py:992-1035. -/
def Prim.cls : Prim → PyStr
  | .int .psByte _ => txt! "PSByte"
  | .int .psSByte _ => txt! "PSSByte"
  | .int .psUInt16 _ => txt! "PSUInt16"
  | .int .psInt16 _ => txt! "PSInt16"
  | .int .psUInt _ => txt! "PSUInt"
  | .int .psInt _ => txt! "PSInt"
  | .int .psUInt64 _ => txt! "PSUInt64"
  | .int .psInt64 _ => txt! "PSInt64"
  | .plainInt _ => txt! "int"
  | .char _ => txt! "PSChar"
  | .str .string _ => txt! "PSString"
  | .str .uri _ => txt! "PSUri"
  | .str .xml _ => txt! "PSXml"
  | .str .script _ => txt! "PSScriptBlock"
  | .bytes _ => txt! "PSByteArray"
  | .date _ => txt! "PSDateTime"
  | .duration _ => txt! "PSDuration"
  | .version _ => txt! "PSVersion"
  | .guid _ => txt! "PSGuid"
  | .decimal _ => txt! "PSDecimal"
  | .float .double _ => txt! "PSDouble"
  | .float .single _ => txt! "PSSingle"
  | .secure _ => txt! "PSSecureString"
  | .progress _ => txt! "ProgressRecord"

/-- The attributes of a `_Serializer` that deserializes, /repo/src/psrpcore/types/_serializer.py:661-663,
and the objects made so far. `shared` is not part of the serializer: it has the `PSObjectMeta` of the enum
classes that were changed since they were declared. The members of an enum have no `PSObjectMeta` of their
own, since `PSEnumMeta` replaces `__new__` (/repo/src/psrpcore/types/_enum.py:53-60); the one of the class is
kept for as long as Python runs. -/
structure DState where
  heap : List DObj := []
  objMap : Dict PyStr DVal := []
  tnMap : Dict PyStr (List PyStr) := []
  shared : Dict PyStr DObj := []
deriving DecidableEq, Repr

/-- `issubclass(cls, (PSEnumBase, PSFlagBase))`, /repo/src/psrpcore/types/_serializer.py:1068. -/
def ClassKind.isEnum : ClassKind → Bool
  | .enum _ => true
  | _ => false

/-- The class of an enum member, whose `PSObjectMeta` is that of the class
(/repo/src/psrpcore/types/_enum.py:53-60). -/
def Lib.enumClass (L : Lib) (d : DObj) : Option PyStr :=
  match d.cls with
  | some c => if (L.info c).kind.isEnum then some c else none
  | none => none

namespace DState

/-- A new object, /repo/src/psrpcore/types/_serializer.py:1059, 1091, 1106, 1130. -/
def alloc (s : DState) (d : DObj) : DState := { s with heap := s.heap ++ [d] }

/-- `_update_value_ref`, /repo/src/psrpcore/types/_serializer.py:1201-1210. -/
def register (s : DState) (refId : Option PyStr) (v : DVal) : DState :=
  match refId with
  | none => s
  | some r => if v = .nil then s else { s with objMap := s.objMap.set r v }

/-- A change of an object, /repo/src/psrpcore/types/_serializer.py:1102, 1109, 1132. -/
def update (s : DState) (b : Nat) (g : DObj → DObj) : DState := { s with heap := s.heap.modify b g }

/-- `cls.PSObject` of an enum class: as declared, or as it was changed
(/repo/src/psrpcore/types/_base.py:559-563). -/
def classMeta (s : DState) (L : Lib) (c : PyStr) : DObj := (s.shared.get? c).getD (L.instance c)

/-- What Python shows of the object at an address: an enum member has the type names, the string form and
the properties of its class (/repo/src/psrpcore/types/_base.py:636-666). -/
def shown (s : DState) (L : Lib) (d : DObj) : DObj :=
  match L.enumClass d with
  | some c => { s.classMeta L c with cls := d.cls, data := d.data }
  | none => d

/-- A change of `value.PSObject`, /repo/src/psrpcore/types/_serializer.py:1141, 1149, 1154, 1167: that of an
enum member is the one of its class. -/
def edit (s : DState) (L : Lib) (b : Nat) (g : DObj → DObj) : DState :=
  match s.heap[b]? with
  | none => s
  | some d =>
    match L.enumClass d with
    | some c => { s with shared := s.shared.set c (g (s.classMeta L c)) }
    | none => s.update b g

end DState

/-- What a value is as a key of a dict: Python's `hash` and `==`
(/repo/src/psrpcore/types/_serializer.py:1102). `nan` is equal to nothing, not even to itself: a NaN, and also a new
object of a class without `__eq__`. -/
inductive HKey
  | nil
  | num (v : Rat)
  | infinity (neg : Bool)
  | nan
  | text (s : PyStr)
  | bytes (b : Bytes)
  | date (aware : Bool) (micros : Int)
  | prim (p : Prim)
  | addr (b : Nat)
deriving DecidableEq, Repr

/-- A number with a sign, for `==` of numbers (/repo/src/psrpcore/types/_serializer.py:1102, 1138). -/
def signedRat (neg : Bool) (num den : Nat) : Rat := mkRat (if neg then -(num : Int) else num) den

/-- The key of a decimal: the number it is. A signaling NaN has no hash
(/repo/src/psrpcore/types/_serializer.py:1102). -/
def PyDecimal.hashKey : PyDecimal → Except Err HKey
  | finite neg coeff exp => .ok (.num (signedRat neg (coeff * 10 ^ exp.toNat) (10 ^ (-exp).toNat)))
  | infinity neg => .ok (.infinity neg)
  | nan _ signaling _ => if signaling then .error .typeError else .ok .nan

/-- The key of a float: the number it is (/repo/src/psrpcore/types/_serializer.py:1102). -/
def PyFloat.hashKey : PyFloat → HKey
  | finite neg units => .num (signedRat neg units unitsPerOne)
  | infinity neg => .infinity neg
  | nan => .nan

/-- The key of a primitive: numbers are equal across classes, and so are texts. `PSDuration` and `PSVersion`
define `__eq__` without `__hash__` and are not hashable (/repo/src/psrpcore/types/_primitive.py:534, 1059).
Dates are equal if both or neither have a time zone and the microseconds agree. `PSSecureString` and `ProgressRecord` have no
`__eq__` (/repo/src/psrpcore/types/_primitive.py:1159-1239, /repo/src/psrpcore/types/_complex.py:371-470): such an object
is equal to itself only, and without an `Obj` element there is no second reference to it. -/
def Prim.hashKey : Prim → Except Err HKey
  | .int _ v => .ok (.num v)
  | .plainInt v => .ok (.num v)
  | .char c => .ok (.num c)
  | .str _ s => .ok (.text s)
  | .bytes b => .ok (.bytes b)
  | .decimal d => d.hashKey
  | .float _ x => .ok x.hashKey
  | .date v => .ok (.date v.offset.isSome v.micros)
  | .duration _ => .error .typeError
  | .version _ => .error .typeError
  | .secure _ => .ok .nan
  | .progress _ => .ok .nan
  | p => .ok (.prim p)

/-- The key of an object, by what it is (/repo/src/psrpcore/types/_serializer.py:1102): lists and dicts are
not hashable. A key that is the same object is found before it is compared, even if it is a NaN. -/
def DObj.hashKey (b : Nat) (d : DObj) : Except Err HKey :=
  match d.data with
  | .prim p =>
    match p.hashKey with
    | .ok .nan => .ok (.addr b)
    | r => r
  | .list _ => .error .typeError
  | .dict _ => .error .typeError
  | _ => .ok (.addr b)

/-- The key of a value, /repo/src/psrpcore/types/_serializer.py:1102. -/
def hashKey (s : DState) : DVal → Except Err HKey
  | .nil => .ok .nil
  | .bool b => .ok (.num (if b then 1 else 0))
  | .prim p => p.hashKey
  | .ref b =>
    match s.heap[b]? with
    | some d => d.hashKey b
    | none => .error .keyError

/-- `value[key] = v` of a dict, /repo/src/psrpcore/types/_serializer.py:1102: an equal key stays and gets
the new value. A NaN is a new key. -/
def dictSet (s : DState) (h : HKey) (k v : DVal) : List (DVal × DVal) → List (DVal × DVal)
  | [] => [(k, v)]
  | (k', v') :: es =>
    if hashKey s k' = .ok h ∧ h ≠ .nan then (k', v) :: es else (k', v') :: dictSet s h k v es

/-- `element.attrib[...]`, /repo/src/psrpcore/types/_serializer.py:980, 1048, 1054, 1165. -/
def getAttrib (a : Option PyStr) : Except Err PyStr :=
  match a with
  | some s => .ok s
  | none => .error .keyError

/-- The texts of `element.findall("TN/T")`, /repo/src/psrpcore/types/_serializer.py:1044. -/
def findTypes (kids : List Xml) : List PyStr :=
  ((kids.filter (·.tag = .TN)).flatMap fun x => x.kids.filter (·.tag = .T)).map Xml.text

/-- The type names of an `Obj` element, /repo/src/psrpcore/types/_serializer.py:1044-1055. -/
def readTypes (kids : List Xml) (s : DState) : Except Err (List PyStr × DState) :=
  if findTypes kids ≠ [] then
    match kids.find? (·.tag = .TN) with
    | none => .ok (findTypes kids, s)
    | some x =>
      match getAttrib x.attrs.refId with
      | .error e => .error e
      | .ok r => .ok (findTypes kids, { s with tnMap := s.tnMap.set r (findTypes kids) })
  else
    match kids.find? (·.tag = .TNRef) with
    | none => .ok ([], s)
    | some x =>
      match getAttrib x.attrs.refId with
      | .error e => .error e
      | .ok r =>
        match s.tnMap.get? r with
        | none => .error .keyError
        | some ts => .ok (ts, s)

/-- What `rehydrate` gives here: a value, or an enum class that waits for its value
(/repo/src/psrpcore/types/_serializer.py:1059-1069). -/
inductive Start
  | value (d : DObj)
  | enum (cls : PyStr) (member : Int → Option Prim)

/-- The start of an object, /repo/src/psrpcore/types/_serializer.py:1059. -/
def Lib.start (L : Lib) (types : List PyStr) : Start :=
  match L.reg.rehydrate types with
  | .plain ns => .value { types := ns }
  | .instance_ c =>
    match (L.info c).kind with
    | .enum m => .enum c m
    | _ => .value (L.instance c)

/-- `original_type_names`, /repo/src/psrpcore/types/_serializer.py:1061-1069. -/
def Lib.startNames (L : Lib) (types : List PyStr) (s : DState) : List PyStr :=
  match L.reg.rehydrate types with
  | .plain ns => ns
  | .instance_ c => if (L.info c).kind.isEnum then (s.classMeta L c).types else L.names c

/-- The local variables of the loop over the children, /repo/src/psrpcore/types/_serializer.py:1060-1075.
`value` is `none` while the variable is not bound. -/
structure Cur where
  value : Option Nat
  toStr : Option PyStr := none
  props : List Xml := []
  ms : List Xml := []

/-- The class of the current value, if its kind passes a test
(/repo/src/psrpcore/types/_serializer.py:1088-1089, 1105, 1127-1128). Without a bound value Python raises
`UnboundLocalError`. -/
def currentClass (L : Lib) (test : ClassKind → Bool) (c : Cur) (s : DState) :
    Except Err (Option (Nat × PyStr)) :=
  match c.value with
  | none => .error (.raised 0)
  | some b =>
    match s.heap[b]? with
    | none => .ok none
    | some d =>
      match d.cls with
      | none => .ok none
      | some cls => .ok (if test (L.info cls).kind then some (b, cls) else none)

/-- `isinstance(value, PSDictBase)`, /repo/src/psrpcore/types/_serializer.py:1088. -/
def ClassKind.isDict : ClassKind → Bool
  | .dict => true
  | _ => false

/-- `isinstance(value, PSQueueBase)`, /repo/src/psrpcore/types/_serializer.py:1105. -/
def ClassKind.isQueue : ClassKind → Bool
  | .queue => true
  | _ => false

/-- `isinstance(value, _PSListBase)`, /repo/src/psrpcore/types/_serializer.py:1127. -/
def ClassKind.isList : ClassKind → Bool
  | .list _ => true
  | _ => false

/-- `value.append(...)`, `value.put(...)`, /repo/src/psrpcore/types/_serializer.py:1109, 1132. -/
def DData.push (v : DVal) : DData → DData
  | .list l => .list (l ++ [v])
  | .queue l => .queue (l ++ [v])
  | d => d

/-- The loop over the entries of a list or queue, with `g` as `self.deserialize`,
/repo/src/psrpcore/types/_serializer.py:1108-1109, 1131-1132. -/
def readItems (g : Xml → DState → Except Err (DVal × DState)) (b : Nat) :
    List Xml → DState → Except Err DState
  | [], s => .ok s
  | x :: xs, s =>
    match g x s with
    | .error e => .error e
    | .ok (v, s) => readItems g b xs (s.update b fun d => { d with data := d.data.push v })

/-- `dict_entry.find('*/[@N="..."]')`, /repo/src/psrpcore/types/_serializer.py:1094-1100. -/
def findNamed (n : PyStr) (x : Xml) : Except Err Xml :=
  match x.kids.find? (·.attrs.name = some n) with
  | some y => .ok y
  | none => .error .valueError

/-- `value[key] = v` on the object, /repo/src/psrpcore/types/_serializer.py:1102. -/
def DData.put (s : DState) (h : HKey) (k v : DVal) : DData → DData
  | .dict es => .dict (dictSet s h k v es)
  | d => d

/-- The loop over the entries of a dict, /repo/src/psrpcore/types/_serializer.py:1093-1102; Python
evaluates the value before the key. -/
def readEntries (g : Xml → DState → Except Err (DVal × DState)) (b : Nat) :
    List Xml → DState → Except Err DState
  | [], s => .ok s
  | x :: xs, s =>
    match findNamed (txt! "Key") x with
    | .error e => .error e
    | .ok xk =>
      match findNamed (txt! "Value") x with
      | .error e => .error e
      | .ok xv =>
        match g xv s with
        | .error e => .error e
        | .ok (v, s) =>
          match g xk s with
          | .error e => .error e
          | .ok (k, s) =>
            match hashKey s k with
            | .error e => .error e
            | .ok h =>
              readEntries g b xs (s.update b fun d => { d with data := d.data.put s h k v })

/-- A new container in place of the current value, /repo/src/psrpcore/types/_serializer.py:1091, 1106,
1130. -/
def renew (L : Lib) (refId : Option PyStr) (cls : PyStr) (s : DState) : DState :=
  (s.alloc (L.instance cls)).register refId (.ref s.heap.length)

/-- `rehydrated_value(new_value)`, the member with a value equal to the new one
(/repo/src/psrpcore/types/_serializer.py:1138): it may be a float or a decimal. Simplified: a combination of flags that is no
member itself is made of ints only in Python, of 5.0 it is refused; here it is accepted. -/
def memberFor (member : Int → Option Prim) : Except Err HKey → Option Prim
  | .ok (.num n) => if n.den = 1 then member n.num else none
  | _ => none

/-- The element of the value of an extended primitive or enum,
/repo/src/psrpcore/types/_serializer.py:1134-1146. A value of `None` or a bool has no `PSObject`: reading
type names into it raises, the rest of these cases is not modelled. -/
def readSub (L : Lib) (g : Xml → DState → Except Err (DVal × DState)) (types : List PyStr)
    (refId : Option PyStr) (x : Xml) (c : Cur) (s : DState) : Except Err (Cur × DState) :=
  match g x s with
  | .error e => .error e
  | .ok (v, s) =>
    match L.start types with
    | .enum cls member =>
      match memberFor member (hashKey s v) with
      | some p =>
        .ok ({ c with value := some s.heap.length },
          (s.alloc { L.instance cls with data := .prim p }).register refId (.ref s.heap.length))
      | none => .error .valueError
    | .value _ =>
      match c.value with
      | none => .error (.raised 0)
      | some b =>
        let names := ((s.heap[b]?).map fun d => (s.shown L d).types).getD []
        match v with
        | .prim p =>
          .ok ({ c with value := some s.heap.length },
            (s.alloc { L.instance p.cls with
                data := .prim p, types := if names = [] then L.names p.cls else names }).register
              refId (.ref s.heap.length))
        | .ref b' =>
          .ok ({ c with value := some b' },
            (if names = [] then s else s.edit L b' fun d => { d with types := names }).register
              refId (.ref b'))
        | _ => .error .attributeError

/-- The class of the new list, /repo/src/psrpcore/types/_serializer.py:1116-1128. -/
def readList (L : Lib) (g : Xml → DState → Except Err (DVal × DState)) (k : ListKind)
    (refId : Option PyStr) (x : Xml) (c : Cur) (s : DState) : Except Err (Cur × DState) :=
  match currentClass L ClassKind.isList c s with
  | .error e => .error e
  | .ok r =>
    match readItems g s.heap.length x.kids (renew L refId ((r.map Prod.snd).getD k.cls) s) with
    | .error e => .error e
    | .ok s' => .ok ({ c with value := some s.heap.length }, s')

/-- The `QUE` element, /repo/src/psrpcore/types/_serializer.py:1104-1109. -/
def readQueue (L : Lib) (g : Xml → DState → Except Err (DVal × DState)) (refId : Option PyStr) (x : Xml)
    (c : Cur) (s : DState) : Except Err (Cur × DState) :=
  match currentClass L ClassKind.isQueue c s with
  | .error e => .error e
  | .ok (some (b, _)) =>
    match readItems g b x.kids s with
    | .error e => .error e
    | .ok s => .ok (c, s)
  | .ok none =>
    match readItems g s.heap.length x.kids (renew L refId (txt! "PSQueue") s) with
    | .error e => .error e
    | .ok s' => .ok ({ c with value := some s.heap.length }, s')

/-- The `DCT` element, /repo/src/psrpcore/types/_serializer.py:1086-1102. -/
def readDict (L : Lib) (g : Xml → DState → Except Err (DVal × DState)) (refId : Option PyStr) (x : Xml)
    (c : Cur) (s : DState) : Except Err (Cur × DState) :=
  match currentClass L ClassKind.isDict c s with
  | .error e => .error e
  | .ok r =>
    match readEntries g s.heap.length x.kids (renew L refId ((r.map Prod.snd).getD (txt! "PSDict")) s) with
    | .error e => .error e
    | .ok s' => .ok ({ c with value := some s.heap.length }, s')

/-- One child of an `Obj` element, /repo/src/psrpcore/types/_serializer.py:1076-1146. -/
def readChild (L : Lib) (g : Xml → DState → Except Err (DVal × DState)) (types : List PyStr)
    (refId : Option PyStr) (x : Xml) (c : Cur) (s : DState) : Except Err (Cur × DState) :=
  match x.tag with
  | .Props => .ok ({ c with props := x.kids }, s)
  | .MS => .ok ({ c with ms := x.kids }, s)
  | .ToString =>
    match deserializeString x.text with
    | .error e => .error e
    | .ok t => .ok ({ c with toStr := some t }, s)
  | .DCT => readDict L g refId x c s
  | .QUE => readQueue L g refId x c s
  | .IE => readList L g .ienum refId x c s
  | .LST => readList L g .list refId x c s
  | .STK => readList L g .stack refId x c s
  | .TN => .ok (c, s)
  | .TNRef => .ok (c, s)
  | _ => readSub L g types refId x c s

/-- The loop over the children, /repo/src/psrpcore/types/_serializer.py:1076-1146. -/
def readChildren (L : Lib) (g : Xml → DState → Except Err (DVal × DState)) (types : List PyStr)
    (refId : Option PyStr) : List Xml → Cur → DState → Except Err (Cur × DState)
  | [], c, s => .ok (c, s)
  | x :: xs, c, s =>
    match readChild L g types refId x c s with
    | .error e => .error e
    | .ok (c, s) => readChildren L g types refId xs c s

/-- `add_note_property(..., force=True)`, /repo/src/psrpcore/types/_base.py:836-879: the last property of
the name is replaced. -/
def addNote (ps : List (PyStr × DVal)) (n : PyStr) (v : DVal) : List (PyStr × DVal) :=
  if Dict.contains ps n then (Dict.set ps.reverse n v).reverse else ps ++ [(n, v)]

/-- The loop over the properties of one group; `put` adds a property to that group
(/repo/src/psrpcore/types/_serializer.py:1162-1167). -/
def readProps (L : Lib) (g : Xml → DState → Except Err (DVal × DState)) (put : PyStr → DVal → DObj → DObj) (b : Nat) :
    List Xml → DState → Except Err DState
  | [], s => .ok s
  | x :: xs, s =>
    match getAttrib x.attrs.name with
    | .error e => .error e
    | .ok n =>
      match deserializeString n with
      | .error e => .error e
      | .ok n =>
        match g x s with
        | .error e => .error e
        | .ok (v, s) => readProps L g put b xs (s.edit L b (put n v))

/-- A property for the adapted group, /repo/src/psrpcore/types/_serializer.py:1163. -/
def putAdapted (n : PyStr) (v : DVal) (d : DObj) : DObj := { d with adapted := addNote d.adapted n v }
/-- A property for the extended group, /repo/src/psrpcore/types/_serializer.py:1163. -/
def putExtended (n : PyStr) (v : DVal) (d : DObj) : DObj := { d with extended := addNote d.extended n v }

/-- The string form and the type names, /repo/src/psrpcore/types/_serializer.py:1148-1154. -/
def dress (names : List PyStr) (toStr : Option PyStr) (d : DObj) : DObj :=
  { d with toStr := if toStr.isSome then toStr else d.toStr, types := if names = [] then d.types else names }

/-- The end of an `Obj` element, /repo/src/psrpcore/types/_serializer.py:1148-1175. -/
def readFinish (L : Lib) (g : Xml → DState → Except Err (DVal × DState)) (names : List PyStr) (c : Cur) (s : DState) :
    Except Err (DVal × DState) :=
  match c.value with
  | none => .error (.raised 0)
  | some b =>
    match readProps L g putAdapted b c.props (s.edit L b (dress names c.toStr)) with
    | .error e => .error e
    | .ok s =>
      match readProps L g putExtended b c.ms s with
      | .error e => .error e
      | .ok s => .ok (.ref b, s)

/-- The blank value and its registration, /repo/src/psrpcore/types/_serializer.py:1064-1069. -/
def readStart (L : Lib) (types : List PyStr) (refId : Option PyStr) (s : DState) : Cur × DState :=
  match L.start types with
  | .value d => ({ value := some s.heap.length }, (s.alloc d).register refId (.ref s.heap.length))
  | .enum _ _ => ({ value := none }, s)

/-- An `Obj` element, /repo/src/psrpcore/types/_serializer.py:1044-1175. -/
def readObj (L : Lib) (g : Xml → DState → Except Err (DVal × DState)) (x : Xml) (s : DState) :
    Except Err (DVal × DState) :=
  match readTypes x.kids s with
  | .error e => .error e
  | .ok (types, s) =>
    match readChildren L g types x.attrs.refId x.kids (readStart L types x.attrs.refId s).1
        (readStart L types x.attrs.refId s).2 with
    | .error e => .error e
    | .ok (c, s') => readFinish L g (L.startNames types s) c s'

/-- `deserialize`, /repo/src/psrpcore/types/_serializer.py:970-1175; the number bounds the depth as
Python's recursion limit does. -/
def deser (E : TextEnv) (L : Lib) : Nat → Xml → DState → Except Err (DVal × DState)
  | 0, _, _ => .error .recursionError
  | n + 1, x, s =>
    match x.tag with
    | .Ref =>
      match getAttrib x.attrs.refId with
      | .error e => .error e
      | .ok r =>
        match s.objMap.get? r with
        | none => .error .keyError
        | some v => .ok (v, s)
    | .Nil => .ok (.nil, s)
    | .B => .ok (.bool (lowerAscii x.text = txt! "true"), s)
    | .ToString => (deserializeString x.text).map fun t => (.prim (.str .string t), s)
    | .Obj => readObj L (deser E L n) x s
    | t =>
      match readPrim E t x.text x.kids with
      | some (.ok p) => .ok (.prim p, s)
      | some (.error e) => .error e
      | none => .error .valueError

end Verif
