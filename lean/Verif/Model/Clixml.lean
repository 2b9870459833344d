import Verif.Model.Serializer

/-!
# CLIXML documents and the shell

Models `serialize_clixml` and `deserialize_clixml`, /repo/src/psrpcore/types/_serializer.py:144-206,
230-302, `ClixmlOutput.from_clixml` and `ClixmlShell`, /repo/src/psrpcore/_clixml_shell.py:195-441.
-/

namespace Verif

/-! ## Streams -/

/-- `ClixmlStream`, /repo/src/psrpcore/types/_serializer.py:621-630. -/
inductive ClixmlStream
  | output | error | debug | verbose | warning | progress | information
deriving DecidableEq, Repr

/-- The value of a member, /repo/src/psrpcore/types/_serializer.py:624-630. -/
def ClixmlStream.value : ClixmlStream → PyStr
  | output => txt! "output"
  | error => txt! "error"
  | debug => txt! "debug"
  | verbose => txt! "verbose"
  | warning => txt! "warning"
  | progress => txt! "progress"
  | information => txt! "information"

/-- The members in order, /repo/src/psrpcore/types/_serializer.py:624-630. -/
def ClixmlStream.all : List ClixmlStream := [.output, .error, .debug, .verbose, .warning, .progress, .information]

/-- `ClixmlStream(value)`, /repo/src/psrpcore/types/_serializer.py:198; `none` is a `ValueError`. -/
def ClixmlStream.ofValue (s : PyStr) : Option ClixmlStream := ClixmlStream.all.find? (·.value = s)

/-! ## Documents as element trees -/

/-- `serialized_value.attrib["S"] = v[1].value` for the tuples with a stream,
/repo/src/psrpcore/types/_serializer.py:292-296. -/
def tagStream (st : Option ClixmlStream) (x : Xml) : Xml :=
  match st with
  | some st => x.setStream st.value
  | none => x

/-- The loop over the values, /repo/src/psrpcore/types/_serializer.py:291-298; a value without a stream is
one that is not such a tuple. -/
def serDoc (E : TextEnv) (H : Heap) (n : Nat) :
    List (PVal × Option ClixmlStream) → SState → Except Err (List Xml × SState)
  | [], s => .ok ([], s)
  | (v, st) :: vs, s =>
    match ser E H n v s with
    | .error e => .error e
    | .ok (x, s) =>
      match serDoc E H n vs s with
      | .error e => .error e
      | .ok (xs, s) => .ok (tagStream st x :: xs, s)

/-- The stream of an element, /repo/src/psrpcore/types/_serializer.py:195-200. Only ASCII letters are made
lower case here: no other character has an ASCII letter of a stream name as its lower case. -/
def readStream (a : Option PyStr) : ClixmlStream :=
  match a with
  | none => .output
  | some t => if t = [] then .output else (ClixmlStream.ofValue (lowerAscii t)).getD .output

/-- The loop over the elements, /repo/src/psrpcore/types/_serializer.py:190-206, with
`preserve_streams=True`. -/
def readDoc (E : TextEnv) (L : Lib) (n : Nat) :
    List Xml → DState → Except Err (List (DVal × ClixmlStream) × DState)
  | [], s => .ok ([], s)
  | x :: xs, s =>
    match deser E L n x s with
    | .error e => .error e
    | .ok (v, s) =>
      match readDoc E L n xs s with
      | .error e => .error e
      | .ok (vs, s) => .ok ((v, readStream x.attrs.stream) :: vs, s)

/-! ## Documents as texts -/

/-- `ElementTree.tostring` of some elements and `ElementTree.fromstring` of a text with root `Objs`, as the
children of the root (/repo/src/psrpcore/types/_serializer.py:189, 300). -/
structure XmlText where
  body : List Xml → PyStr
  parse : PyStr → Except Err (List Xml)

/-- `ElementTree.tostring(objs)`, /repo/src/psrpcore/types/_serializer.py:279-285, 300: the root without
children has no end tag. -/
def rootText (X : XmlText) (kids : List Xml) : PyStr :=
  (txt! "<Objs Version=\"1.1.0.1\" xmlns=\"http://schemas.microsoft.com/powershell/2004/04\"") ++
    if kids = [] then txt! " />" else (txt! ">") ++ X.body kids ++ (txt! "</Objs>")

/-- `serialize_clixml`, /repo/src/psrpcore/types/_serializer.py:230-302. -/
def serializeClixml (E : TextEnv) (X : XmlText) (H : Heap) (n : Nat) (vs : List (PVal × Option ClixmlStream)) :
    Except Err PyStr :=
  match serDoc E H n vs {} with
  | .error e => .error e
  | .ok (xs, _) => .ok (rootText X xs)

/-- `clixml[9:].lstrip("\r\n")` after the header, /repo/src/psrpcore/types/_serializer.py:179-181. -/
def stripHeader (s : PyStr) : PyStr :=
  if (txt! "#< CLIXML").isPrefixOf s then (s.drop 9).dropWhile fun c => c = 13 ∨ c = 10 else s

/-- `clixml[clixml.find(">"):]`, /repo/src/psrpcore/types/_serializer.py:186-187: `find` gives -1, that is
the last character, if there is none. -/
def fromRootEnd (s : PyStr) : PyStr :=
  if s.contains 62 then s.drop (s.idxOf 62) else s.drop (s.length - 1)

/-- `deserialize_clixml`, /repo/src/psrpcore/types/_serializer.py:144-206. -/
def deserializeClixml (E : TextEnv) (L : Lib) (X : XmlText) (n : Nat) (text : PyStr) :
    Except Err (List (DVal × ClixmlStream) × DState) :=
  match X.parse ((txt! "<Objs") ++ fromRootEnd (stripHeader text)) with
  | .error e => .error e
  | .ok xs => readDoc E L n xs {}

/-! ## Sorting the objects -/

/-- An entry of a list of `ClixmlOutput`: an object of the document with the objects of that document, or a
new record with a message (/repo/src/psrpcore/_clixml_shell.py:227-257). -/
inductive Item
  | obj (heap : List DObj) (v : DVal)
  | record (message : PyStr)
deriving DecidableEq, Repr

/-- `ClixmlOutput`, /repo/src/psrpcore/_clixml_shell.py:174-193. -/
structure ClixmlOut where
  output : List Item := []
  error : List Item := []
  debug : List Item := []
  verbose : List Item := []
  warning : List Item := []
  progress : List Item := []
  information : List Item := []
deriving DecidableEq, Repr

/-- `isinstance(obj, ErrorRecord)`, /repo/src/psrpcore/_clixml_shell.py:228. No class derived from it can
come out of a document. -/
def isErrorRecord (heap : List DObj) : DVal → Bool
  | .ref b =>
    match heap[b]? with
    | some d => d.cls = some (txt! "ErrorRecord")
    | none => false
  | _ => false

/-- `obj.Record`, /repo/src/psrpcore/_clixml_shell.py:251, by the rules of
/repo/src/psrpcore/types/_base.py:663-692: the last property of that name. -/
def recordOf (heap : List DObj) : DVal → Except Err DVal
  | .ref b =>
    match heap[b]? with
    | some d =>
      match ((d.adapted ++ d.extended).filter fun p => p.1 = txt! "Record").getLast? with
      | some p => .ok p.2
      | none => .error .attributeError
    | none => .error .attributeError
  | _ => .error .attributeError

/-- One object of a document, /repo/src/psrpcore/_clixml_shell.py:227-257, with `str` as Python's `str`. -/
def sortObj (str : List DObj → DVal → PyStr) (heap : List DObj) (v : DVal) (st : ClixmlStream) (out : ClixmlOut) :
    Except Err ClixmlOut :=
  match st with
  | .error =>
    if isErrorRecord heap v then .ok { out with error := out.error ++ [.obj heap v] }
    else .ok { out with error := out.error ++ [.record (str heap v)] }
  | .debug => .ok { out with debug := out.debug ++ [.record (str heap v)] }
  | .verbose => .ok { out with verbose := out.verbose ++ [.record (str heap v)] }
  | .warning => .ok { out with warning := out.warning ++ [.record (str heap v)] }
  | .progress =>
    match recordOf heap v with
    | .error e => .error e
    | .ok r => .ok { out with progress := out.progress ++ [.obj heap r] }
  | .information => .ok { out with information := out.information ++ [.obj heap v] }
  | .output => .ok { out with output := out.output ++ [.obj heap v] }

/-- The loop over the objects of a document, /repo/src/psrpcore/_clixml_shell.py:226-257. -/
def sortObjs (str : List DObj → DVal → PyStr) (heap : List DObj) :
    List (DVal × ClixmlStream) → ClixmlOut → Except Err ClixmlOut
  | [], out => .ok out
  | (v, st) :: vs, out =>
    match sortObj str heap v st out with
    | .error e => .error e
    | .ok out => sortObjs str heap vs out

/-- The loop over the documents, with `read` as `deserialize_clixml`,
/repo/src/psrpcore/_clixml_shell.py:221-257. -/
def sortDocs (str : List DObj → DVal → PyStr) (read : PyStr → Except Err (List (DVal × ClixmlStream) × DState)) :
    List PyStr → ClixmlOut → Except Err ClixmlOut
  | [], out => .ok out
  | t :: ts, out =>
    if t = [] then sortDocs str read ts out
    else match read t with
      | .error e => .error e
      | .ok (vs, s) =>
        match sortObjs str s.heap vs out with
        | .error e => .error e
        | .ok out => sortDocs str read ts out

/-- `ClixmlOutput.from_clixml`, /repo/src/psrpcore/_clixml_shell.py:195-259. -/
def fromClixml (str : List DObj → DVal → PyStr) (read : PyStr → Except Err (List (DVal × ClixmlStream) × DState))
    (texts : List PyStr) : Except Err ClixmlOut := sortDocs str read texts {}

/-! ## The shell -/

/-- The attributes of a `ClixmlShell`, /repo/src/psrpcore/_clixml_shell.py:306-309. -/
structure Shell where
  stdout : List (PVal × ClixmlStream) := []
  marker : Bool := false
deriving DecidableEq, Repr

/-- The methods `write_*`, /repo/src/psrpcore/_clixml_shell.py:334-441. -/
def Shell.write (s : Shell) (v : PVal) (st : ClixmlStream) : Shell := { s with stdout := s.stdout ++ [(v, st)] }

/-- The object `write_progress` makes, /repo/src/psrpcore/_clixml_shell.py:424-427. -/
def progressObj (sourceId : Int) (record : PVal) : PObj where
  types := [txt! "System.Object"]
  extended := [(txt! "SourceId", .prim (.int .psInt64 sourceId)), (txt! "Record", record)]

/-- `data_to_send`, /repo/src/psrpcore/_clixml_shell.py:311-332, with `enc` as `serialize_clixml` at that
moment. -/
def Shell.dataToSend (enc : List (PVal × ClixmlStream) → Except Err PyStr) (s : Shell) :
    Shell × Except Err PyStr :=
  let front := if s.marker then txt! "\n" else txt! "#< CLIXML\n"
  let s := { s with marker := true }
  if s.stdout = [] then (s, .ok [])
  else match enc s.stdout with
    | .error e => (s, .error e)
    | .ok d => ({ s with stdout := [] }, .ok (front ++ d))

/-- A call of a method of the shell, /repo/src/psrpcore/_clixml_shell.py:311-441. -/
inductive ShellOp
  | write (v : PVal) (st : ClixmlStream)
  | send (enc : List (PVal × ClixmlStream) → Except Err PyStr)

/-- The strings `data_to_send` gives over a number of calls, put together; calls that raise give none
(/repo/src/psrpcore/_clixml_shell.py:311-441). -/
def Shell.run : List ShellOp → Shell → PyStr
  | [], _ => []
  | .write v st :: ops, s => Shell.run ops (s.write v st)
  | .send enc :: ops, s =>
    match (s.dataToSend enc).2 with
    | .error _ => Shell.run ops (s.dataToSend enc).1
    | .ok t => t ++ Shell.run ops (s.dataToSend enc).1

end Verif
