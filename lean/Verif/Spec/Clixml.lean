import Verif.Model.Clixml
import Verif.Spec.Serializer

/-! # What the streams of a document are, what a shell should send (specification for C39 and C40) -/

namespace Verif

/-- The names PowerShell gives to the streams. -/
def ClixmlStream.word : ClixmlStream → PyStr
  | output => txt! "Output"
  | error => txt! "Error"
  | debug => txt! "Debug"
  | verbose => txt! "Verbose"
  | warning => txt! "Warning"
  | progress => txt! "Progress"
  | information => txt! "Information"

/-- An `S` attribute names a stream, in capital or small letters. -/
def Names (a : Option PyStr) (st : ClixmlStream) : Prop := ∃ t, a = some t ∧ CaseEq t st.word

/-- The stream an element belongs to: the one it names, or output if it names none. -/
def StreamOf (a : Option PyStr) (st : ClixmlStream) : Prop := Names a st ∨ st = .output ∧ ∀ st', ¬ Names a st'

/-- The list of a stream. -/
def ClixmlOut.of (out : ClixmlOut) : ClixmlStream → List Item
  | .output => out.output
  | .error => out.error
  | .debug => out.debug
  | .verbose => out.verbose
  | .warning => out.warning
  | .progress => out.progress
  | .information => out.information

/-- What becomes of an object of a stream: debug, verbose and warning texts become records, errors that
are no error records as well, of progress objects there is the record, other objects are kept. -/
def Becomes (str : List DObj → DVal → PyStr) (heap : List DObj) : ClixmlStream → DVal → Item → Prop
  | .output, v, i => i = .obj heap v
  | .information, v, i => i = .obj heap v
  | .error, v, i => i = if isErrorRecord heap v then .obj heap v else .record (str heap v)
  | .debug, v, i => i = .record (str heap v)
  | .verbose, v, i => i = .record (str heap v)
  | .warning, v, i => i = .record (str heap v)
  | .progress, v, i => ∃ r, recordOf heap v = .ok r ∧ i = .obj heap r

/-- The objects of a stream over some documents, in document order and with the heap of the document. -/
def ofStream (docs : List (List (DVal × ClixmlStream) × DState)) (st : ClixmlStream) : List (List DObj × DVal) :=
  docs.flatMap fun d => (d.1.filter fun e => e.2 = st).map fun e => (d.2.heap, e.1)

/-- The XML library reads what it wrote, for these elements. -/
def XmlText.Faithful (X : XmlText) (kids : List Xml) : Prop :=
  X.parse ((txt! "<Objs>") ++ X.body kids ++ (txt! "</Objs>")) = .ok kids

/-- What becomes of a value written to a stream of a shell, after it was sent, read and sorted. -/
def Delivered (str : List DObj → DVal → PyStr) (H : Heap) (heap : List DObj) (φ : Nat → Option Nat) :
    ClixmlStream → PVal → Item → Prop
  | .output, v, i => ∃ d, VMatch φ v d ∧ i = .obj heap d
  | .information, v, i => ∃ d, VMatch φ v d ∧ i = .obj heap d
  | .error, v, i => ∃ d, VMatch φ v d ∧ i = if isErrorRecord heap d then .obj heap d else .record (str heap d)
  | .debug, v, i => ∃ d, VMatch φ v d ∧ i = .record (str heap d)
  | .verbose, v, i => ∃ d, VMatch φ v d ∧ i = .record (str heap d)
  | .warning, v, i => ∃ d, VMatch φ v d ∧ i = .record (str heap d)
  | .progress, v, i => ∃ a n r d, v = .ref a ∧ H a = progressObj n r ∧ VMatch φ r d ∧ i = .obj heap d

/-- The documents a shell should send: one for the values written since the last one, whenever there are
any and they can be serialized. `waiting` are the values written before. -/
def Docs : List ShellOp → List (PVal × ClixmlStream) → List PyStr
  | [], _ => []
  | .write v st :: ops, waiting => Docs ops (waiting ++ [(v, st)])
  | .send enc :: ops, waiting =>
    if waiting = [] then Docs ops []
    else match enc waiting with
      | .ok d => d :: Docs ops []
      | .error _ => Docs ops waiting

/-- The documents, each one but the first on a new line. -/
def onLines : List PyStr → PyStr
  | [] => []
  | [d] => d
  | d :: ds => d ++ (txt! "\n") ++ onLines ds

/-- The value at a position of a document. -/
def docAt (H : Heap) (vs : List (PVal × Option ClixmlStream)) (i : Nat) (p : List Sel) : Option PVal :=
  match vs[i]? with
  | none => none
  | some v => v.1.at H p

/-- The value at a position of what was read. -/
def readAt (heap : List DObj) (dvs : List (DVal × ClixmlStream)) (i : Nat) (p : List Sel) : Option DVal :=
  match dvs[i]? with
  | none => none
  | some d => d.1.at heap p

/-- The first call of `data_to_send` has something to send and can serialize it. -/
def FirstDelivers : List ShellOp → List (PVal × ClixmlStream) → Prop
  | [], _ => True
  | .write v st :: ops, waiting => FirstDelivers ops (waiting ++ [(v, st)])
  | .send enc :: _, waiting => waiting ≠ [] ∧ ∃ d, enc waiting = .ok d

/-- What the shell should send: nothing as long as there are no documents, then the header and the
documents, each on a line. -/
def withHeader (docs : List PyStr) : PyStr :=
  if docs = [] then [] else (txt! "#< CLIXML\n") ++ onLines docs

end Verif
