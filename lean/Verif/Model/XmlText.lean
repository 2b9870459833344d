import Verif.Model.Clixml

/-!
# Elements as XML text

Stands for `ElementTree.tostring` and `ElementTree.fromstring`, as
/repo/src/psrpcore/types/_serializer.py:189, 300 use them. They are part of Python's standard library: the
writer is modelled function by function, the reader by the rules of XML 1.0 for documents without
declarations, comments, processing instructions and CDATA sections, which it refuses.
-/

namespace Verif

/-! ## Writing -/

/-- The characters XML 1.0 has (`Char`, section 2.2), which `fromstring` checks
(/repo/src/psrpcore/types/_serializer.py:189). -/
def xmlChar (c : Nat) : Bool :=
  c = 9 || c = 10 || c = 13 || decide (0x20 ≤ c ∧ c ≤ 0xD7FF) || decide (0xE000 ≤ c ∧ c ≤ 0xFFFD) ||
    decide (0x10000 ≤ c ∧ c ≤ 0x10FFFF)

/-- The name of an element, /repo/src/psrpcore/types/_serializer.py:695-963 and the tags of
/repo/src/psrpcore/types/_primitive.py and _collection.py. `other` is never written. -/
def Tag.name : Tag → PyStr
  | Ref => txt! "Ref" | Nil => txt! "Nil" | B => txt! "B" | ToString => txt! "ToString" | Obj => txt! "Obj"
  | TN => txt! "TN" | T => txt! "T" | TNRef => txt! "TNRef" | Props => txt! "Props" | MS => txt! "MS"
  | DCT => txt! "DCT" | En => txt! "En" | QUE => txt! "QUE" | LST => txt! "LST" | STK => txt! "STK"
  | IE => txt! "IE" | S => txt! "S" | URI => txt! "URI" | XD => txt! "XD" | SBK => txt! "SBK" | BA => txt! "BA"
  | C => txt! "C" | DT => txt! "DT" | TS => txt! "TS" | Version => txt! "Version" | G => txt! "G" | D => txt! "D"
  | Db => txt! "Db" | Sg => txt! "Sg" | SS => txt! "SS" | PR => txt! "PR" | AV => txt! "AV" | AI => txt! "AI"
  | PI => txt! "PI" | PC => txt! "PC" | SR => txt! "SR" | SD => txt! "SD"
  | int .psByte => txt! "By" | int .psSByte => txt! "SB" | int .psUInt16 => txt! "U16" | int .psInt16 => txt! "I16"
  | int .psUInt => txt! "U32" | int .psInt => txt! "I32" | int .psUInt64 => txt! "U64" | int .psInt64 => txt! "I64"
  | other => txt! "Other"

/-- The tags the code knows, /repo/src/psrpcore/types/_serializer.py:976-1076. -/
def Tag.known : List Tag :=
  [.Ref, .Nil, .B, .ToString, .Obj, .TN, .T, .TNRef, .Props, .MS, .DCT, .En, .QUE, .LST, .STK, .IE, .S, .URI, .XD,
   .SBK, .BA, .C, .DT, .TS, .Version, .G, .D, .Db, .Sg, .SS, .PR, .AV, .AI, .PI, .PC, .SR, .SD, .int .psByte,
   .int .psSByte, .int .psUInt16, .int .psInt16, .int .psUInt, .int .psInt, .int .psUInt64, .int .psInt64]

/-- The tag of a name, /repo/src/psrpcore/types/_serializer.py:976. -/
def tagOf (n : PyStr) : Tag := (Tag.known.find? (·.name = n)).getD .other

/-- `ElementTree._escape_cdata` for one character (/repo/src/psrpcore/types/_serializer.py:300). -/
def escText (c : Nat) : PyStr :=
  if c = 38 then txt! "&amp;" else if c = 60 then txt! "&lt;" else if c = 62 then txt! "&gt;" else [c]

/-- `ElementTree._escape_attrib` for one character (/repo/src/psrpcore/types/_serializer.py:300). -/
def escAttr (c : Nat) : PyStr :=
  if c = 34 then txt! "&quot;" else if c = 13 then txt! "&#13;" else if c = 10 then txt! "&#10;"
  else if c = 9 then txt! "&#09;" else escText c

/-- One attribute, `ElementTree._serialize_xml` (/repo/src/psrpcore/types/_serializer.py:300). -/
def writeAttr (n : PyStr) : Option PyStr → PyStr
  | none => []
  | some v => [32] ++ n ++ [61, 34] ++ v.flatMap escAttr ++ [34]

/-- The attributes in the order they are set, /repo/src/psrpcore/types/_serializer.py:294, 830, 892. -/
def writeAttrs (a : Attrs) : PyStr :=
  writeAttr (txt! "RefId") a.refId ++ writeAttr (txt! "N") a.name ++ writeAttr (txt! "S") a.stream

mutual
/-- `ElementTree._serialize_xml` of one element (/repo/src/psrpcore/types/_serializer.py:300). -/
def writeXml : Xml → PyStr
  | .node t a x k =>
    [60] ++ t.name ++ writeAttrs a ++
      if x = [] ∧ k = [] then txt! " />"
      else [62] ++ x.flatMap escText ++ writeAll k ++ [60, 47] ++ t.name ++ [62]
/-- The children, one after another (/repo/src/psrpcore/types/_serializer.py:300). -/
def writeAll : List Xml → PyStr
  | [] => []
  | x :: xs => writeXml x ++ writeAll xs
end

/-! ## Reading -/

/-- White space of XML (`S`, section 2.3) (as `fromstring` reads it,
/repo/src/psrpcore/types/_serializer.py:189). -/
def xmlSpace (c : Nat) : Bool := c = 32 || c = 9 || c = 10 || c = 13

/-- Line ends as XML reads them (section 2.11) (as `fromstring` reads it,
/repo/src/psrpcore/types/_serializer.py:189). -/
def normEol : PyStr → PyStr
  | [] => []
  | [c] => [if c = 13 then 10 else c]
  | c :: d :: s =>
    if c = 13 then if d = 10 then normEol (d :: s) else 10 :: normEol (d :: s) else c :: normEol (d :: s)

/-- The digits of a character reference in decimal (as `fromstring` reads it,
/repo/src/psrpcore/types/_serializer.py:189). -/
def decimalRef (ds : PyStr) : Option Nat :=
  if ds ≠ [] ∧ ds.all (fun c => 48 ≤ c && c ≤ 57) then some (ds.foldl (fun n c => n * 10 + (c - 48)) 0) else none

/-- The digits of a character reference in hexadecimal (as `fromstring` reads it,
/repo/src/psrpcore/types/_serializer.py:189). -/
def hexRef (ds : PyStr) : Option Nat :=
  if ds ≠ [] ∧ ds.all (fun c => (hexVal c).isSome) then some (ds.foldl (fun n c => n * 16 + (hexVal c).getD 0) 0) else none

/-- The character a reference between `&` and `;` stands for (sections 4.1 and 4.6) (as `fromstring` reads it,
/repo/src/psrpcore/types/_serializer.py:189). -/
def entity (e : PyStr) : Option Nat :=
  if e = txt! "amp" then some 38
  else if e = txt! "lt" then some 60
  else if e = txt! "gt" then some 62
  else if e = txt! "quot" then some 34
  else if e = txt! "apos" then some 39
  else if e.take 2 = txt! "#x" then (hexRef (e.drop 2)).filter xmlChar
  else if e.take 1 = txt! "#" then (decimalRef (e.drop 1)).filter xmlChar
  else none

/-- A text with its references replaced; the second argument is the reference that was begun (as `fromstring` reads it,
/repo/src/psrpcore/types/_serializer.py:189). -/
def decodeRefs : PyStr → Option PyStr → Except Err PyStr
  | [], none => .ok []
  | [], some _ => .error .parseError
  | c :: s, none => if c = 38 then decodeRefs s (some []) else (decodeRefs s none).map (c :: ·)
  | c :: s, some e =>
    if c = 59 then
      match entity e with
      | none => .error .parseError
      | some d => (decodeRefs s none).map (d :: ·)
    else decodeRefs s (some (e ++ [c]))

/-- The value of an attribute (section 3.3.3) (as `fromstring` reads it,
/repo/src/psrpcore/types/_serializer.py:189). -/
def decodeAttr (v : PyStr) : Except Err PyStr :=
  if v.contains 60 then .error .parseError
  else decodeRefs (v.map fun c => if xmlSpace c then 32 else c) none

/-- `]]>` stands in a text, which XML forbids (section 2.4) (as `fromstring` reads it,
/repo/src/psrpcore/types/_serializer.py:189). -/
def cdEnd : PyStr → Bool
  | [] => false
  | c :: s => (c :: s).take 3 = [93, 93, 62] || cdEnd s

/-- A piece of a document: text, or what is between `<` and `>` (as `fromstring` reads it,
/repo/src/psrpcore/types/_serializer.py:189). -/
inductive Piece
  | text (t : PyStr)
  | tag (t : PyStr)
deriving DecidableEq, Repr

/-- Where the scan is: in text, in a tag, in a quoted value in a tag (as `fromstring` reads it,
/repo/src/psrpcore/types/_serializer.py:189). -/
inductive ScanMode
  | text
  | tag
  | quote (q : Nat)
deriving DecidableEq, Repr

/-- The state of the scan: the mode, the piece that was begun, the pieces before (as `fromstring` reads it,
/repo/src/psrpcore/types/_serializer.py:189). -/
structure Scan where
  mode : ScanMode := .text
  buf : PyStr := []
  out : List Piece := []
deriving DecidableEq, Repr

/-- One character (as `fromstring` reads it,
/repo/src/psrpcore/types/_serializer.py:189). -/
def Scan.step (s : Scan) (c : Nat) : Scan :=
  match s.mode with
  | .text =>
    if c = 60 then { mode := .tag, buf := [], out := s.out ++ [.text s.buf] } else { s with buf := s.buf ++ [c] }
  | .tag =>
    if c = 62 then { mode := .text, buf := [], out := s.out ++ [.tag s.buf] }
    else { s with mode := if c = 34 ∨ c = 39 then .quote c else .tag, buf := s.buf ++ [c] }
  | .quote q => { s with mode := if c = q then .tag else .quote q, buf := s.buf ++ [c] }

/-- The pieces of a document; `none` if it ends within a tag (as `fromstring` reads it,
/repo/src/psrpcore/types/_serializer.py:189). -/
def pieces (t : PyStr) : Option (List Piece) :=
  let s := t.foldl Scan.step {}
  if s.mode = .text then some (s.out ++ [.text s.buf]) else none

/-- A character of a name. All characters without a meaning in tags are taken for one (as `fromstring` reads it,
/repo/src/psrpcore/types/_serializer.py:189). -/
def nameChar (c : Nat) : Bool := !(xmlSpace c || c = 60 || c = 62 || c = 38 || c = 34 || c = 39 || c = 61 || c = 47 ||
  c = 33 || c = 63)

/-- The attributes of a tag; the number bounds how many there are (as `fromstring` reads it,
/repo/src/psrpcore/types/_serializer.py:189). -/
def readAttrs : Nat → PyStr → Except Err (Dict PyStr PyStr)
  | 0, s => if s.all xmlSpace then .ok [] else .error .parseError
  | n + 1, s =>
    if s.all xmlSpace then .ok []
    else if (s.take 1).all xmlSpace then
      let s := s.dropWhile xmlSpace
      let name := s.takeWhile nameChar
      let s := (s.dropWhile nameChar).dropWhile xmlSpace
      if s.head? = some 61 then
        match (s.drop 1).dropWhile xmlSpace with
        | q :: s =>
          if name = [] ∨ ¬ (q = 34 ∨ q = 39) ∨ ¬ s.contains q then .error .parseError
          else match decodeAttr (s.takeWhile (· ≠ q)) with
            | .error e => .error e
            | .ok v =>
              match readAttrs n ((s.dropWhile (· ≠ q)).drop 1) with
              | .error e => .error e
              | .ok as => if as.contains name then .error .parseError else .ok ((name, v) :: as)
        | [] => .error .parseError
      else .error .parseError
    else .error .parseError

/-- The attributes the code looks at, /repo/src/psrpcore/types/_serializer.py:195, 980, 1165. -/
def attrsOf (as : Dict PyStr PyStr) : Attrs where
  refId := as.get? (txt! "RefId")
  name := as.get? (txt! "N")
  stream := as.get? (txt! "S")

/-- A start tag, an end tag, the tag of an empty element (as `fromstring` reads it,
/repo/src/psrpcore/types/_serializer.py:189). -/
inductive TagTok
  | start (n : PyStr) (a : Attrs)
  | stop (n : PyStr)
  | empty (n : PyStr) (a : Attrs)
deriving DecidableEq, Repr

/-- The name and attributes of a start tag (section 3.1) (as `fromstring` reads it,
/repo/src/psrpcore/types/_serializer.py:189). -/
def readStartTag (t : PyStr) : Except Err (PyStr × Attrs) :=
  if t.takeWhile nameChar = [] then .error .parseError
  else match readAttrs t.length (t.dropWhile nameChar) with
    | .error e => .error e
    | .ok as => .ok (t.takeWhile nameChar, attrsOf as)

/-- A tag (sections 3.1 and 3.2) (as `fromstring` reads it,
/repo/src/psrpcore/types/_serializer.py:189). -/
def readTag (t : PyStr) : Except Err TagTok :=
  if t.head? = some 47 then
    if (t.drop 1).takeWhile nameChar ≠ [] ∧ ((t.drop 1).dropWhile nameChar).all xmlSpace then
      .ok (.stop ((t.drop 1).takeWhile nameChar))
    else .error .parseError
  else if t.getLast? = some 47 then (readStartTag t.dropLast).map fun p => .empty p.1 p.2
  else (readStartTag t).map fun p => .start p.1 p.2

/-- An element that was begun: `ElementTree.TreeBuilder` (/repo/src/psrpcore/types/_serializer.py:189). -/
structure XmlFrame where
  name : PyStr
  attrs : Attrs
  text : PyStr := []
  kids : List Xml := []

/-- The elements that were begun, the innermost first, and the root once it is complete (as `fromstring` reads it,
/repo/src/psrpcore/types/_serializer.py:189). -/
structure Tree where
  stack : List XmlFrame := []
  root : Option Xml := none

/-- A complete element (as `fromstring` reads it,
/repo/src/psrpcore/types/_serializer.py:189). -/
def Tree.close (s : Tree) (x : Xml) : Tree :=
  match s.stack with
  | [] => { s with root := some x }
  | f :: fs => { s with stack := { f with kids := f.kids ++ [x] } :: fs }

/-- The next piece. Text behind a child belongs to no element here; the code does not look at it (as `fromstring` reads it,
/repo/src/psrpcore/types/_serializer.py:189). -/
def Tree.step (s : Tree) : Piece → Except Err Tree
  | .text t =>
    match s.stack with
    | [] => if t.all xmlSpace then .ok s else .error .parseError
    | f :: fs =>
      if cdEnd t then .error .parseError else
      match decodeRefs t none with
      | .error e => .error e
      | .ok t => .ok { s with stack := { f with text := if f.kids.isEmpty then f.text ++ t else f.text } :: fs }
  | .tag t =>
    match readTag t with
    | .error e => .error e
    | .ok (.stop n) =>
      match s.stack with
      | [] => .error .parseError
      | f :: fs =>
        if f.name = n then .ok (({ s with stack := fs } : Tree).close (.node (tagOf n) f.attrs f.text f.kids))
        else .error .parseError
    | .ok (.start n a) =>
      if s.root.isSome then .error .parseError else .ok { s with stack := { name := n, attrs := a } :: s.stack }
    | .ok (.empty n a) =>
      if s.root.isSome then .error .parseError else .ok (s.close (.node (tagOf n) a [] []))

/-- All pieces (as `fromstring` reads it,
/repo/src/psrpcore/types/_serializer.py:189). -/
def Tree.steps : List Piece → Tree → Except Err Tree
  | [], s => .ok s
  | p :: ps, s =>
    match s.step p with
    | .error e => .error e
    | .ok s => Tree.steps ps s

/-- `ElementTree.fromstring` (/repo/src/psrpcore/types/_serializer.py:189, /repo/src/psrpcore/_base.py:449).
A text with surrogates cannot be encoded: Python raises `UnicodeEncodeError` for it. -/
def parseRoot (t : PyStr) : Except Err Xml :=
  if t.any isSurrogate then .error .unicodeError
  else if ¬ t.all xmlChar then .error .parseError
  else match pieces (normEol t) with
    | none => .error .parseError
    | some ps =>
      match Tree.steps ps {} with
      | .error e => .error e
      | .ok s =>
        match s.stack, s.root with
        | [], some x => .ok x
        | _, _ => .error .parseError

/-- `ElementTree.fromstring`, as the children of the root, which are what
/repo/src/psrpcore/types/_serializer.py:189-190 goes through. -/
def parseXml (t : PyStr) : Except Err (List Xml) :=
  match parseRoot t with
  | .error e => .error e
  | .ok x => .ok x.kids

/-- `ElementTree.tostring` and `ElementTree.fromstring` (/repo/src/psrpcore/types/_serializer.py:189, 300). -/
def elementTree : XmlText where
  body := writeAll
  parse := parseXml

end Verif
