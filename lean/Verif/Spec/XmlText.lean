import Verif.Model.XmlText
import Verif.Spec.Clixml

/-! # Which texts XML can hold (specification for C63 and C64) -/

namespace Verif

/-- A text of XML characters. -/
def XmlOk (s : PyStr) : Prop := ∀ c ∈ s, IsXmlChar c

/-- A text that is the same after XML has read its line ends. -/
def XmlLine (s : PyStr) : Prop := ∀ c ∈ s, IsXmlChar c ∧ c ≠ 13

/-- All attributes and texts of an element and of those below it are of a kind, and their names are ones the
code knows. -/
inductive Xml.Texts (A T : PyStr → Prop) : Xml → Prop
  | node {t : Tag} {a : Attrs} {x : PyStr} {k : List Xml} (ht : t ≠ .other)
      (ha : ∀ v, v = a.refId ∨ v = a.name ∨ v = a.stream → ∀ s, v = some s → A s) (hx : T x)
      (hk : ∀ y ∈ k, Xml.Texts A T y) : Xml.Texts A T (.node t a x k)

/-- An element XML can hold: all texts are of XML characters. -/
abbrev Xml.Held : Xml → Prop := Xml.Texts XmlOk XmlOk

/-- An element XML can hold and that comes back unchanged: the texts have no carriage returns. -/
abbrev Xml.Clean : Xml → Prop := Xml.Texts XmlOk XmlLine

/-- A text with its line ends as XML reads them. -/
def lineEnds : PyStr → PyStr
  | [] => []
  | 13 :: 10 :: s => 10 :: lineEnds s
  | 13 :: s => 10 :: lineEnds s
  | c :: s => c :: lineEnds s

mutual
/-- An element with the line ends of its texts as XML reads them. -/
def Xml.lines : Xml → Xml
  | .node t a x k => .node t a (lineEnds x) (linesAll k)
/-- Elements with the line ends of their texts as XML reads them. -/
def linesAll : List Xml → List Xml
  | [] => []
  | x :: xs => x.lines :: linesAll xs
end

/-! ## Graphs whose texts XML can hold -/

/-- A text that XML can hold once it is escaped (the exact condition of C49). -/
def Escapable (s : PyStr) : Prop := IsText s ∧ ¬ HasBareHigh s ∧ 0xFFFE ∉ s ∧ 0xFFFF ∉ s

/-- The texts of a primitive. -/
def Prim.XmlOk (E : TextEnv) : Prim → Prop
  | .str _ s => Escapable s
  | .date d => XmlLine (E.year4 d.year)
  | .float _ x => x.Ok
  | .secure t => XmlLine t
  | .progress r => Escapable r.activity ∧ Escapable r.status ∧ ∀ t, r.operation = some t → Escapable t
  | _ => True

/-- The texts of a value. -/
def PVal.XmlOk (E : TextEnv) : PVal → Prop
  | .prim p => p.XmlOk E
  | _ => True

/-- The texts of an object: its values and names are escaped, its type names and its string form are not. -/
structure PObj.XmlOk (E : TextEnv) (o : PObj) : Prop where
  vals : ∀ v ∈ o.values, v.XmlOk E
  own : ∀ p, o.data = .ext p ∨ o.data = .enum p → p.XmlOk E
  names : ∀ q ∈ o.adapted ++ o.extended, Escapable q.1
  types : ∀ t ∈ o.types, XmlLine t
  string : ∀ t, o.toStr = some t → XmlLine t

/-- The texts of a graph. -/
structure GraphXmlOk (E : TextEnv) (H : Heap) (roots : List PVal) : Prop where
  vals : ∀ v ∈ roots, v.XmlOk E
  objs : ∀ a, Reach H roots a → (H a).XmlOk E

end Verif
