import Verif.Spec.XmlText

/-!
# Well-formed XML

The grammar of XML 1.0 (fifth edition) for documents without declarations, comments, processing instructions, CDATA
sections and document types, with what a document says: an element with its attributes, its text and its children. The numbers
in the comments are those of the productions.
-/

namespace Verif

/-- One character of white space (3). -/
def IsSpace (c : Nat) : Prop := c = 32 ∨ c = 9 ∨ c = 10 ∨ c = 13

/-- White space, possibly none. -/
def Spaces (s : PyStr) : Prop := ∀ c ∈ s, IsSpace c

/-- A name (5). XML allows letters, digits and a few other characters; here every character is allowed that does not have a
meaning in tags. -/
def IsName (n : PyStr) : Prop := n ≠ [] ∧ ∀ c ∈ n, ¬ IsSpace c ∧ c ∉ txt! "<>&\"'=/!?"

/-- A digit of a hexadecimal number and its value. -/
def HexDigit (c d : Nat) : Prop := d < 10 ∧ c = 48 + d ∨ 10 ≤ d ∧ d < 16 ∧ (c = 55 + d ∨ c = 87 + d)

/-- A reference (66, 68) and the character it stands for. -/
inductive RefTo : PyStr → Nat → Prop
  | amp : RefTo (txt! "&amp;") 38
  | lt : RefTo (txt! "&lt;") 60
  | gt : RefTo (txt! "&gt;") 62
  | quot : RefTo (txt! "&quot;") 34
  | apos : RefTo (txt! "&apos;") 39
  | dec {ds : List Nat} (ne : ds ≠ []) (h : ∀ d ∈ ds, d < 10) (ok : IsXmlChar (ds.foldl (fun n d => n * 10 + d) 0)) :
      RefTo ((txt! "&#") ++ ds.map (48 + ·) ++ (txt! ";")) (ds.foldl (fun n d => n * 10 + d) 0)
  | hex {ds : List (Nat × Nat)} (ne : ds ≠ []) (h : ∀ d ∈ ds, HexDigit d.1 d.2)
      (ok : IsXmlChar (ds.foldl (fun n d => n * 16 + d.2) 0)) :
      RefTo ((txt! "&#x") ++ ds.map Prod.fst ++ (txt! ";")) (ds.foldl (fun n d => n * 16 + d.2) 0)

/-- Characters and references between tags (14) and the text they stand for. -/
inductive CharRefs : PyStr → PyStr → Prop
  | nil : CharRefs [] []
  | char {c : Nat} {s t : PyStr} (amp : c ≠ 38) (lt : c ≠ 60) (h : CharRefs s t) : CharRefs (c :: s) (c :: t)
  | ref {r s t : PyStr} {c : Nat} (hr : RefTo r c) (h : CharRefs s t) : CharRefs (r ++ s) (c :: t)

/-- A text between tags: `]]>` does not stand in it (14). -/
def CharData (s t : PyStr) : Prop := CharRefs s t ∧ ¬ (txt! "]]>") <:+: s

/-- The value of an attribute between quotes `q` (10), normalised (3.3.3). -/
inductive AttValue (q : Nat) : PyStr → PyStr → Prop
  | nil : AttValue q [] []
  | space {c : Nat} {s t : PyStr} (sp : IsSpace c) (h : AttValue q s t) : AttValue q (c :: s) (32 :: t)
  | char {c : Nat} {s t : PyStr} (sp : ¬ IsSpace c) (amp : c ≠ 38) (lt : c ≠ 60) (quote : c ≠ q) (h : AttValue q s t) :
      AttValue q (c :: s) (c :: t)
  | ref {r s t : PyStr} {c : Nat} (hr : RefTo r c) (h : AttValue q s t) : AttValue q (r ++ s) (c :: t)

/-- The attributes in a tag (40, 41), no name twice, and white space behind them. -/
inductive Attributes : PyStr → List (PyStr × PyStr) → Prop
  | nil {s : PyStr} (h : Spaces s) : Attributes s []
  | cons {a n b c raw v s : PyStr} {q : Nat} {l : List (PyStr × PyStr)} (ne : a ≠ []) (ha : Spaces a) (hn : IsName n)
      (hb : Spaces b) (hc : Spaces c) (hq : q = 34 ∨ q = 39) (hv : AttValue q raw v) (h : Attributes s l)
      (once : ∀ p ∈ l, p.1 ≠ n) : Attributes (a ++ n ++ b ++ [61] ++ c ++ [q] ++ raw ++ [q] ++ s) ((n, v) :: l)

/-- The tag has this name; `other` stands for all names the code does not know. -/
def Named (n : PyStr) (t : Tag) : Prop := t ≠ .other ∧ t.name = n ∨ t = .other ∧ ∀ u : Tag, u ≠ .other → u.name ≠ n

/-- The three attributes the code looks at. -/
def AttrsIn (l : List (PyStr × PyStr)) (a : Attrs) : Prop :=
  a.refId = l.lookup (txt! "RefId") ∧ a.name = l.lookup (txt! "N") ∧ a.stream = l.lookup (txt! "S")

mutual
/-- An element (39, 40, 42, 44). Its text is what stands before its first child. -/
inductive Element : PyStr → Xml → Prop
  | empty {n s : PyStr} {l : List (PyStr × PyStr)} {t : Tag} {a : Attrs} (hn : IsName n) (hs : Attributes s l) (ht : Named n t)
      (ha : AttrsIn l a) : Element ((txt! "<") ++ n ++ s ++ (txt! "/>")) (.node t a [] [])
  | full {n s c raw u x sp : PyStr} {l : List (PyStr × PyStr)} {t : Tag} {a : Attrs} {k : List Xml} (hn : IsName n)
      (hs : Attributes s l) (ht : Named n t) (ha : AttrsIn l a) (hc : Children c x k) (hr : CharData raw u) (hsp : Spaces sp) :
      Element ((txt! "<") ++ n ++ s ++ (txt! ">") ++ c ++ raw ++ (txt! "</") ++ n ++ sp ++ (txt! ">"))
        (.node t a (if k = [] then u else x) k)
/-- Elements with text before each of them (43): all of it, the text before the first, the elements. -/
inductive Children : PyStr → PyStr → List Xml → Prop
  | nil : Children [] [] []
  | snoc {c x raw u e : PyStr} {k : List Xml} {y : Xml} (hc : Children c x k) (hr : CharData raw u) (he : Element e y) :
      Children (c ++ raw ++ e) (if k = [] then u else x) (k ++ [y])
end

/-- A well-formed document (1) with this root: its characters are ones XML has (2), and with its line ends made line feeds (2.11) it
is an element between white space. -/
def WellFormed (t : PyStr) (x : Xml) : Prop :=
  (∀ c ∈ t, IsXmlChar c) ∧ ∃ a e b, lineEnds t = a ++ e ++ b ∧ Spaces a ∧ Spaces b ∧ Element e x

/-- The text is a well-formed XML document, and these are the children of its root. -/
def ReadsAs (t : PyStr) (xs : List Xml) : Prop := ∃ tag a x, WellFormed t (.node tag a x xs)

end Verif
