import Verif.Spec.Clixml
import Verif.Spec.Digits

/-! # The forms of CLIXML (specification for C68)

What a document looks like, after [MS-PSRP] 2.2.5: which element stands for which value, and what is in it. Nothing here
refers to the functions that write documents. -/

namespace Verif

/-! ## Texts -/

/-- `_xHHHH_` for a number of 16 bits. -/
def EscUnit (u : Nat) (t : PyStr) : Prop :=
  ∃ a b c d a' b' c' d', u = 4096 * a + 256 * b + 16 * c + d ∧ HexOf a a' ∧ HexOf b b' ∧ HexOf c c' ∧ HexOf d d' ∧
    t = [95, 120, a', b', c', d', 95]

/-- Characters that are never written as they are: controls, and halves of UTF-16 pairs. -/
def Hidden (c : Nat) : Prop := IsControl c ∨ IsHigh c ∨ IsLow c

/-- The escaped form of a text: `_xHHHH_` for hidden characters, for the two UTF-16 units of characters from U+10000, and
for a `_` in front of an `x` or `X`; any other character as it is. -/
inductive Esc : PyStr → PyStr → Prop
  | nil : Esc [] []
  | plain {c : Nat} {s t : PyStr} (hc : ¬ Hidden c) (hb : c < 0x10000) (hx : c = 95 → s.head? ≠ some 120 ∧ s.head? ≠ some 88)
      (h : Esc s t) : Esc (c :: s) (c :: t)
  | under {s t : PyStr} (hx : s.head? = some 120 ∨ s.head? = some 88) (h : Esc s t) :
      Esc (95 :: s) ((txt! "_x005F_") ++ t)
  | unit {c : Nat} {s e t : PyStr} (hc : Hidden c) (he : EscUnit c e) (h : Esc s t) : Esc (c :: s) (e ++ t)
  | pair {u v : Nat} {s e f t : PyStr} (hu : IsHigh u) (hv : IsLow v) (he : EscUnit u e) (hf : EscUnit v f) (h : Esc s t) :
      Esc ((0x10000 + 0x400 * (u - 0xD800) + (v - 0xDC00)) :: s) (e ++ f ++ t)

/-- A text that can be escaped: without the surrogates the serializer forgot (C24). -/
def Sound (s : PyStr) : Prop := IsText s ∧ ¬ HasBareHigh s

/-- The character of a base64 digit. -/
def SextetOf (d c : Nat) : Prop :=
  (d < 26 ∧ c = 65 + d) ∨ (26 ≤ d ∧ d < 52 ∧ c = 97 + (d - 26)) ∨ (52 ≤ d ∧ d < 62 ∧ c = 48 + (d - 52)) ∨
    (d = 62 ∧ c = 43) ∨ (d = 63 ∧ c = 47)

/-- Base64: four digits for three bytes, `=` for what is missing at the end. -/
inductive Base64 : Bytes → PyStr → Prop
  | nil : Base64 [] []
  | one {a : UInt8} {w x w' x' : Nat} (h : 16 * a.toNat = 64 * w + x) (hw : SextetOf w w') (hx : SextetOf x x') :
      Base64 [a] [w', x', 61, 61]
  | two {a b : UInt8} {w x y w' x' y' : Nat} (h : 4 * (256 * a.toNat + b.toNat) = 4096 * w + 64 * x + y)
      (hw : SextetOf w w') (hx : SextetOf x x') (hy : SextetOf y y') : Base64 [a, b] [w', x', y', 61]
  | three {a b c : UInt8} {w x y z w' x' y' z' : Nat} {bs : Bytes} {t : PyStr}
      (h : 65536 * a.toNat + 256 * b.toNat + c.toNat = 262144 * w + 4096 * x + 64 * y + z) (hw : SextetOf w w')
      (hx : SextetOf x x') (hy : SextetOf y y') (hz : SextetOf z z') (ht : Base64 bs t) :
      Base64 (a :: b :: c :: bs) (w' :: x' :: y' :: z' :: t)

/-- `hh:mm` after a sign, or `Z` for UTC, or nothing. -/
def ZoneText : Option Int → PyStr → Prop
  | none, t => t = []
  | some o, t => (o = 0 ∧ t = txt! "Z") ∨ (o ≠ 0 ∧ ∃ h m, Fixed 2 (o.natAbs / 3600) h ∧ Fixed 2 (o.natAbs / 60 % 60) m ∧
      t = (if o < 0 then 45 else 43) :: h ++ 58 :: m)

/-- The fraction of a second: nothing, microseconds, or ticks of 100 ns. -/
def FractionText (us ns : Nat) (t : PyStr) : Prop :=
  (us = 0 ∧ ns = 0 ∧ t = []) ∨ (us ≠ 0 ∧ ns = 0 ∧ ∃ f, Fixed 6 us f ∧ t = 46 :: f) ∨
    (ns ≠ 0 ∧ ∃ f, Fixed 7 (10 * us + ns / 100) f ∧ t = 46 :: f)

/-- `yyyy-mm-ddThh:mm:ss`, a fraction and a time zone. -/
def DateText (d : DateFields) (t : PyStr) : Prop :=
  ∃ y mo da h mi s f z, Fixed 4 d.year y ∧ Fixed 2 d.month mo ∧ Fixed 2 d.day da ∧ Fixed 2 d.hour h ∧ Fixed 2 d.minute mi ∧
    Fixed 2 d.second s ∧ FractionText d.microsecond d.nanosecond f ∧ ZoneText d.offset z ∧
    t = y ++ 45 :: mo ++ 45 :: da ++ 84 :: h ++ 58 :: mi ++ 58 :: s ++ f ++ z

/-- `nU`, which is left out for 0. -/
def CountText (unit n : Nat) (t : PyStr) : Prop := (n = 0 ∧ t = []) ∨ (n ≠ 0 ∧ ∃ u, Decimal n u ∧ t = u ++ [unit])

/-- Seconds, with up to seven digits behind the point, of a number of ticks. -/
def SecondsText (ticks : Nat) (t : PyStr) : Prop :=
  ∃ u, Decimal (ticks / 10000000) u ∧
    ((ticks % 10000000 = 0 ∧ t = u ++ [83]) ∨
     (∃ n f, Digits n f ∧ f ≠ [] ∧ f.length ≤ 7 ∧ n * 10 ^ (7 - f.length) = ticks % 10000000 ∧ t = u ++ 46 :: f ++ [83]))

/-- `PnDTnHnMnS` for a number of ticks of 100 ns; parts that are 0 may be left out, but not all of them. -/
def PeriodText (ticks : Nat) (t : PyStr) : Prop :=
  ∃ d h, CountText 68 (ticks / 864000000000) d ∧
    ((ticks % 864000000000 = 0 ∧ d ≠ [] ∧ h = []) ∨
     (∃ hs ms ss, CountText 72 (ticks % 864000000000 / 36000000000) hs ∧
        CountText 77 (ticks % 36000000000 / 600000000) ms ∧
        ((ss = [] ∧ ticks % 600000000 = 0 ∧ hs ++ ms ≠ []) ∨ SecondsText (ticks % 600000000) ss) ∧
        h = 84 :: hs ++ ms ++ ss)) ∧
    t = 80 :: d ++ h

/-- The period of a number of ticks, with a minus sign if it is negative. -/
def SpanText (ticks : Int) (t : PyStr) : Prop :=
  (0 ≤ ticks ∧ PeriodText ticks.toNat t) ∨ (ticks < 0 ∧ ∃ u, t = 45 :: u ∧ PeriodText (-ticks).toNat u)

/-- Two to four numbers and the points between them. -/
def VersionText (v : PSVersion) (t : PyStr) : Prop :=
  ∃ a b, Signed v.major a ∧ Signed v.minor b ∧
    match v.build, v.revision with
    | none, _ => t = a ++ 46 :: b
    | some c, none => ∃ c', Signed c c' ∧ t = a ++ 46 :: b ++ 46 :: c'
    | some c, some d => ∃ c' d', Signed c c' ∧ Signed d d' ∧ t = a ++ 46 :: b ++ 46 :: c' ++ 46 :: d'

/-! ## XML -/

/-- A character in the text of an element. -/
def textChar (c : Nat) : PyStr :=
  if c = 38 then txt! "&amp;" else if c = 60 then txt! "&lt;" else if c = 62 then txt! "&gt;" else [c]

/-- A character in the value of an attribute. -/
def valueChar (c : Nat) : PyStr := if c = 34 then txt! "&quot;" else textChar c

/-- A text in an element. -/
def xmlText (s : PyStr) : PyStr := s.flatMap textChar

/-- An element with its attributes and what is in it. -/
def element (name attrs inner : PyStr) : PyStr :=
  (txt! "<") ++ name ++ attrs ++
    if inner = [] then txt! " />" else (txt! ">") ++ inner ++ (txt! "</") ++ name ++ (txt! ">")

/-- An attribute. -/
def attrib (name value : PyStr) : PyStr := (txt! " ") ++ name ++ (txt! "=\"") ++ value.flatMap valueChar ++ (txt! "\"")

/-! ## Values -/

/-- The element of an integer type. -/
def IntKind.element : IntKind → PyStr
  | .psByte => txt! "By"
  | .psSByte => txt! "SB"
  | .psUInt16 => txt! "U16"
  | .psInt16 => txt! "I16"
  | .psUInt => txt! "U32"
  | .psInt => txt! "I32"
  | .psUInt64 => txt! "U64"
  | .psInt64 => txt! "I64"

/-- The element of a text type. -/
def StrKind.element : StrKind → PyStr
  | .string => txt! "S"
  | .uri => txt! "URI"
  | .xml => txt! "XD"
  | .script => txt! "SBK"

/-- The element of a type of floats. -/
def FloatKind.element : FloatKind → PyStr
  | .single => txt! "Sg"
  | .double => txt! "Db"

/-- The element of a list type. -/
def ListKind.element : ListKind → PyStr
  | .list => txt! "LST"
  | .stack => txt! "STK"
  | .ienum => txt! "IE"

/-- A text in an element of its own. -/
def TextForm (name s t : PyStr) : Prop := ∃ u, Esc s u ∧ t = element name [] (xmlText u)

/-- A number in an element of its own. -/
def NumberForm (name : PyStr) (v : Option Int) (t : PyStr) : Prop := ∃ i u, v = some i ∧ Signed i u ∧ t = element name [] u

/-- The eight elements of a progress record. -/
def ProgressForm (r : Progress) (t : PyStr) : Prop :=
  ∃ t1 t2 t3 t4 t5 t6 t7 t8, TextForm (txt! "AV") r.activity t1 ∧ NumberForm (txt! "AI") r.activityId t2 ∧
    ((r.operation = none ∧ t3 = element (txt! "Nil") [] []) ∨ ∃ s, r.operation = some s ∧ TextForm (txt! "S") s t3) ∧
    NumberForm (txt! "PI") r.parentId t4 ∧ NumberForm (txt! "PC") r.percent t5 ∧
    TextForm (txt! "T") (if r.completed then txt! "Completed" else txt! "Processing") t6 ∧
    NumberForm (txt! "SR") r.seconds t7 ∧ TextForm (txt! "SD") r.status t8 ∧
    t = t1 ++ t2 ++ t3 ++ t4 ++ t5 ++ t6 ++ t7 ++ t8

/-- The name of the element of a primitive and what is in it. A plain int is an `I32`, or an `I64` if it is too large. -/
def Prim.Form : Prim → PyStr → PyStr → Prop
  | .int k v, n, t => n = k.element ∧ Signed v t
  | .plainInt v, n, t =>
    ((-(2 ^ 31) ≤ v ∧ v < 2 ^ 31 ∧ n = txt! "I32") ∨ (2 ^ 31 ≤ v ∧ v < 2 ^ 63 ∧ n = txt! "I64")) ∧ Signed v t
  | .char c, n, t => n = txt! "C" ∧ Signed c t
  | .str k s, n, t => n = k.element ∧ ∃ u, Esc s u ∧ t = xmlText u
  | .bytes b, n, t => n = txt! "BA" ∧ Base64 b t
  | .date d, n, t => n = txt! "DT" ∧ DateText d t
  | .duration d, n, t => n = txt! "TS" ∧ SpanText (d.totalNs / 100) t
  | .version v, n, t => n = txt! "Version" ∧ VersionText v t
  | .guid g, n, t => n = txt! "G" ∧ GuidGroups HexLow g t
  | .decimal d, n, t => n = txt! "D" ∧ ∃ (neg : Bool) (coeff k : Nat), d = .finite neg coeff (-(k : Int)) ∧ PlainDecimal neg coeff k t
  | .float k x, n, t => n = k.element ∧ FloatForm x t
  | .secure s, n, t => n = txt! "SS" ∧ t = xmlText s
  | .progress r, n, t => n = txt! "PR" ∧ ProgressForm r t

/-- The value of an object that is also a primitive or an enum member. -/
def OwnForm (o : PObj) (t : PyStr) : Prop :=
  (∃ p n u, (o.data = .ext p ∨ o.data = .enum p) ∧ p.Form n u ∧ t = element n [] u) ∨
    ((∀ p, o.data ≠ .ext p ∧ o.data ≠ .enum p) ∧ t = [])

/-- The type names of an object: all of them, or the number they were given earlier. An object that is also a primitive
has none. -/
def TypesForm (o : PObj) (t : PyStr) : Prop :=
  ((o.types = [] ∨ ∃ p, o.data = .ext p) ∧ t = []) ∨
    (o.types ≠ [] ∧ (∀ p, o.data ≠ .ext p) ∧ ∃ k r, Decimal k r ∧
      (t = element (txt! "TN") (attrib (txt! "RefId") r) (o.types.flatMap fun n => element (txt! "T") [] (xmlText n)) ∨
       t = element (txt! "TNRef") (attrib (txt! "RefId") r) []))

/-- The string form of an object, which is left out if it is empty. -/
def StringForm (s : Option PyStr) (t : PyStr) : Prop :=
  ((s = none ∨ s = some []) ∧ t = []) ∨ ∃ u, s = some u ∧ u ≠ [] ∧ t = element (txt! "ToString") [] (xmlText u)

mutual
/-- A value in its element, which has some attributes (its name or its stream) besides the reference id. -/
inductive Form (H : Heap) : PVal → PyStr → PyStr → Prop
  | nil {x : PyStr} : Form H .nil x (element (txt! "Nil") x [])
  | true {x : PyStr} : Form H (.bool true) x (element (txt! "B") x (txt! "true"))
  | false {x : PyStr} : Form H (.bool false) x (element (txt! "B") x (txt! "false"))
  | prim {p : Prim} {x n t : PyStr} (h : p.Form n t) : Form H (.prim p) x (element n x t)
  /-- a primitive object without properties of its own -/
  | bare {a : Nat} {p : Prim} {x n t : PyStr} (hd : (H a).data = .ext p) (he : (H a).extended = [])
      (ha : (H a).adapted = [] ∨ ∃ r, p = .progress r ∧ (H a).adapted.length ≤ 8) (h : p.Form n t) :
      Form H (.ref a) x (element n x t)
  /-- an object that was written before -/
  | again {a k : Nat} {x r : PyStr} (hr : Decimal k r) :
      Form H (.ref a) x (element (txt! "Ref") (attrib (txt! "RefId") r ++ x) [])
  | obj {a k : Nat} {x r t1 t2 t3 t4 t5 : PyStr} (hr : Decimal k r) (h1 : OwnForm (H a) t1) (h2 : TypesForm (H a) t2)
      (h3 : GroupForm H (txt! "Props") (H a).adapted t3) (h4 : GroupForm H (txt! "MS") (H a).extended t4)
      (h5 : ContentForm H (H a) t5) :
      Form H (.ref a) x (element (txt! "Obj") (attrib (txt! "RefId") r ++ x) (t1 ++ t2 ++ t3 ++ t4 ++ t5))
/-- A group of properties, which is left out if there are none. -/
inductive GroupForm (H : Heap) : PyStr → List (PyStr × PVal) → PyStr → Prop
  | none {n : PyStr} : GroupForm H n [] []
  | some {n t : PyStr} {ps : List (PyStr × PVal)} (hp : ps ≠ []) (h : PropForms H ps t) : GroupForm H n ps (element n [] t)
/-- Properties, one after another, with their names. -/
inductive PropForms (H : Heap) : List (PyStr × PVal) → PyStr → Prop
  | nil : PropForms H [] []
  | cons {n u t ts : PyStr} {v : PVal} {ps : List (PyStr × PVal)} (hn : Esc n u) (h : Form H v (attrib (txt! "N") u) t)
      (hs : PropForms H ps ts) : PropForms H ((n, v) :: ps) (t ++ ts)
/-- The entries of a list, stack or queue. -/
inductive ItemForms (H : Heap) : List PVal → PyStr → Prop
  | nil : ItemForms H [] []
  | cons {v : PVal} {t ts : PyStr} {vs : List PVal} (h : Form H v [] t) (hs : ItemForms H vs ts) :
      ItemForms H (v :: vs) (t ++ ts)
/-- The entries of a dict. -/
inductive EntryForms (H : Heap) : List (PVal × PVal) → PyStr → Prop
  | nil : EntryForms H [] []
  | cons {k v : PVal} {tk tv ts : PyStr} {es : List (PVal × PVal)} (hk : Form H k (attrib (txt! "N") (txt! "Key")) tk)
      (hv : Form H v (attrib (txt! "N") (txt! "Value")) tv) (hs : EntryForms H es ts) :
      EntryForms H ((k, v) :: es) (element (txt! "En") [] (tk ++ tv) ++ ts)
/-- What an object holds, or its string form. -/
inductive ContentForm (H : Heap) : PObj → PyStr → Prop
  | list {o : PObj} {k : ListKind} {vs : List PVal} {t : PyStr} (hd : o.data = .list k vs) (h : ItemForms H vs t) :
      ContentForm H o (element k.element [] t)
  | queue {o : PObj} {vs : List PVal} {t : PyStr} (hd : o.data = .queue vs) (h : ItemForms H vs t) :
      ContentForm H o (element (txt! "QUE") [] t)
  /-- a queue that was emptied before -/
  | emptied {o : PObj} {vs : List PVal} (hd : o.data = .queue vs) : ContentForm H o (element (txt! "QUE") [] [])
  | dict {o : PObj} {es : List (PVal × PVal)} {t : PyStr} (hd : o.data = .dict es) (h : EntryForms H es t) :
      ContentForm H o (element (txt! "DCT") [] t)
  | ext {o : PObj} {p : Prim} (hd : o.data = .ext p) : ContentForm H o []
  | string {o : PObj} {t : PyStr} (hd : o.data = .none ∨ ∃ p, o.data = .enum p) (h : StringForm o.toStr t) :
      ContentForm H o t
end

/-- The attribute of a stream. -/
def streamAttr : Option ClixmlStream → PyStr
  | none => []
  | some st => attrib (txt! "S") (st.word.map fun c => if 65 ≤ c ∧ c ≤ 90 then c + 32 else c)

/-- A document with the values one after another. -/
def DocForm (H : Heap) (vs : List (PVal × Option ClixmlStream)) (t : PyStr) : Prop :=
  ∃ ts, All2 (fun (v : PVal × Option ClixmlStream) t => Form H v.1 (streamAttr v.2) t) vs ts ∧
    t = element (txt! "Objs") (attrib (txt! "Version") (txt! "1.1.0.1") ++
      attrib (txt! "xmlns") (txt! "http://schemas.microsoft.com/powershell/2004/04")) ts.flatten

/-! ## Values that have a form -/

/-- The primitives whose texts are not spoilt by one of the errors of C24, C28, C52 and C62, and that fit an `I64`. -/
def Prim.Formal (E : TextEnv) : Prim → Prop
  | .plainInt v => -(2 ^ 31) ≤ v ∧ v < 2 ^ 63
  | .str _ s => Sound s
  | .date d => d.Valid ∧ d.MinuteZone ∧ FourDigits E.year4 d.year
  | .duration d => ¬ TensOfSeconds (d.totalNs / 100 * 100)
  | .version v => v.WellFormed
  | .guid n => n < 2 ^ 128
  | .decimal d => ∃ neg coeff exp digits, d = .finite neg coeff exp ∧ Decimal coeff digits ∧ exp ≤ 0 ∧
      -6 ≤ exp + ((digits.length : Int) - 1)
  | .float _ x => x.Ok ∧ x ≠ .nan
  | .progress r => Sound r.activity ∧ Sound r.status ∧ (∀ t, r.operation = some t → Sound t) ∧
      ∀ v ∈ [r.activityId, r.parentId, r.percent, r.seconds], v ≠ none
  | _ => True

/-- The same for a value. -/
def PVal.Formal (E : TextEnv) : PVal → Prop
  | .prim p => p.Formal E
  | _ => True

/-- The same for an object. -/
structure PObj.Formal (E : TextEnv) (o : PObj) : Prop where
  vals : ∀ v ∈ o.values, v.Formal E
  own : ∀ p, o.data = .ext p ∨ o.data = .enum p → p.Formal E
  names : ∀ q ∈ o.adapted ++ o.extended, Sound q.1

/-- The same for all objects that can be reached from some values. -/
structure GraphFormal (E : TextEnv) (H : Heap) (roots : List PVal) : Prop where
  vals : ∀ v ∈ roots, v.Formal E
  objs : ∀ a, Reach H roots a → (H a).Formal E

end Verif
