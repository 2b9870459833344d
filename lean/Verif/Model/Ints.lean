import Verif.Model.StringEsc

/-!
# Sized integers

Models /repo/src/psrpcore/types/_primitive.py:94-203, 242-295, 585-765 and the integer parts of
/repo/src/psrpcore/types/_serializer.py:718-753, 1000-1025.
-/

namespace Verif

/-- The integer classes, /repo/src/psrpcore/types/_primitive.py:585-765. -/
inductive IntKind
  | psByte | psSByte | psUInt16 | psInt16 | psUInt | psInt | psUInt64 | psInt64
deriving DecidableEq, Repr

namespace IntKind

/-- `MinValue`, /repo/src/psrpcore/types/_primitive.py:604, 627, 650, 673, 696, 718, 741, 764. -/
def minValue : IntKind → Int
  | psByte => 0
  | psSByte => -128
  | psUInt16 => 0
  | psInt16 => -32768
  | psUInt => 0
  | psInt => -2147483648
  | psUInt64 => 0
  | psInt64 => -9223372036854775808

/-- `MaxValue`, /repo/src/psrpcore/types/_primitive.py:605, 628, 651, 674, 697, 719, 742, 765. -/
def maxValue : IntKind → Int
  | psByte => 255
  | psSByte => 127
  | psUInt16 => 65535
  | psInt16 => 32767
  | psUInt => 4294967295
  | psInt => 2147483647
  | psUInt64 => 18446744073709551615
  | psInt64 => 9223372036854775807

/-- The CLIXML tag, /repo/src/psrpcore/types/_primitive.py:585, 608, 631, 654, 677, 700, 722, 745. -/
def tag : IntKind → PyStr
  | psByte => lit "By"
  | psSByte => lit "SB"
  | psUInt16 => lit "U16"
  | psInt16 => lit "I16"
  | psUInt => lit "U32"
  | psInt => lit "I32"
  | psUInt64 => lit "U64"
  | psInt64 => lit "I64"

/-- The arguments of a constructor call (/repo/src/psrpcore/types/_primitive.py:106-123): nothing
(`None`), an enum member with its value, or anything `int` turns into a number. -/
inductive Arg
  | none
  | enum (value : Int)
  | number (value : Int)
deriving DecidableEq, Repr

/-- `PSIntegerBase.__new__`, /repo/src/psrpcore/types/_primitive.py:106-137: `None` and enum members
take the way of line 127 and miss the range check. (An enum member whose value is already of this very
class is checked; its value was checked when it was made.) -/
def new (k : IntKind) : Arg → Except Err Int
  | .none => .ok 0
  | .enum v => .ok v
  | .number v => if v < k.minValue ∨ v > k.maxValue then .error .valueError else .ok v

end IntKind

/-- `int.__and__` of the standard library, two's complement of unbounded width
(/repo/src/psrpcore/types/_primitive.py:159). -/
def bitAnd : Int → Int → Int
  | .ofNat m, .ofNat n => (m &&& n : Nat)
  | .ofNat m, .negSucc n => ((m ^^^ (m &&& n) : Nat) : Int)
  | .negSucc m, .ofNat n => ((n ^^^ (n &&& m) : Nat) : Int)
  | .negSucc m, .negSucc n => .negSucc (m ||| n)

/-- `int.__invert__` (/repo/src/psrpcore/types/_primitive.py:172). -/
def bitNot (a : Int) : Int := -a - 1

/-- `int.__or__` (/repo/src/psrpcore/types/_primitive.py:187). -/
def bitOr (a b : Int) : Int := bitNot (bitAnd (bitNot a) (bitNot b))

/-- `int.__xor__` (/repo/src/psrpcore/types/_primitive.py:203). -/
def bitXor : Int → Int → Int
  | .ofNat m, .ofNat n => (m ^^^ n : Nat)
  | .ofNat m, .negSucc n => .negSucc (m ^^^ n)
  | .negSucc m, .ofNat n => .negSucc (m ^^^ n)
  | .negSucc m, .negSucc n => (m ^^^ n : Nat)

/-- The two-operand operators, /repo/src/psrpcore/types/_primitive.py:158-203. -/
inductive BinOp
  | and | add | floordiv | lshift | mod | mul | or | pow | rshift | sub | xor
deriving DecidableEq, Repr

/-- The operators of `int` on a right operand that is an int
(/repo/src/psrpcore/types/_primitive.py:158-203, the `super()` calls). `a ** b` with a negative `b`
gives a float, which the class then cuts to an integer (line 193): only 1, -1 and 0 come out. -/
def intOp : BinOp → Int → Int → Except Err Int
  | .and, a, b => .ok (bitAnd a b)
  | .add, a, b => .ok (a + b)
  | .floordiv, a, b => if b = 0 then .error .zeroDivisionError else .ok (a.fdiv b)
  | .lshift, a, b => if b < 0 then .error .valueError else .ok (a * 2 ^ b.toNat)
  | .mod, a, b => if b = 0 then .error .zeroDivisionError else .ok (a.fmod b)
  | .mul, a, b => .ok (a * b)
  | .or, a, b => .ok (bitOr a b)
  | .pow, a, b =>
    if b ≥ 0 then .ok (a ^ b.toNat)
    else if a = 0 then .error .zeroDivisionError
    else if a = 1 then .ok 1
    else if a = -1 then .ok (if b % 2 = 0 then 1 else -1)
    else .ok 0
  | .rshift, a, b => if b < 0 then .error .valueError else .ok (a.fdiv (2 ^ b.toNat))
  | .sub, a, b => .ok (a - b)
  | .xor, a, b => .ok (bitXor a b)

/-- The one-operand operators, /repo/src/psrpcore/types/_primitive.py:155-156, 171-172, 183-184,
189-190. -/
inductive UnOp
  | abs | invert | neg | pos
deriving DecidableEq, Repr

/-- The one-operand operators of `int` (/repo/src/psrpcore/types/_primitive.py:155-190). -/
def intUn : UnOp → Int → Int
  | .abs, a => a.natAbs
  | .invert, a => bitNot a
  | .neg, a => -a
  | .pos, a => a

namespace IntKind

/-- `type(self)(super().__op__(x))`, /repo/src/psrpcore/types/_primitive.py:158-203. Right operands
that are not ints are not modelled: the class raises `TypeError` for them. -/
def binOp (k : IntKind) (op : BinOp) (a b : Int) : Except Err Int :=
  match intOp op a b with
  | .ok v => k.new (.number v)
  | .error e => .error e

/-- `type(self)(super().__op__())`, /repo/src/psrpcore/types/_primitive.py:155-190. -/
def unOp (k : IntKind) (op : UnOp) (a : Int) : Except Err Int := k.new (.number (intUn op a))

/-- `__divmod__`: the quotient of this class and the remainder as a plain int,
/repo/src/psrpcore/types/_primitive.py:164-166. -/
def divMod (k : IntKind) (a b : Int) : Except Err (Int × Int) :=
  if b = 0 then .error .zeroDivisionError
  else match k.new (.number (a.fdiv b)) with
    | .ok q => .ok (q, a.fmod b)
    | .error e => .error e

end IntKind

/-- An expression over one integer class: constructor calls and operators
(/repo/src/psrpcore/types/_primitive.py:106-203). -/
inductive IntExpr
  | make (a : IntKind.Arg)
  | un (op : UnOp) (x : IntExpr)
  | bin (op : BinOp) (x y : IntExpr)
  | binInt (op : BinOp) (x : IntExpr) (y : Int)
  | quot (x : IntExpr) (y : Int)

/-- The value of an expression, /repo/src/psrpcore/types/_primitive.py:106-203. -/
def IntExpr.eval (k : IntKind) : IntExpr → Except Err Int
  | .make a => k.new a
  | .un op x =>
    match x.eval k with
    | .ok v => k.unOp op v
    | .error e => .error e
  | .bin op x y =>
    match x.eval k with
    | .ok v =>
      match y.eval k with
      | .ok w => k.binOp op v w
      | .error e => .error e
    | .error e => .error e
  | .binInt op x y =>
    match x.eval k with
    | .ok v => k.binOp op v y
    | .error e => .error e
  | .quot x y =>
    match x.eval k with
    | .ok v => (k.divMod v y).map Prod.fst
    | .error e => .error e

/-! ## Chars -/

/-- `PSChar(n)` for an int, /repo/src/psrpcore/types/_primitive.py:281-285. -/
def charOfInt (n : Int) : Except Err Int :=
  if n < 0 ∨ n > 65535 then .error .valueError else .ok n

/-- `PSChar(s)` for a `str`, /repo/src/psrpcore/types/_primitive.py:273-285: `struct.unpack` fails on
the empty text. The code encodes and unpacks little endian, here both are big endian. -/
def charOfStr (s : PyStr) : Except Err Int :=
  match encodeUtf16 s with
  | .error e => .error e
  | .ok bs =>
    if bs.length > 2 then .error .valueError
    else match bs with
      | [hi, lo] => charOfInt (hi * 256 + lo : Nat)
      | _ => .error .structError

/-- `str(c)`, /repo/src/psrpcore/types/_primitive.py:290-292. -/
def charStr (c : Int) : PyStr := [c.toNat]

/-! ## Text -/

/-- A number behind a sign or not (`int(s)`, /repo/src/psrpcore/types/_serializer.py:1001). -/
def signedOf (scan : PyStr → Option Nat) : PyStr → Option Int
  | 45 :: cs => (scan cs).map fun n : Nat => -(n : Int)
  | 43 :: cs => (scan cs).map fun n : Nat => (n : Int)
  | cs => (scan cs).map fun n : Nat => (n : Int)

/-- `int(s)` for a text (/repo/src/psrpcore/types/_serializer.py:1001,
/repo/src/psrpcore/types/_primitive.py:123): white space around it, an optional sign, and decimal digits of any script
with single underscores between them. -/
def intOfText (s : PyStr) : Except Err Int :=
  match signedOf (scanGroups unicodeDigit 10 false 0) (stripBy numSpace s) with
  | some v => .ok v
  | none => .error .valueError

/-- The element written for a sized integer (`none`: a plain Python int): its tag and text
(/repo/src/psrpcore/types/_serializer.py:738-753). -/
def serializeInt (kind : Option IntKind) (v : Int) : PyStr × PyStr :=
  let k :=
    match kind with
    | some k => k
    | none => if v > IntKind.psInt.maxValue then .psInt64 else .psInt
  (k.tag, intStr v)

/-- The class of a tag, `TypeRegistry().element_registry`
(/repo/src/psrpcore/types/_serializer.py:992). -/
def kindOfTag (t : PyStr) : Option IntKind :=
  [IntKind.psByte, .psSByte, .psUInt16, .psInt16, .psUInt, .psInt, .psUInt64, .psInt64].find?
    (fun k => k.tag == t)

/-- The value read from the element of an integer, /repo/src/psrpcore/types/_serializer.py:1010-1025.
An element without text gives `ps_type(None)`. -/
def deserializeInt (tag text : PyStr) : Except Err (IntKind × Int) :=
  match kindOfTag tag with
  | none => .error .valueError
  | some k =>
    if text = [] then (k.new .none).map (fun v => (k, v))
    else match intOfText text with
      | .ok v => (k.new (.number v)).map (fun v => (k, v))
      | .error e => .error e

end Verif
