import Verif.Model.Ints

/-!
# GUIDs, decimals and floats in texts

Models `str(value).upper()` and `ps_type(element.text)` for `PSGuid`, `PSDecimal`, `PSSingle` and `PSDouble`
(/repo/src/psrpcore/types/_serializer.py:718-774, 1010-1025, /repo/src/psrpcore/types/_primitive.py:769-840, 880-940). The
classes take over what `uuid.UUID`, `decimal.Decimal` and `float` do, which is modelled here as far as it is used.
-/

namespace Verif

/-! ## GUIDs -/

/-- A lower case hexadecimal digit, `"%032x"` of `str(uuid)` (/repo/src/psrpcore/types/_serializer.py:771). -/
def hexLower (d : Nat) : Nat := if d < 10 then 48 + d else 87 + d

/-- `w` hexadecimal digits, `"%032x"` of `str(uuid)` (/repo/src/psrpcore/types/_serializer.py:771). -/
def hexRow : Nat → Nat → PyStr
  | 0, _ => []
  | w + 1, n => hexRow w (n / 16) ++ [hexLower (n % 16)]

/-- `str(value)` of a `PSGuid` (/repo/src/psrpcore/types/_serializer.py:771): the 32 digits with hyphens behind the 8th, 12th,
16th and 20th. The value of a GUID is its number, below 2^128. -/
def guidStr (n : Nat) : PyStr :=
  let h := hexRow 32 n
  h.take 8 ++ 45 :: (h.drop 8).take 4 ++ 45 :: (h.drop 12).take 4 ++ 45 :: (h.drop 16).take 4 ++ 45 :: h.drop 20

/-- `s.replace(pat, "")`, in `uuid.UUID.__init__` (/repo/src/psrpcore/types/_primitive.py:909). The number bounds the
characters looked at. -/
def removeAux (pat : PyStr) : Nat → PyStr → PyStr
  | 0, s => s
  | _ + 1, [] => []
  | n + 1, c :: cs =>
    if pat.isPrefixOf (c :: cs) then removeAux pat n ((c :: cs).drop pat.length) else c :: removeAux pat n cs

/-- `s.replace(pat, "")`, in `uuid.UUID.__init__` (/repo/src/psrpcore/types/_primitive.py:909). -/
def removeAll (pat s : PyStr) : PyStr := removeAux pat s.length s

/-- A digit `int(s, 16)` takes: a decimal digit of any script or a letter up to `f` (in `uuid.UUID.__init__`,
/repo/src/psrpcore/types/_primitive.py:909). -/
def hexDigitAny (c : Nat) : Option Nat :=
  if 97 ≤ c ∧ c ≤ 102 then some (c - 87) else if 65 ≤ c ∧ c ≤ 70 then some (c - 55) else unicodeDigit c

/-- The part of `int(s, 16)` behind the sign: an optional `0x`, behind which an underscore may stand, and digits (in
`uuid.UUID.__init__`, /repo/src/psrpcore/types/_primitive.py:909). -/
def scanHex : PyStr → Option Nat
  | c :: x :: cs =>
    if unicodeDigit c = some 0 ∧ (x = 120 ∨ x = 88) then
      scanGroups hexDigitAny 16 false 0 (if cs.head? = some 95 then cs.drop 1 else cs)
    else scanGroups hexDigitAny 16 false 0 (c :: x :: cs)
  | s => scanGroups hexDigitAny 16 false 0 s

/-- `PSGuid(text)` for a text, /repo/src/psrpcore/types/_primitive.py:898-909: `uuid.UUID(text)`. -/
def guidOfText (s : PyStr) : Except Err Nat :=
  let h := removeAll (txt! "-") (stripBy (fun c => c == 123 || c == 125) (removeAll (txt! "uuid:") (removeAll (txt! "urn:") s)))
  if h.length ≠ 32 then .error .valueError
  else match signedOf scanHex (stripBy numSpace h) with
    | some v => .ok v.toNat
    | none => .error .valueError

/-! ## Numbers with a point or an exponent -/

/-- The character `int`, `float` and `Decimal` make of one that is not in ASCII: a blank, a digit, or one that fits nowhere
(/repo/src/psrpcore/types/_serializer.py:1025). -/
def asciiOf (c : Nat) : Nat :=
  if c < 127 then c else if numSpace c then 32 else match unicodeDigit c with | some d => 48 + d | none => 63

/-- A digit in ASCII (`float(text)` and `Decimal(text)`, /repo/src/psrpcore/types/_serializer.py:1025). -/
def isDigit (c : Nat) : Bool := 48 ≤ c && c ≤ 57

/-- The exponent of a number: `e` and an integer up to the end, or nothing (`float(text)` and `Decimal(text)`,
/repo/src/psrpcore/types/_serializer.py:1025). -/
def scanExponent : PyStr → Option Int
  | [] => some 0
  | c :: cs =>
    if c = 101 ∨ c = 69 then
      signedOf (fun ds => if ds ≠ [] ∧ ds.all isDigit then some (digitsVal (ds.map (· - 48))) else none) cs
    else none

/-- A number without its sign: `digits[.digits][e[sign]digits]` with a digit before the exponent at least. Given are its
digits as a number, and the power of ten they are multiplied with (`float(text)` and `Decimal(text)`,
/repo/src/psrpcore/types/_serializer.py:1025). -/
def scanNumber (s : PyStr) : Option (Nat × Int) :=
  let whole := s.takeWhile isDigit
  let rest := s.dropWhile isDigit
  let frac := if rest.head? = some 46 then (rest.drop 1).takeWhile isDigit else []
  let rest := if rest.head? = some 46 then (rest.drop 1).dropWhile isDigit else rest
  if whole ++ frac = [] then none
  else (scanExponent rest).map fun e : Int => (digitsVal ((whole ++ frac).map (· - 48)), e - (frac.length : Int))

/-- The sign of a text, and what is behind it (`float(text)` and `Decimal(text)`,
/repo/src/psrpcore/types/_serializer.py:1025). -/
def splitSign : PyStr → Bool × PyStr
  | 45 :: cs => (true, cs)
  | 43 :: cs => (false, cs)
  | cs => (false, cs)

/-! ## Decimals -/

/-- A `decimal.Decimal`, /repo/src/psrpcore/types/_primitive.py:818-840: sign, coefficient and exponent of ten, or a special
value. A NaN may carry a number; 0 stands for none. The limits of the context on exponents and digits (10^18) are not
modelled. -/
inductive PyDecimal
  | finite (neg : Bool) (coeff : Nat) (exp : Int)
  | infinity (neg : Bool)
  | nan (neg signaling : Bool) (payload : Nat)
deriving DecidableEq, Repr

/-- A sign in front of a text (`Decimal.__str__` and `float.__str__`,
/repo/src/psrpcore/types/_primitive.py:790, 815, 840). -/
def signText (neg : Bool) (s : PyStr) : PyStr := if neg then 45 :: s else s

/-- `"%+d" % n`, in `Decimal.__str__` (/repo/src/psrpcore/types/_primitive.py:840). -/
def signedText (n : Int) : PyStr := if n < 0 then intStr n else 43 :: intStr n

/-- `Decimal.__str__` of a number without its sign (/repo/src/psrpcore/types/_primitive.py:840): in plain notation if the
exponent is not positive and at most five zeros stand behind the point, else with an exponent. -/
def decimalDigits (coeff : Nat) (exp : Int) : PyStr :=
  let ds := natStr coeff
  let left : Int := exp + ds.length
  let dot : Int := if exp ≤ 0 ∧ left > -6 then left else 1
  let mantissa :=
    if dot ≤ 0 then txt! "0." ++ List.replicate (-dot).toNat 48 ++ ds
    else if dot ≥ ds.length then ds ++ List.replicate (dot - ds.length).toNat 48
    else ds.take dot.toNat ++ 46 :: ds.drop dot.toNat
  if left = dot then mantissa else mantissa ++ 69 :: signedText (left - dot)

/-- `Decimal.__str__`, /repo/src/psrpcore/types/_primitive.py:839-840. -/
def PyDecimal.str : PyDecimal → PyStr
  | finite neg coeff exp => signText neg (decimalDigits coeff exp)
  | infinity neg => signText neg (txt! "Infinity")
  | nan neg signaling payload =>
    signText neg ((if signaling then txt! "sNaN" else txt! "NaN") ++ if payload = 0 then [] else natStr payload)

/-- The text of a decimal in a document, /repo/src/psrpcore/types/_serializer.py:753. -/
def PyDecimal.text (d : PyDecimal) : PyStr := upperAscii d.str

/-- `str.isspace`, the characters `Decimal` skips around a number (/repo/src/psrpcore/types/_serializer.py:1025). -/
def strSpace (c : Nat) : Bool := numSpace c || (0x1C ≤ c && c ≤ 0x1F)

/-- A decimal without its sign, letters in lower case (`Decimal(text)`,
/repo/src/psrpcore/types/_serializer.py:1025). -/
def decimalOfLower (neg : Bool) (s : PyStr) : Option PyDecimal :=
  if s = txt! "inf" ∨ s = txt! "infinity" then some (.infinity neg)
  else if (txt! "nan").isPrefixOf s then
    if (s.drop 3).all isDigit then some (.nan neg false (digitsVal ((s.drop 3).map (· - 48)))) else none
  else if (txt! "snan").isPrefixOf s then
    if (s.drop 4).all isDigit then some (.nan neg true (digitsVal ((s.drop 4).map (· - 48)))) else none
  else (scanNumber s).map fun x : Nat × Int => .finite neg x.1 x.2

/-- `PSDecimal(text)` for a text, /repo/src/psrpcore/types/_serializer.py:1025: white space around it and all underscores are
left out. -/
def decimalOfText (s : PyStr) : Except Err PyDecimal :=
  let t := lowerAscii (((stripBy strSpace s).map asciiOf).filter (· ≠ 95))
  match decimalOfLower (splitSign t).1 (splitSign t).2 with
  | some d => .ok d
  | none => .error .decimalError

/-! ## Floats -/

/-- A Python `float`, /repo/src/psrpcore/types/_primitive.py:769-815, a double of IEEE 754. A finite one is a multiple of the
smallest one, 2^-1074, with a sign. Which NaN it is does not show. -/
inductive PyFloat
  | finite (neg : Bool) (units : Nat)
  | infinity (neg : Bool)
  | nan
deriving DecidableEq, Repr

/-- How often the smallest double, 2^-1074, is in 1 (/repo/src/psrpcore/types/_primitive.py:769-815). -/
@[irreducible] def unitsPerOne : Nat := 2 ^ 1074

/-- Doubles are less than 2^1024, which is 2^2098 times the smallest one
(/repo/src/psrpcore/types/_primitive.py:769-815). -/
@[irreducible] def unitsLimit : Nat := 2 ^ 2098

/-- The integer next to `n / d`, of two the even one (`float(text)`, /repo/src/psrpcore/types/_serializer.py:1025). -/
def roundedQuot (n d : Nat) : Nat :=
  if 2 * (n % d) > d then n / d + 1 else if 2 * (n % d) = d then n / d + n / d % 2 else n / d

/-- The least shift with which `n / d` has 53 bits before the point (`float(text)`,
/repo/src/psrpcore/types/_serializer.py:1025). `none`: no double does. -/
def shiftFor (n d : Nat) : Option Nat := (List.range 2046).find? fun i => n < d * 2 ^ (53 + i)

/-- `n / d` rounded to a multiple of `2^i`, if it is not too large for a double (`float(text)`,
/repo/src/psrpcore/types/_serializer.py:1025). -/
def roundedAt (n d i : Nat) : Option Nat :=
  if roundedQuot n (d * 2 ^ i) * 2 ^ i < unitsLimit then some (roundedQuot n (d * 2 ^ i) * 2 ^ i) else none

/-- The double next to `num / den`, in units of 2^-1074, of two the even one (`float(text)`,
/repo/src/psrpcore/types/_serializer.py:1025). `none`: it is too large. -/
def nearestUnits (num den : Nat) : Option Nat :=
  (shiftFor (num * unitsPerOne) den).bind (roundedAt (num * unitsPerOne) den)

/-- The double next to `c * 10^q` (`float(text)`, /repo/src/psrpcore/types/_serializer.py:1025). -/
def nearestDecimal (c : Nat) (q : Int) : Option Nat :=
  if 0 ≤ q then nearestUnits (c * 10 ^ q.toNat) 1 else nearestUnits c (10 ^ (-q).toNat)

/-- The place of the point in a finite double other than zero: the least `k` with `x < 10^k` (`float.__str__`,
/repo/src/psrpcore/types/_primitive.py:790, 815). -/
def pointPlace (units : Nat) : Int :=
  (((List.range 700).find? fun i => units * 10 ^ 330 < unitsPerOne * 10 ^ i).getD 330 : Int) - 330

/-- The two numbers of `n` digits around a double, the closer one first, of two the even one (`float.__str__`,
/repo/src/psrpcore/types/_primitive.py:790, 815). They are multiples of `10^(k - n)`. -/
def digitsAround (units : Nat) (k : Int) (n : Nat) : List Nat :=
  let s := (n : Int) - k
  let a := if 0 ≤ s then units * 10 ^ s.toNat else units
  let b := if 0 ≤ s then unitsPerOne else unitsPerOne * 10 ^ (-s).toNat
  let d := a / b
  if 2 * (a % b) < b ∨ (2 * (a % b) = b ∧ d % 2 = 0) then [d, d + 1] else [d + 1, d]

/-- All digits of a finite double (`float.__str__`, /repo/src/psrpcore/types/_primitive.py:790, 815). -/
@[irreducible] def allDigits (units : Nat) : Nat × Int := (units * 5 ^ 1074, -1074)

/-- The numbers of up to 17 digits next to a finite double, the shortest ones first (`float.__str__`,
/repo/src/psrpcore/types/_primitive.py:790, 815). -/
def shortDigits (units : Nat) : List (Nat × Int) :=
  let k := pointPlace units
  (List.range 17).flatMap fun n => (digitsAround units k (n + 1)).map fun d => (d, k - ((n : Int) + 1))

/-- The shortest digits a finite double is read from again, and the power of ten they are multiplied with (`float.__str__`,
/repo/src/psrpcore/types/_primitive.py:790, 815). CPython has them from `_Py_dg_dtoa` in mode 0; here all lengths are tried.
17 digits are always enough; all digits are given if they are not. -/
def shortestDigits (units : Nat) : Nat × Int :=
  ((shortDigits units).find? fun x : Nat × Int => nearestDecimal x.1 x.2 = some units).getD (allDigits units)

/-- Digits without the zeros at the end (`float.__str__`, /repo/src/psrpcore/types/_primitive.py:790, 815). -/
def dropZeros (s : PyStr) : PyStr := (s.reverse.dropWhile (· == 48)).reverse

/-- `repr` of a finite double without its sign, from its digits and the place of the point (`float.__str__`,
/repo/src/psrpcore/types/_primitive.py:790, 815): with an exponent of two digits at least if the point is not within the
first 16 digits, or more than three zeros follow it. -/
def floatDigits (ds : PyStr) (place : Int) : PyStr :=
  if -4 < place ∧ place ≤ 16 then
    if place ≤ 0 then txt! "0." ++ List.replicate (-place).toNat 48 ++ ds
    else if place ≥ ds.length then ds ++ List.replicate (place - ds.length).toNat 48 ++ txt! ".0"
    else ds.take place.toNat ++ 46 :: ds.drop place.toNat
  else
    let e := natStr (place - 1).natAbs
    ds.take 1 ++ (if ds.length > 1 then 46 :: ds.drop 1 else []) ++
      101 :: (if place - 1 < 0 then 45 else 43) :: (if e.length < 2 then 48 :: e else e)

/-- `repr` of a finite double without its sign (`float.__str__`, /repo/src/psrpcore/types/_primitive.py:790, 815). -/
def unitsText (units : Nat) : PyStr :=
  if units = 0 then txt! "0.0"
  else floatDigits (dropZeros (natStr (shortestDigits units).1))
    ((shortestDigits units).2 + (natStr (shortestDigits units).1).length)

/-- `float.__str__`, /repo/src/psrpcore/types/_primitive.py:789-790, 814-815. -/
def PyFloat.str : PyFloat → PyStr
  | finite neg units => signText neg (unitsText units)
  | infinity neg => signText neg (txt! "inf")
  | nan => txt! "nan"

/-- The text of a float in a document, /repo/src/psrpcore/types/_serializer.py:753. -/
def PyFloat.text (x : PyFloat) : PyStr := upperAscii x.str

/-- Whether underscores stand between digits only, and the text without them (`float(text)`,
/repo/src/psrpcore/types/_serializer.py:1025). `prev` is the character before. -/
def dropUnderscores : Nat → PyStr → Option PyStr
  | prev, [] => if prev = 95 then none else some []
  | prev, c :: cs =>
    if c = 95 then if isDigit prev then dropUnderscores 95 cs else none
    else if prev = 95 ∧ ¬ isDigit c then none
    else (dropUnderscores c cs).map (c :: ·)

/-- A float without its sign, letters in lower case (`float(text)`, /repo/src/psrpcore/types/_serializer.py:1025). -/
def floatOfLower (neg : Bool) (s : PyStr) : Option PyFloat :=
  if s = txt! "inf" ∨ s = txt! "infinity" then some (.infinity neg)
  else if s = txt! "nan" then some .nan
  else (scanNumber s).map fun x : Nat × Int =>
    match nearestDecimal x.1 x.2 with
    | some u => .finite neg u
    | none => .infinity neg

/-- `PSSingle(text)` and `PSDouble(text)` for a text, /repo/src/psrpcore/types/_serializer.py:1025: both are doubles. -/
def floatOfText (s : PyStr) : Except Err PyFloat :=
  match dropUnderscores 0 (lowerAscii (stripBy numSpace (s.map asciiOf))) with
  | none => .error .valueError
  | some t =>
    match floatOfLower (splitSign t).1 (splitSign t).2 with
    | some x => .ok x
    | none => .error .valueError

end Verif
