import Verif.Model.Common

/-!
# Python text

`str` values as lists of code points, `str(int)` and `int(str)`.
-/

namespace Verif

/-- A Python `str`: its code points. Lone surrogates are possible, as in Python
(/repo/src/psrpcore/types/_serializer.py:463, 603 rely on it). -/
abbrev PyStr := List Nat

/-- A text literal of the source, e.g. `"PT"` (/repo/src/psrpcore/types/_serializer.py:541). -/
def lit (s : String) : PyStr := s.toList.map Char.toNat

/-- A Python text written in the model, spelled out as the list of its code points. -/
syntax "txt! " str : term

macro_rules
  | `(txt! $s) => do
    let ns := s.getString.toList.map fun c => Lean.Syntax.mkNumLit (toString c.toNat)
    `(([$(ns.toArray),*] : PyStr))

example : txt! "System.Int32[]" = lit "System.Int32[]" := rfl

/-- Decimal digits of `n`, most significant first; `fuel` bounds the number of digits
(`str(int)`, /repo/src/psrpcore/types/_primitive.py:1057). -/
def natDigitsAux : Nat → Nat → PyStr
  | 0, _ => []
  | fuel + 1, n => if n < 10 then [48 + n] else natDigitsAux fuel (n / 10) ++ [48 + n % 10]

/-- `str(n)` for a non-negative `int` (/repo/src/psrpcore/types/_primitive.py:1057,
/repo/src/psrpcore/types/_serializer.py:551-566). CPython's limit on the number
of digits (4300, a `ValueError`) is not modelled. -/
def natStr (n : Nat) : PyStr := natDigitsAux (n + 1) n

/-- `str(n)` for an `int` (/repo/src/psrpcore/types/_primitive.py:1057). -/
def intStr : Int → PyStr
  | .ofNat n => natStr n
  | .negSucc n => 45 :: natStr (n + 1)

/-- The value of a sequence of digit values, most significant first: `int(s)`
for a text of digits (/repo/src/psrpcore/types/_primitive.py:1024-1027). -/
def digitsVal (ds : List Nat) : Nat := ds.foldl (fun acc d => acc * 10 + d) 0

/-- The value of an ASCII digit `0`..`9` (`int` of one digit,
/repo/src/psrpcore/types/_primitive.py:1024-1027). -/
def asciiDigit (c : Nat) : Option Nat := if 48 ≤ c ∧ c ≤ 57 then some (c - 48) else none

/-- The zeros of the scripts: `unicodedata.decimal` is `d` for the character `d` behind one of them
(`int(s)`, /repo/src/psrpcore/types/_primitive.py:123). The table is that of Unicode 14 (Python 3.11); other versions of
Python know some scripts less or more. -/
def digitZeros : List Nat :=
  [0x0030, 0x0660, 0x06F0, 0x07C0, 0x0966, 0x09E6, 0x0A66, 0x0AE6, 0x0B66, 0x0BE6, 0x0C66, 0x0CE6, 0x0D66,
   0x0DE6, 0x0E50, 0x0ED0, 0x0F20, 0x1040, 0x1090, 0x17E0, 0x1810, 0x1946, 0x19D0, 0x1A80, 0x1A90, 0x1B50,
   0x1BB0, 0x1C40, 0x1C50, 0xA620, 0xA8D0, 0xA900, 0xA9D0, 0xA9F0, 0xAA50, 0xABF0, 0xFF10, 0x104A0, 0x10D30,
   0x11066, 0x110F0, 0x11136, 0x111D0, 0x112F0, 0x11450, 0x114D0, 0x11650, 0x116C0, 0x11730, 0x118E0, 0x11950,
   0x11C50, 0x11D50, 0x11DA0, 0x16A60, 0x16AC0, 0x16B50, 0x1D7CE, 0x1D7D8, 0x1D7E2, 0x1D7EC, 0x1D7F6, 0x1E140,
   0x1E2F0, 0x1E950, 0x1FBF0]

/-- The value of a decimal digit of any script, `Py_UNICODE_TODECIMAL`
(`int(s)`, /repo/src/psrpcore/types/_primitive.py:123). -/
def unicodeDigit (c : Nat) : Option Nat := (digitZeros.find? fun z => z ≤ c && c < z + 10).map (c - ·)

/-- The characters `int` and `float` skip around a number: the white space of ASCII and that of Unicode
(/repo/src/psrpcore/types/_primitive.py:123). -/
def numSpace (c : Nat) : Bool :=
  (9 ≤ c && c ≤ 13) || c == 32 || c == 0x85 || c == 0xA0 || c == 0x1680 || (0x2000 ≤ c && c ≤ 0x200A) ||
  c == 0x2028 || c == 0x2029 || c == 0x202F || c == 0x205F || c == 0x3000

/-- A text without the characters at its ends that have a property, as `str.strip`
(`int(s)`, /repo/src/psrpcore/types/_primitive.py:123). -/
def stripBy (p : Nat → Bool) (s : PyStr) : PyStr := ((s.dropWhile p).reverse.dropWhile p).reverse

/-- The digits of a number in some base, with single underscores between them (`int(s)`,
/repo/src/psrpcore/types/_primitive.py:123). The first argument tells whether a digit came right before, the second is
the number so far. CPython's limit of 4300 digits (a `ValueError`) is not modelled. -/
def scanGroups (digit : Nat → Option Nat) (base : Nat) : Bool → Nat → PyStr → Option Nat
  | behind, n, [] => if behind then some n else none
  | behind, n, c :: cs =>
    if c = 95 then if behind then scanGroups digit base false n cs else none
    else match digit c with
      | some d => scanGroups digit base true (base * n + d) cs
      | none => none

/-- `value.upper()`, /repo/src/psrpcore/_clixml_shell.py:128. Simplified: only ASCII letters have
an upper case. -/
def upperAscii (s : PyStr) : PyStr := s.map fun c => if 97 ≤ c ∧ c ≤ 122 then c - 32 else c

/-- `text.lower()`, /repo/src/psrpcore/types/_serializer.py:987. Only ASCII letters are modelled. -/
def lowerAscii (s : PyStr) : PyStr := s.map fun c => if 65 ≤ c ∧ c ≤ 90 then c + 32 else c

end Verif
