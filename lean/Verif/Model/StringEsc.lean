import Verif.Model.Text

/-!
# CLIXML string escaping

Models `_serialize_string` and `_deserialize_string`,
/repo/src/psrpcore/types/_serializer.py:70-78, 451-486, 588-618. Bytes are
numbers below 256 here. The text put into and read from the XML document is that
of the model; XML quoting is ElementTree's business.
-/

namespace Verif

/-- The UTF-16 code units of one code point
(`encode("utf-16-be", errors="surrogatepass")`, /repo/src/psrpcore/types/_serializer.py:606). -/
def utf16 (c : Nat) : List Nat :=
  if c < 0x10000 then [c] else [0xD800 + (c - 0x10000) / 0x400, 0xDC00 + (c - 0x10000) % 0x400]

/-- The two bytes of a code unit, big endian (/repo/src/psrpcore/types/_serializer.py:483, 606). -/
def unitBytes (u : Nat) : List Nat := [u / 256, u % 256]

/-- An upper case hexadecimal digit (`hexlify(...).decode().upper()`,
/repo/src/psrpcore/types/_serializer.py:607). -/
def hexUpper (d : Nat) : Nat := if d < 10 then 48 + d else 55 + d

/-- The two hexadecimal digits of a byte, /repo/src/psrpcore/types/_serializer.py:607. -/
def hexByte (b : Nat) : PyStr := [hexUpper (b / 16), hexUpper (b % 16)]

/-- `f"_x{i}_"` for the four hexadecimal digits of one code unit: the digits of the whole code
point are cut in groups of four, which are those of its units
(/repo/src/psrpcore/types/_serializer.py:606-610). -/
def escapeUnit (u : Nat) : PyStr := [95, 120] ++ (unitBytes u).flatMap hexByte ++ [95]

/-- `_STRING_SERIAL_ESCAPE`, the characters that are replaced
(/repo/src/psrpcore/types/_serializer.py:74). -/
def needsEscape (c : Nat) : Bool :=
  decide (c ≤ 0x1F) || decide (0x7F ≤ c ∧ c ≤ 0x9F) || decide (0xD800 ≤ c ∧ c ≤ 0xD8FF) ||
  decide (0xDC00 ≤ c ∧ c ≤ 0xDFFF) || decide (0x10000 ≤ c ∧ c ≤ 0x10FFFF)

/-- `rplcr` of `_serialize_string`, /repo/src/psrpcore/types/_serializer.py:604-610, 616. -/
def escapeChar (c : Nat) : PyStr := if needsEscape c then (utf16 c).flatMap escapeUnit else [c]

/-- `re.sub("(?i)_(x)", "_x005F_\\1", value)`, /repo/src/psrpcore/types/_serializer.py:71, 615. -/
def escapeUnderscores : PyStr → PyStr
  | [] => []
  | [c] => [c]
  | c :: d :: s =>
    if c = 95 ∧ (d = 120 ∨ d = 88) then [95, 120, 48, 48, 53, 70, 95, d] ++ escapeUnderscores s
    else c :: escapeUnderscores (d :: s)

/-- `_serialize_string`, /repo/src/psrpcore/types/_serializer.py:588-618. -/
def serializeString (s : PyStr) : PyStr := (escapeUnderscores s).flatMap escapeChar

/-- A surrogate code point, which `encode("utf-16-be")` refuses
(/repo/src/psrpcore/types/_serializer.py:483). -/
def isSurrogate (c : Nat) : Bool := decide (0xD800 ≤ c ∧ c ≤ 0xDFFF)

/-- `value.encode("utf-16-be")`, /repo/src/psrpcore/types/_serializer.py:483. -/
def encodeUtf16 (s : PyStr) : Except Err (List Nat) :=
  if s.any isSurrogate then .error .unicodeError else .ok ((s.flatMap utf16).flatMap unitBytes)

/-- `[a-fA-F0-9]` and its value in `unhexlify` (/repo/src/psrpcore/types/_serializer.py:78, 479). -/
def hexVal (c : Nat) : Option Nat :=
  if 48 ≤ c ∧ c ≤ 57 then some (c - 48)
  else if 65 ≤ c ∧ c ≤ 70 then some (c - 55)
  else if 97 ≤ c ∧ c ≤ 102 then some (c - 87)
  else none

/-- `(?:\x00[a-fA-F0-9]){n}`: the digit values and the bytes behind them
(/repo/src/psrpcore/types/_serializer.py:78). -/
def hexPairs : Nat → List Nat → Option (List Nat × List Nat)
  | 0, bs => some ([], bs)
  | n + 1, 0 :: c :: bs =>
    match hexVal c, hexPairs n bs with
    | some d, some (ds, rest) => some (d :: ds, rest)
    | _, _ => none
  | _, _ => none

/-- A literal of a pattern: the bytes behind it (/repo/src/psrpcore/types/_serializer.py:78). -/
def literal (p bs : List Nat) : Option (List Nat) :=
  if p.isPrefixOf bs then some (bs.drop p.length) else none

/-- `unhexlify` of the four digits, /repo/src/psrpcore/types/_serializer.py:477-479. -/
def unhexlify : List Nat → List Nat
  | a :: b :: ds => (16 * a + b) :: unhexlify ds
  | _ => []

/-- `_STRING_DESERIAL_FIND` at the start of the bytes: the replacement and the bytes behind the
match (/repo/src/psrpcore/types/_serializer.py:78, 470-479). -/
def matchEscape (bs : List Nat) : Option (List Nat × List Nat) :=
  match literal [0, 95, 0, 120] bs with
  | none => none
  | some bs =>
    match hexPairs 4 bs with
    | none => none
    | some (ds, bs) =>
      match literal [0, 95] bs with
      | none => none
      | some bs => some (unhexlify ds, bs)

/-- `re.sub(_STRING_DESERIAL_FIND, rplcr, b_value)` from the left, at every byte offset; the first
argument bounds the number of steps and is at least the number of bytes
(/repo/src/psrpcore/types/_serializer.py:484). -/
def subEscapes : Nat → List Nat → List Nat
  | _, [] => []
  | 0, bs => bs
  | n + 1, b :: bs =>
    match matchEscape (b :: bs) with
    | some (r, rest) => r ++ subEscapes n rest
    | none => b :: subEscapes n bs

/-- The code units of big endian bytes; an odd byte is an error
(/repo/src/psrpcore/types/_serializer.py:486). -/
def bytesUnits : List Nat → Except Err (List Nat)
  | [] => .ok []
  | [_] => .error .unicodeError
  | a :: b :: bs => (bytesUnits bs).map ((256 * a + b) :: ·)

/-- Decoding of code units with `errors="surrogatepass"`: pairs are joined, other surrogates
pass (/repo/src/psrpcore/types/_serializer.py:486). -/
def decodeUnits : List Nat → PyStr
  | [] => []
  | [u] => [u]
  | u :: v :: us =>
    if (0xD800 ≤ u ∧ u ≤ 0xDBFF) ∧ (0xDC00 ≤ v ∧ v ≤ 0xDFFF) then
      (0x10000 + (u - 0xD800) * 0x400 + (v - 0xDC00)) :: decodeUnits us
    else u :: decodeUnits (v :: us)

/-- `_deserialize_string`, /repo/src/psrpcore/types/_serializer.py:451-486. -/
def deserializeString (s : PyStr) : Except Err PyStr :=
  match encodeUtf16 s with
  | .error e => .error e
  | .ok b => (bytesUnits (subEscapes b.length b)).map decodeUnits

end Verif
