/-!
# Common definitions of the model

Exceptions as values, Python dicts as association lists, byte strings and the
`struct` encodings the library uses.
-/

namespace Verif

/-- The exceptions raised by the modelled code.
Models the exception classes of /repo/src/psrpcore/_exceptions.py:12-86 and the
built-in Python exceptions raised by the modelled functions. Messages and
attributes of the exceptions are not modelled. -/
inductive Err
  /-- `struct.error` -/
  | structError
  /-- `ValueError` -/
  | valueError
  /-- `KeyError` -/
  | keyError
  /-- `TypeError` -/
  | typeError
  /-- `AttributeError` -/
  | attributeError
  /-- `OverflowError` -/
  | overflowError
  /-- `IndexError` -/
  | indexError
  /-- `ZeroDivisionError` -/
  | zeroDivisionError
  /-- `RuntimeError` -/
  | runtimeError
  /-- `RecursionError` -/
  | recursionError
  /-- `UnicodeError` -/
  | unicodeError
  /-- `ElementTree.ParseError` -/
  | parseError
  /-- `PSRPCoreError`, _exceptions.py:12 -/
  | psrpCore
  /-- `MissingCipherError`, _exceptions.py:16 -/
  | missingCipher
  /-- `InvalidRunspacePoolState`, _exceptions.py:52 -/
  | invalidPoolState
  /-- `InvalidPipelineState`, _exceptions.py:58 -/
  | invalidPipelineState
  /-- `InvalidProtocolVersion`, _exceptions.py:64 -/
  | invalidProtocolVersion
  /-- `decimal.InvalidOperation` (/repo/src/psrpcore/types/_serializer.py:1025). -/
  | decimalError
  /-- any other exception, raised by an object of the caller (numbered) -/
  | raised (n : Nat)
deriving DecidableEq, Repr

deriving instance DecidableEq for Except

/-- Byte strings: Python `bytes` / `bytearray` values
(/repo/src/psrpcore/_payload.py:15-42 uses both). -/
abbrev Bytes := List UInt8

/-! ## Python dicts -/

/-- A Python `dict` with keys `α`: the list of items in insertion order.
Models the dicts of /repo/src/psrpcore/_base.py:128-148. -/
abbrev Dict (α β : Type) := List (α × β)

namespace Dict

variable {α β : Type} [DecidableEq α]

/-- `d[k]` / `d.get(k)` (/repo/src/psrpcore/_base.py:346). -/
def get? : Dict α β → α → Option β
  | [], _ => none
  | (k, v) :: d, k' => if k = k' then some v else get? d k'

/-- `d[k] = v`: overwrite in place, or append at the end when the key is new
(/repo/src/psrpcore/_base.py:342). -/
def set : Dict α β → α → β → Dict α β
  | [], k', v' => [(k', v')]
  | (k, v) :: d, k', v' => if k = k' then (k, v') :: d else (k, v) :: set d k' v'

/-- `del d[k]` / `d.pop(k, None)` (/repo/src/psrpcore/_base.py:343, 348, 554). -/
def erase : Dict α β → α → Dict α β
  | [], _ => []
  | (k, v) :: d, k' => if k = k' then d else (k, v) :: erase d k'

/-- The keys in insertion order (/repo/src/psrpcore/_base.py:345). -/
def keys (d : Dict α β) : List α := d.map Prod.fst

/-- `k in d` (/repo/src/psrpcore/_server.py:268). -/
def contains (d : Dict α β) (k : α) : Bool := (d.get? k).isSome

end Dict

/-! ## struct -/

/-- `struct.pack("<..", n)` for an unsigned little endian field of `k` bytes
(/repo/src/psrpcore/_payload.py:188-189); no range check, see `packLE`. -/
def leEnc : Nat → Nat → Bytes
  | 0, _ => []
  | k + 1, n => UInt8.ofNat (n % 256) :: leEnc k (n / 256)

/-- Value of a little endian byte string (/repo/src/psrpcore/_payload.py:254). -/
def leDec : Bytes → Nat
  | [] => 0
  | b :: bs => b.toNat + 256 * leDec bs

/-- Big endian encoding in `k` bytes (/repo/src/psrpcore/_payload.py:232-235). -/
def beEnc (k n : Nat) : Bytes := (leEnc k n).reverse

/-- Value of a big endian byte string (/repo/src/psrpcore/_payload.py:282). -/
def beDec (bs : Bytes) : Nat := leDec bs.reverse

/-- `struct.pack` of an unsigned big endian field of `k` bytes: out of range
values raise `struct.error` (/repo/src/psrpcore/_payload.py:232-235). -/
def packBE (k n : Nat) : Except Err Bytes :=
  if n < 256 ^ k then .ok (beEnc k n) else .error .structError

/-- `struct.pack` of an unsigned little endian field of `k` bytes
(/repo/src/psrpcore/_payload.py:188-189). -/
def packLE (k n : Nat) : Except Err Bytes :=
  if n < 256 ^ k then .ok (leEnc k n) else .error .structError

/-- `struct.unpack` of an unsigned big endian field: the buffer must have
exactly the size of the field (/repo/src/psrpcore/_payload.py:282-287). -/
def unpackBE (k : Nat) (b : Bytes) : Except Err Nat :=
  if b.length = k then .ok (beDec b) else .error .structError

/-- `struct.unpack` of an unsigned little endian field
(/repo/src/psrpcore/_payload.py:254-255). -/
def unpackLE (k : Nat) (b : Bytes) : Except Err Nat :=
  if b.length = k then .ok (leDec b) else .error .structError

/-- A Python slice `b[i:j]` with `0 ≤ i ≤ j` (/repo/src/psrpcore/_payload.py:282-289). -/
def slice {α : Type} (b : List α) (i j : Nat) : List α := (b.take j).drop i

end Verif
