import Verif.Model.Enum

/-!
# The complement of a flag

`PSFlagBase.__invert__`, /repo/src/psrpcore/types/_enum.py:168-169, which is the one of `enum.Flag` since Python 3.11, for a class
whose values have to be within the bits of its members. Earlier versions of Python give negative numbers and are not modelled.
-/

namespace Verif

/-- The number has one bit (/repo/src/psrpcore/types/_enum.py:168-169, `_is_single_bit` in Python). -/
def singleBit (n : Nat) : Bool := n != 0 && n &&& (n - 1) == 0

/-- `_singles_mask_`, all members of one bit (/repo/src/psrpcore/types/_enum.py:168-169). -/
def singlesMask (ms : Members Nat) : Nat := ms.foldl (fun acc m => if singleBit m.2 then acc ||| m.2 else acc) 0

/-- `~flag`, /repo/src/psrpcore/types/_enum.py:168-169: `self.__class__(self._singles_mask_ & ~self._value_)`. -/
def flagInvert (ms : Members Nat) (v : Nat) : Except Err Nat := flagOf true ms (singlesMask ms ^^^ (singlesMask ms &&& v))

end Verif
