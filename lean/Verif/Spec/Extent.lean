import Verif.Model.Records

/-! # Specification of the text of an extent

Columns are numbered from 1, as /repo/src/psrpcore/types/_complex.py:442-443 says of `ColumnNumber`. -/

namespace Verif

/-- The line has this character in this column. -/
def AtColumn (line : PyStr) (column : Int) (x : Nat) : Prop :=
  1 ≤ column ∧ line[(column - 1).toNat]? = some x

/-- The text is what the line has from one column to another, both included. -/
def Columns (line : PyStr) (first last : Int) (text : PyStr) : Prop :=
  ∀ (k : Nat) x, text[k]? = some x ↔ AtColumn line (first + k) x ∧ first + k ≤ last

/-- The text is the end of a line from a column on and the beginning of another up to a column. -/
def AcrossLines (first : PyStr) (start : Int) (last : PyStr) (stop : Int) (text : PyStr) : Prop :=
  ∃ a b, text = a ++ txt! "..." ++ b ∧ Columns first start first.length a ∧ Columns last 1 stop b

end Verif
