import Verif.Model.Ints

/-! # Ranges and bits (specification for C29, C30, C53) -/

namespace Verif

/-- The width of a .NET integer type in bits. -/
def IntKind.bits : IntKind → Nat
  | .psByte | .psSByte => 8
  | .psUInt16 | .psInt16 => 16
  | .psUInt | .psInt => 32
  | .psUInt64 | .psInt64 => 64

/-- Whether a .NET integer type has a sign. -/
def IntKind.signed : IntKind → Bool
  | .psSByte | .psInt16 | .psInt | .psInt64 => true
  | .psByte | .psUInt16 | .psUInt | .psUInt64 => false

/-- The values of the type: those of its width in bits, in two's complement if it has a sign. -/
def IntKind.InRange (k : IntKind) (v : Int) : Prop :=
  if k.signed then -(2 ^ (k.bits - 1)) ≤ v ∧ v < 2 ^ (k.bits - 1) else 0 ≤ v ∧ v < 2 ^ k.bits

/-- Bit `i` of an integer in two's complement. -/
def bitAt : Int → Nat → Bool
  | .ofNat m, i => m.testBit i
  | .negSucc m, i => !m.testBit i

/-- No constructor call of the expression gets an enum member. -/
def IntExpr.NoEnum : IntExpr → Prop
  | .make (.enum _) => False
  | .make _ => True
  | .un _ x => x.NoEnum
  | .bin _ x y => x.NoEnum ∧ y.NoEnum
  | .binInt _ x _ => x.NoEnum
  | .quot x _ => x.NoEnum

/-- A UTF-16 surrogate. -/
def IsSurrogateUnit (c : Int) : Prop := 0xD800 ≤ c ∧ c ≤ 0xDFFF

end Verif
