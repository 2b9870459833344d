import Verif.Proof.FloatsShort

/-! # C83: floats are written with few digits -/

namespace Verif

/-- C83, few digits: a float is written with as few digits as any number that is read as it, 17 at most, and of those with that few
with the ones next to it. They are in plain notation from 0.0001 up to 10^16, else behind the first one with an exponent. -/
theorem C83_shortest (u : Nat) (h : IsDouble u) (h0 : u ≠ 0) :
    PyFloat.text (.finite true u) = 45 :: PyFloat.text (.finite false u) ∧
    ∃ m ds p, Decimal m ds ∧ ds.getLast? ≠ some 48 ∧ ds.length ≤ 17 ∧ FloatLayout ds p (PyFloat.text (.finite false u)) ∧
    ∀ n e t, NumberText n e t → floatOfText t = .ok (.finite false u) → 10 ^ (ds.length - 1) ≤ n ∧
      (n < 10 ^ ds.length → |decimalValue false m (p - ds.length) - floatValue false u| ≤
        |decimalValue false n e - floatValue false u|) := ⟨negative_text u, float_shortest h h0⟩

/-- The theorem applies to the smallest double, which `5E-324` is. -/
example : IsDouble 1 ∧ (1 : Nat) ≠ 0 := ⟨⟨1, 0, by decide, by decide, rfl⟩, by decide⟩

end Verif
