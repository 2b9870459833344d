import Verif.Model.Duration

/-! # What a duration is (specification for C25 to C27) -/

namespace Verif

/-- A duration as its constructor builds it: each field within its unit and at most 999999999 days. -/
def Duration.Valid (d : Duration) : Prop :=
  (-999999999 ≤ d.days ∧ d.days ≤ 999999999) ∧ (0 ≤ d.seconds ∧ d.seconds < 86400) ∧
  (0 ≤ d.microseconds ∧ d.microseconds < 1000000) ∧ (0 ≤ d.nanoseconds ∧ d.nanoseconds < 1000)

/-- The numbers of nanoseconds a duration can have: from -999999999 days to just below a billion
days. -/
def NsInRange (n : Int) : Prop :=
  -(999999999 * 86400 * 1000000000) ≤ n ∧ n < 1000000000 * 86400 * 1000000000

/-- The number of nanoseconds, whatever its sign, has a seconds part (0 up to 59.999…) of 10, 20, 30,
40 or 50 whole seconds. -/
def TensOfSeconds (n : Int) : Prop :=
  n.natAbs % 60000000000 ≠ 0 ∧ n.natAbs % 60000000000 % 10000000000 = 0

end Verif
