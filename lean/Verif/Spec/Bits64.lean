import Verif.Spec.Float64

/-!
The numbers of IEEE 754 binary64 by sign, exponent and fraction.
-/
namespace Golearn

/-- The number with sign bit `s`, exponent field `e` and fraction field `f`. -/
def binary64 (s e f : Nat) : ℚ :=
  (-1) ^ s * (if e = 0 then (f : ℚ) / 2 ^ 52 * 2 ^ (-1022 : ℤ) else (1 + (f : ℚ) / 2 ^ 52) * 2 ^ ((e : ℤ) - 1023))

end Golearn
