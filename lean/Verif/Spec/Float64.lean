import Mathlib.Data.Rat.Floor

/-!
The finite `float64` values, from IEEE 754 binary64, without a largest exponent.
-/
namespace Golearn

/-- `x` is a `float64`: an integer of at most 53 bits times a power of two that is at least 2^-1074. -/
def IsF64 (x : ℚ) : Prop := ∃ m e : ℤ, -1074 ≤ e ∧ |m| < 2 ^ 53 ∧ x = m * 2 ^ e

/-- `r` is the `float64` nearest to `x`. -/
def Nearest64 (x r : ℚ) : Prop := IsF64 r ∧ ∀ y, IsF64 y → |r - x| ≤ |y - x|

end Golearn
