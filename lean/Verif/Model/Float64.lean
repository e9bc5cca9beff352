import Mathlib.Data.Int.Log
import Mathlib.Data.Rat.Floor

/-!
Go's `float64` arithmetic as the language defines it on amd64: every `+`, `-`, `*`, `/` of two
`float64`s is the exact result rounded to the nearest `float64`, ties to the one with the even last bit
(IEEE 754 binary64, round to nearest even; the Go specification, section "Numeric types").

Simplified: finite values only. There is no largest exponent, so a result that overflows to an infinity
in Go is a large number here; NaN is `none` where a definition can produce it. There is one zero.
Fused multiply-add, which the Go compiler may use on other architectures, is not modelled.
-/
namespace Golearn

/-- The nearest integer, the even one of two. -/
def nearestEven (q : ℚ) : ℤ :=
  if q - ⌊q⌋ < 1 / 2 then ⌊q⌋
  else if 1 / 2 < q - ⌊q⌋ then ⌊q⌋ + 1
  else if ⌊q⌋ % 2 = 0 then ⌊q⌋ else ⌊q⌋ + 1

/-- The exponent of the last place of a `float64` near `x`: 53 bits of precision, and nothing finer than
2^-1074. -/
def ulpExp (x : ℚ) : ℤ := max (Int.log 2 |x| - 52) (-1074)

/-- The `float64` nearest to `x`: what Go stores for an exact result `x`. -/
def round64 (x : ℚ) : ℚ := nearestEven (x / 2 ^ ulpExp x) * 2 ^ ulpExp x

/-- `a + b` on `float64`. -/
def fadd (a b : ℚ) : ℚ := round64 (a + b)
/-- `a - b` on `float64`. -/
def fsub (a b : ℚ) : ℚ := round64 (a - b)
/-- `a * b` on `float64`. -/
def fmul (a b : ℚ) : ℚ := round64 (a * b)
/-- `a / b` on `float64`; a division by zero gives NaN or an infinity, here `none`. -/
def fquo (a b : ℚ) : Option ℚ := if b = 0 then none else some (round64 (a / b))

end Golearn
