import Verif.Model.Float64
import Verif.Model.Bytes
import Mathlib.Order.WithBot

/-!
# The bit patterns of `float64`

What `math.Float64frombits` and `math.Float64bits` mean (IEEE 754 binary64), which `PackFloatToBytes` and `UnpackBytesToFloat`
(base/util.go:49-60) use, and comparison, sum and halving on patterns. Sign, 11 bits of exponent, 52 bits of fraction.

Simplified: the result of an operation that is zero is the pattern of `+0`, and the result NaN is one pattern.
-/

namespace Golearn

/-- The pattern of `+Inf` without the sign. -/
def infMag : Nat := 0x7FF0000000000000

/-- The pattern without the sign. -/
def mag64 (u : U64) : Nat := u.toNat % 2 ^ 63

/-- The sign bit, `math.Signbit`. -/
def neg64 (u : U64) : Bool := decide (2 ^ 63 ≤ u.toNat)

/-- `math.IsNaN`. -/
def isNaN64 (u : U64) : Bool := decide (infMag < mag64 u)

/-- `math.IsInf(x, 0)`. -/
def isInf64 (u : U64) : Bool := decide (mag64 u = infMag)

/-- Neither an infinity nor NaN. -/
def finite64 (u : U64) : Bool := decide (mag64 u < infMag)

/-- The number with the exponent and fraction `k`: numbers with exponent zero are subnormal. -/
def magVal (k : Nat) : ℚ :=
  if k / 2 ^ 52 = 0 then (k : ℚ) * 2 ^ (-1074 : ℤ)
  else ((2 ^ 52 + k % 2 ^ 52 : Nat) : ℚ) * 2 ^ (((k / 2 ^ 52 : Nat) : ℤ) - 1075)

/-- The number a finite pattern stands for. -/
def val64 (u : U64) : ℚ := if neg64 u then -magVal (mag64 u) else magVal (mag64 u)

/-- The number or infinity a pattern stands for; nothing for NaN. -/
def num64 (u : U64) : Option (WithBot (WithTop ℚ)) :=
  if isNaN64 u then none
  else if isInf64 u then some (if neg64 u then ⊥ else ((⊤ : WithTop ℚ) : WithBot (WithTop ℚ)))
  else some ((val64 u : WithTop ℚ) : WithBot (WithTop ℚ))

/-- `x > y`. -/
def gt64 (u v : U64) : Bool :=
  match num64 u, num64 v with
  | some x, some y => decide (y < x)
  | _, _ => false

/-- `x == y`. -/
def eq64 (u v : U64) : Bool :=
  match num64 u, num64 v with
  | some x, some y => decide (x = y)
  | _, _ => false

/-- Exponent and fraction of the `float64` `x`, which is not negative. -/
def encMag (x : ℚ) : Nat := if x = 0 then 0 else ⌊x / 2 ^ ulpExp x⌋.toNat + (ulpExp x + 1074).toNat * 2 ^ 52

/-- The pattern Go stores for the exact result `x`: rounded, and an infinity if that is too large. -/
def bits64 (x : ℚ) : U64 :=
  BitVec.ofNat 64 ((if 2 ^ 1024 ≤ |round64 x| then infMag else encMag |round64 x|) + if round64 x < 0 then 2 ^ 63 else 0)

/-- One of the patterns of NaN. -/
def nan64 : U64 := 0x7FF8000000000001#64

/-- `x + y`. -/
def add64 (u v : U64) : U64 :=
  if isNaN64 u || isNaN64 v then nan64
  else if isInf64 u then (if isInf64 v && (neg64 u != neg64 v) then nan64 else u)
  else if isInf64 v then v
  else bits64 (val64 u + val64 v)

/-- `x / 2`. -/
def half64 (u : U64) : U64 := if finite64 u then bits64 (val64 u / 2) else u

/-- `(x + y) / 2`, as at trees/entropy.go:136-137. -/
def mid64 (u v : U64) : U64 := half64 (add64 u v)

end Golearn
