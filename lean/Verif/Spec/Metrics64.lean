import Verif.Model.Metrics64
import Verif.Spec.Float64

/-! # Specification vocabulary: distances of `float64` matrices -/

namespace Golearn

/-- All entries within the shape are `float64`s. -/
def Mat64.Ok (x : Mat64) : Prop := ∀ i j, i < x.rows → j < x.cols → IsF64 (x.entry i j)

/-- Same shape and same entries. -/
def Mat64.Same (x y : Mat64) : Prop :=
  x.rows = y.rows ∧ x.cols = y.cols ∧ ∀ i j, i < x.rows → j < x.cols → x.entry i j = y.entry i j

/-- A distance of `float64` matrices, without the triangle inequality. -/
structure IsDistance (dist : Mat64 → Mat64 → Res ℚ) : Prop where
  defined : ∀ x y, x.sameShape y = true → ∃ d, dist x y = Res.ok d
  mismatch : ∀ x y, x.sameShape y = false → dist x y = Res.panic
  nonneg : ∀ x y d, dist x y = Res.ok d → 0 ≤ d
  zero : ∀ x y, x.Ok → y.Ok → (dist x y = Res.ok 0 ↔ x.Same y)
  symm : ∀ x y, dist x y = dist y x

/-- The triangle inequality. -/
def Triangle (dist : Mat64 → Mat64 → Res ℚ) : Prop :=
  ∀ x y z a b c, x.Ok → y.Ok → z.Ok → dist x y = Res.ok a → dist y z = Res.ok b → dist x z = Res.ok c → c ≤ a + b

/-- What is assumed of a sum of `float64`s that are not negative, added in any order: it is a `float64`, at least each
of them, and zero if all are zero. -/
def SumsUp (msum : List ℚ → ℚ) : Prop :=
  ∀ l : List ℚ, (∀ x ∈ l, 0 ≤ x ∧ IsF64 x) →
    IsF64 (msum l) ∧ 0 ≤ msum l ∧ (∀ x ∈ l, x ≤ msum l) ∧ ((∀ x ∈ l, x = 0) → msum l = 0)

/-- What is assumed of a square root of a `float64`: not negative, and zero exactly at zero. -/
def RootLike (sqrt : ℚ → ℚ) : Prop := ∀ x, IsF64 x → 0 ≤ x → 0 ≤ sqrt x ∧ (sqrt x = 0 ↔ x = 0)

/-- The exact distance: the sum of the absolute differences. -/
def exactManhattan (x y : Mat64) : ℚ := (entries64 x.rows x.cols fun i j => |x.entry i j - y.entry i j|).sum

end Golearn
