import Verif.Model.Regression
import Verif.Spec.Knn
import Mathlib.Algebra.BigOperators.Intervals

/-! # Specification vocabulary: linear regression -/

namespace Golearn
open Finset

variable {R : Type} [Field R]

/-- `q` and `r` are the QR factors of the matrix `x` with `m` rows and `n` columns: `x = q r`, the columns of the
square matrix `q` are orthonormal and `r` is zero below the diagonal. -/
structure IsQR (m n : Nat) (x q r : Nat → Nat → R) : Prop where
  product : ∀ i j, i < m → j < n → x i j = ∑ k ∈ range m, q i k * r k j
  orthonormal : ∀ i j, i < m → j < m → ∑ k ∈ range m, q k i * q k j = if i = j then 1 else 0
  triangular : ∀ i j, j < i → r i j = 0

/-- The matrix of explanatory variables: a column of ones and a column for each attribute. -/
def design (x : Nat → List R) (i j : Nat) : R := (1 :: x i).getD j 0

/-- The prediction for numbers `t` with intercept `b0` and coefficients `b`. -/
def linear (b0 : R) (b t : List R) : R := b0 + (List.zipWith (fun x c => x * c) t b).sum

/-- The sum over `n` rows of the squared errors of a prediction. -/
def squaredError (n : Nat) (x : Nat → List R) (y : Nat → R) (b0 : R) (b : List R) : R :=
  ∑ i ∈ range n, (y i - linear b0 b (x i)) * (y i - linear b0 b (x i))

/-- No column of the matrix of explanatory variables is a combination of the others. -/
def Independent (n k : Nat) (x : Nat → List R) : Prop :=
  ∀ b0 b, b.length = k → (∀ i, i < n → linear b0 b (x i) = 0) → b0 = 0 ∧ ∀ v ∈ b, v = 0

end Golearn
