import Verif.Model.Pca
import Mathlib.Algebra.BigOperators.Intervals

/-! # Specification vocabulary: principal components -/

namespace Golearn
open Finset

variable {R : Type} [Field R]

/-- A thin singular value decomposition of `x`: `x = u s vᵀ`, the columns of `u` and of `v` are orthonormal, and there
are as many values as the smaller dimension. -/
structure IsThinSvd (x : GMat R) (d : Svd R) : Prop where
  count : d.s.length = min x.rows x.cols
  ushape : d.u.rows = x.rows ∧ d.u.cols = d.s.length
  vshape : d.v.rows = x.cols ∧ d.v.cols = d.s.length
  product : ∀ i j, i < x.rows → j < x.cols →
    x.entry i j = ∑ k ∈ range d.s.length, d.u.entry i k * d.s.getD k 0 * d.v.entry j k
  left : ∀ a b, a < d.s.length → b < d.s.length →
    ∑ i ∈ range x.rows, d.u.entry i a * d.u.entry i b = if a = b then 1 else 0
  right : ∀ a b, a < d.s.length → b < d.s.length →
    ∑ j ∈ range x.cols, d.v.entry j a * d.v.entry j b = if a = b then 1 else 0

/-- The mean of column `j`. -/
def colMean (x : GMat R) (j : Nat) : R := (∑ i ∈ range x.rows, x.entry i j) / (x.rows : R)

end Golearn
