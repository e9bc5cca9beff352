import Verif.Model.Core
import Mathlib.Analysis.SpecialFunctions.Exp
import Mathlib.Analysis.Real.Sqrt

/-!
# Distances and kernels (metrics/pairwise)

A matrix (`mat.Dense`) has rows, columns and entries. Entries are real numbers: nothing is rounded and there is
no NaN in the input. A mismatch of shapes panics, in the functions themselves or in the library functions `Sub` and
`MulElem`.
-/

namespace Golearn

/-- `mat.Dense`. Entries outside the shape are never read. -/
structure Mat where
  rows : Nat
  cols : Nat
  entry : Nat → Nat → ℝ

namespace Mat

/-- `FloatsToMatrix`, utilities/utilities.go:40-42. -/
def ofFloats (l : List ℝ) : Mat := ⟨1, l.length, fun _ j => l.getD j 0⟩

/-- Same shape. -/
def sameShape (x y : Mat) : Bool := x.rows == y.rows && x.cols == y.cols

/-- The library's `Sub`. -/
def sub (x y : Mat) : Res Mat :=
  if x.sameShape y then Res.ok ⟨x.rows, x.cols, fun i j => x.entry i j - y.entry i j⟩ else Res.panic

/-- The library's `MulElem`. -/
def mulElem (x y : Mat) : Res Mat :=
  if x.sameShape y then Res.ok ⟨x.rows, x.cols, fun i j => x.entry i j * y.entry i j⟩ else Res.panic

/-- Two nested loops over the entries, updating an accumulator. -/
def loop {α : Type} (r c : Nat) (f : α → Nat → Nat → α) (init : α) : α :=
  (List.range r).foldl (fun acc i => (List.range c).foldl (fun acc j => f acc i j) acc) init

/-- The library's `mat.Sum`. -/
noncomputable def total (x : Mat) : ℝ := loop x.rows x.cols (fun acc i j => acc + x.entry i j) 0

end Mat

/-- `Euclidean.InnerProduct`, metrics/pairwise/euclidean.go:16-23, and `Cosine.Dot`,
metrics/pairwise/cosine.go:16-22. -/
noncomputable def innerProduct (x y : Mat) : Res ℝ := (x.mulElem y).map Mat.total

/-- `Euclidean.Distance`, metrics/pairwise/euclidean.go:26-33. -/
noncomputable def euclideanDist (x y : Mat) : Res ℝ :=
  (x.sub y).bind fun d => (innerProduct d d).map Real.sqrt

/-- `Manhattan.Distance`, metrics/pairwise/manhattan.go:18-33. -/
noncomputable def manhattanDist (x y : Mat) : Res ℝ :=
  if x.sameShape y then
    Res.ok (Mat.loop x.rows x.cols (fun acc i j => acc + |x.entry i j - y.entry i j|) 0)
  else Res.panic

/-- `Chebyshev.Distance`, metrics/pairwise/chebyshev.go:16-32. -/
noncomputable def chebyshevDist (x y : Mat) : Res ℝ :=
  if x.sameShape y then
    Res.ok (Mat.loop x.rows x.cols (fun acc i j => max acc |x.entry i j - y.entry i j|) 0)
  else Res.panic

/-- `cranberraDistanceStep`, metrics/pairwise/cranberra.go:16-21. The denominator is zero only if the numerator
is. -/
noncomputable def cranberraStep (num denom : ℝ) : ℝ :=
  open Classical in if num = 0 ∧ denom = 0 then 0 else num / denom

/-- `Cranberra.Distance`, metrics/pairwise/cranberra.go:23-45. -/
noncomputable def cranberraDist (x y : Mat) : Res ℝ :=
  if x.sameShape y then
    Res.ok (Mat.loop x.rows x.cols (fun acc i j =>
      acc + cranberraStep |x.entry i j - y.entry i j| (|x.entry i j| + |y.entry i j|)) 0)
  else Res.panic

/-- `Cosine.Distance`, metrics/pairwise/cosine.go:26-34. `none` is NaN: with a length of zero the quotient is zero by
zero. -/
noncomputable def cosineDist (x y : Mat) : Res (Option ℝ) :=
  (innerProduct x y).bind fun xy =>
    (innerProduct x x).bind fun xx =>
      (innerProduct y y).map fun yy =>
        open Classical in
        if Real.sqrt xx * Real.sqrt yy = 0 then none else some (1 - xy / (Real.sqrt xx * Real.sqrt yy))

/-- `RBFKernel.InnerProduct`, metrics/pairwise/rbf_kernel.go:20-27. -/
noncomputable def rbfKernel (gamma : ℝ) (x y : Mat) : Res ℝ :=
  (euclideanDist x y).map fun d => Real.exp (-gamma * d ^ 2)

/-- The library's `mat.Dot` of the first columns: their lengths must agree and there must be a first column. -/
noncomputable def dotFirstColumns (x y : Mat) : Res ℝ :=
  if x.cols = 0 ∨ y.cols = 0 then Res.panic
  else if x.rows = y.rows then
    Res.ok ((List.range x.rows).foldl (fun acc i => acc + x.entry i 0 * y.entry i 0) 0)
  else Res.panic

/-- `PolyKernel.InnerProduct`, metrics/pairwise/poly_kernel.go:20-27. `math.Pow` with a whole exponent; `none` is the
infinity of zero to a negative power. -/
noncomputable def polyKernel (degree : Int) (x y : Mat) : Res (Option ℝ) :=
  (dotFirstColumns x y).map fun d =>
    open Classical in if d + 1 = 0 ∧ degree < 0 then none else some ((d + 1) ^ degree)

/-- `PolyKernel.Distance`, metrics/pairwise/poly_kernel.go:30-36. The inner product of a vector with itself is not
negative, so the square root is defined. -/
noncomputable def polyDist (degree : Int) (x y : Mat) : Res (Option ℝ) :=
  (x.sub y).bind fun d => (polyKernel degree d d).map fun r => r.map Real.sqrt

/-- A distance of matrices used on rows of numbers, as in knn/knn.go:207-221 and kdtree/kdtree.go. -/
noncomputable def onRows (dist : Mat → Mat → Res ℝ) (x y : List ℝ) : ℝ :=
  match dist (Mat.ofFloats x) (Mat.ofFloats y) with
  | .ok d => d
  | _ => 0

end Golearn
