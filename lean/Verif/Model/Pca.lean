import Verif.Model.Core
import Mathlib.Algebra.Field.Basic

/-!
# Principal component analysis (pca/pca.go)

Numbers are elements of a field `R`: nothing is rounded. The singular value decomposition of the library is a parameter.
-/

namespace Golearn

/-- `mat.Dense`. Entries outside the shape are never read. -/
structure GMat (R : Type) where
  rows : Nat
  cols : Nat
  entry : Nat → Nat → R

namespace GMat
variable {R : Type} [Field R]

/-- `Set(i, j, v)`. -/
def set (m : GMat R) (i j : Nat) (v : R) : GMat R :=
  ⟨m.rows, m.cols, fun a b => if a = i ∧ b = j then v else m.entry a b⟩

/-- The library's `Mul`. It panics if the shapes do not fit. -/
def mul (x y : GMat R) : Res (GMat R) :=
  if x.cols = y.rows then
    Res.ok ⟨x.rows, y.cols, fun i j => ((List.range x.cols).map fun k => x.entry i k * y.entry k j).sum⟩
  else Res.panic

/-- The library's `Copy` into a new matrix of zeros with `r` rows and `c` columns: the common part is copied. -/
def copyInto (r c : Nat) (x : GMat R) : GMat R :=
  ⟨r, c, fun i j => if i < min r x.rows ∧ j < min c x.cols then x.entry i j else 0⟩

end GMat

section
variable {R : Type} [Field R]

/-- `mean`, pca/pca.go:67-75. `mat.Sum` of the column view adds the entries of the column. -/
def pcaMean (x : GMat R) : GMat R :=
  ⟨1, x.cols, fun _ j => ((List.range x.rows).map fun i => x.entry i j).sum / (x.rows : R)⟩

/-- `matrixSubVector`, pca/pca.go:78-90. The matrix given is overwritten and returned. -/
def matrixSubVector (m vec : GMat R) : Res (GMat R) :=
  if vec.cols ≠ m.cols then Res.panic
  else
    Res.ok ((List.range m.rows).foldl
      (fun m i => (List.range m.cols).foldl (fun m j => m.set i j (m.entry i j - vec.entry 0 j)) m) m)

/-- The thin singular value decomposition: left vectors, values, right vectors. -/
structure Svd (R : Type) where
  u : GMat R
  s : List R
  v : GMat R

/-- A PCA value: the number of components asked for and the decomposition, once fitted. -/
structure Pca (R : Type) where
  components : Int
  svd : Option (Svd R)

/-- `Fit`, pca/pca.go:25-41. The second result is the caller's matrix afterwards: it is overwritten. `svd` is the
library's factorisation, which may fail. -/
def pcaFit (svd : GMat R → Option (Svd R)) (p : Pca R) (x : GMat R) : Res (Pca R × GMat R) :=
  (matrixSubVector x (pcaMean x)).bind fun x' =>
    match svd x' with
    | none => Res.panic
    | some d => if p.components < 0 then Res.panic else Res.ok (⟨p.components, some d⟩, x')

/-- `Transform`, pca/pca.go:44-62. -/
def pcaTransform (p : Pca R) (x : GMat R) : Res (GMat R) :=
  match p.svd with
  | none => Res.panic
  | some d =>
    if p.components = 0 ∨ p.components > (x.cols : Int) then x.mul d.v
    else (x.mul d.v).map fun y => GMat.copyInto x.rows p.components.toNat y

/-- `FitTransform`, pca/pca.go:20-22. `Fit(X)` overwrites the matrix before `Transform(X)` reads it. -/
def pcaFitTransform (svd : GMat R → Option (Svd R)) (p : Pca R) (x : GMat R) : Res (GMat R) :=
  (pcaFit svd p x).bind fun r => pcaTransform r.1 r.2

end

end Golearn
