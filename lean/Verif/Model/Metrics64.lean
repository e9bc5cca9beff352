import Verif.Model.Eval64

/-!
# Distances with `float64` rounding (metrics/pairwise)

As `Verif.Model.Metrics`, with entries that are `float64`s and with every operation rounded. The sum of the library
gonum (`mat.Sum`) adds in an order of its own and is a parameter; so is `math.Sqrt`.
-/

namespace Golearn

/-- `mat.Dense` with rational entries. Entries outside the shape are never read. -/
structure Mat64 where
  rows : Nat
  cols : Nat
  entry : Nat → Nat → ℚ

/-- Same shape. -/
def Mat64.sameShape (x y : Mat64) : Bool := x.rows == y.rows && x.cols == y.cols

/-- What two nested loops over the entries read, in order. -/
def entries64 (r c : Nat) (g : Nat → Nat → ℚ) : List ℚ :=
  (List.range r).flatMap fun i => (List.range c).map fun j => g i j

/-- `Manhattan.Distance`, metrics/pairwise/manhattan.go:18-33. -/
def manhattan64 (x y : Mat64) : Res ℚ :=
  if x.sameShape y then Res.ok (fadds (entries64 x.rows x.cols fun i j => |fsub (x.entry i j) (y.entry i j)|))
  else Res.panic

/-- `Chebyshev.Distance`, metrics/pairwise/chebyshev.go:16-32. -/
def chebyshev64 (x y : Mat64) : Res ℚ :=
  if x.sameShape y then Res.ok ((entries64 x.rows x.cols fun i j => |fsub (x.entry i j) (y.entry i j)|).foldl max 0)
  else Res.panic

/-- `Euclidean.Distance`, metrics/pairwise/euclidean.go:26-33; `Sub` and `MulElem` of the library work entry by
entry. -/
def euclidean64 (msum : List ℚ → ℚ) (sqrt : ℚ → ℚ) (x y : Mat64) : Res ℚ :=
  if x.sameShape y then
    Res.ok (sqrt (msum (entries64 x.rows x.cols fun i j =>
      fmul (fsub (x.entry i j) (y.entry i j)) (fsub (x.entry i j) (y.entry i j)))))
  else Res.panic

end Golearn
