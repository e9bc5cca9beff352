import Verif.Spec.KnnColumns

/-! # Specification: other units for the numbers of a table -/

namespace Golearn

/-- In the columns `as` the second table has the numbers of the first in other units: `c` times the number, plus an offset per column. -/
def Rescaled {R : Type} [Mul R] [Add R] [Zero R] (val : U64 → R) (c : R) (off : Attr → R) (g g' : Grid) (n : Nat) (as : List Attr) : Prop :=
  ∀ a ∈ as, ∀ r, r < n → g'.number val a r = c * g.number val a r + off a

/-- With numbers in units `c` and any offsets, the distance is `s` times the distance before. -/
def DistanceScales {R : Type} [Mul R] [Add R] (dist : List R → List R → R) (c s : R) : Prop :=
  ∀ (as : List Attr) (x y off : Attr → R),
    dist (as.map fun a => c * x a + off a) (as.map fun a => c * y a + off a) = s * dist (as.map x) (as.map y)

end Golearn
