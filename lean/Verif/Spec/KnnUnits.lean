import Verif.Spec.Repeat
import Verif.Spec.Rebuild
import Mathlib.Algebra.Order.Ring.Rat

/-! # Specification vocabulary: nearest neighbours in other units -/

namespace Golearn

/-- The float columns of `as` have the numbers of `g` in other units: `x` in the column of `a` is written as
`scale a * x + shift a`. -/
def InUnits {R : Type} [Field R] (val : U64 → R) (g g' : Grid) (n : Nat) (as : List Attr) (scale shift : Attr → R) : Prop :=
  ∀ a ∈ as, a.isFloat = true → ∀ r, r < n → g'.number val a r = scale a * g.number val a r + shift a

/-- Multiplying all numbers by `c` and moving each column multiplies all distances by `m`. -/
def ScalesWith {R : Type} [Field R] (dist : List R → List R → R) (c m : R) : Prop :=
  ∀ (as : List Attr) (x y shift : Attr → R),
    dist (as.map fun a => c * x a + shift a) (as.map fun a => c * y a + shift a) = m * dist (as.map x) (as.map y)

/-- The full claim: the predictions are the same in all units. -/
def KnnUnitsDoNotMatter : Prop :=
  ∀ (e : KnnEnv ℚ) (k nT nW : Nat) (train train' what what' : Grid) (lab : Nat → String) (cls : Attr)
    (ord : Nat → List String → List String) (scale shift : Attr → ℚ) (d d' : Dense) (r : Nat), (∀ a, 0 < scale a) →
    KnnData e.fo train what nT nW lab cls → KnnData e.fo train' what' nT nW lab cls →
    InUnits e.val train train' nT what.allAttributes scale shift → InUnits e.val what what' nW what.allAttributes scale shift →
    what'.allAttributes = what.allAttributes →
    PositionSort e.srt → (∀ r, SortsKeys (e.sortKeys r)) → what.RowOrder e.orderW → what'.RowOrder e.orderW →
    (∀ r, train.RowOrder (e.orderT r)) → (∀ r, train'.RowOrder (e.orderT r)) → (∀ r l, (ord r l).Perm l) →
    knnPredictLinear e k train what (fun r out m => vote e.fo train (ord r) m (out.map Prod.fst)) [] = Res.ok d →
    knnPredictLinear e k train' what' (fun r out m => vote e.fo train' (ord r) m (out.map Prod.fst)) [] = Res.ok d' →
    r < nW → getClass e.fo (.dense d) r = getClass e.fo (.dense d') r

end Golearn
