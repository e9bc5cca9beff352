import Verif.Spec.Knn
import Verif.Spec.Rebuild
import Verif.Spec.KdTree
import Mathlib.Algebra.Order.Ring.Rat

/-! # Specification vocabulary: the columns nearest neighbours look at -/

namespace Golearn

/-- In the float columns of `as` both tables have the same numbers. -/
def SameNumbers {R : Type} [Zero R] (val : U64 → R) (g g' : Grid) (n : Nat) (as : List Attr) : Prop :=
  ∀ a ∈ as, a.isFloat = true → ∀ r, r < n → g'.number val a r = g.number val a r

/-- The distance does not depend on the order of the columns. -/
def ColumnOrderFree {R : Type} (dist : List R → List R → R) : Prop :=
  ∀ (as bs : List Attr) (x y : Attr → R), as.Perm bs → dist (as.map x) (as.map y) = dist (bs.map x) (bs.map y)

/-- The full claim for the k-d tree: the order of the columns does not matter. -/
def TreeColumnsDoNotMatter : Prop :=
  ∀ (e : KnnEnv ℚ) (srtKd : List (List ℚ) → Nat → List Nat → List Nat) (orderB : List Nat) (k nT nW : Nat)
    (train train' what what' : Grid) (lab : Nat → String) (cls : Attr) (ord : Nat → List String → List String) (d d' : Dense) (r : Nat),
    (∀ data, SortsBy data (srtKd data)) → cls.isFloat = false →
    KnnData e.fo train what nT nW lab cls → KnnData e.fo train' what' nT nW lab cls →
    (what'.allAttributes.filter Attr.isFloat).Perm (what.allAttributes.filter Attr.isFloat) →
    SameNumbers e.val train train' nT what.allAttributes → SameNumbers e.val what what' nW what.allAttributes →
    ColumnOrderFree e.dist → PositionSort e.srt → what.RowOrder e.orderW → what'.RowOrder e.orderW →
    train.RowOrder orderB → train'.RowOrder orderB → (∀ r l, (ord r l).Perm l) →
    knnPredictTree e srtKd orderB k train what (fun r out m => vote e.fo train (ord r) m (out.map Prod.fst)) [] = Res.ok d →
    knnPredictTree e srtKd orderB k train' what' (fun r out m => vote e.fo train' (ord r) m (out.map Prod.fst)) [] = Res.ok d' →
    r < nW → getClass e.fo (.dense d) r = getClass e.fo (.dense d') r

end Golearn
