import Verif.Spec.KnnColumns
import Verif.Model.Cart

/-! # Specification vocabulary: columns by place and columns by name -/

namespace Golearn

section
variable {K : Type} [Field K] [LinearOrder K]

/-- Both tables have `n` rows with the same numbers in their numeric columns that are not the class, taken in the order of the columns,
whatever their names. Other columns may be different. -/
structure SamePlaces (val : U64 → K) (g g' : Grid) (n : Nat) : Prop where
  table : g.Presents n
  table' : g'.Presents n
  typed : g.typed n
  typed' : g'.typed n
  columns : g'.nonClassFloats.length = g.nonClassFloats.length
  rows : ∀ r, r < n → g'.nonClassFloats.map (fun a => g'.number val a r) = g.nonClassFloats.map fun a => g.number val a r

/-- Both tables have one class column, with the same numbers. -/
structure SameLabels {Y : Type} [Zero Y] (conv : U64 → Y) (g g' : Grid) (n : Nat) (cls cls' : Attr) : Prop where
  one : g.allClassAttributes = [cls]
  one' : g'.allClassAttributes = [cls']
  known : cls ∈ g.allAttributes
  known' : cls' ∈ g'.allAttributes
  float : cls.isFloat = true
  float' : cls'.isFloat = true
  rows : ∀ r, r < n → g'.number conv cls' r = g.number conv cls r

/-- The whole claim for CART classifiers: a tree trained on a table predicts the same for two tables with its numeric columns in
any orders, with the same numbers. -/
def C164_by_name (K : Type) [Field K] [LinearOrder K] : Prop :=
  ∀ (lg : K → K) (labels : List Int) (criterion : Criterion) (sortIdx : List K → List Nat) (maxDepth : Int) (val : U64 → K)
    (conv : U64 → Int) (srt : List Spec → List Spec), PositionSort srt →
    ∀ (g what what' : Grid) (n m : Nat), g.Presents n → what.Presents m → what'.Presents m → what.typed m → what'.typed m →
      what.nonClassFloats.Perm g.nonClassFloats → what'.nonClassFloats.Perm g.nonClassFloats →
      SameNumbers val what what' m g.nonClassFloats →
      ∀ o1 o2 oW oW', g.RowOrder o1 → g.RowOrder o2 → what.RowOrder oW → what'.RowOrder oW' →
      ∀ t, cartFitGrid ⟨classLoss lg labels criterion, sortIdx, maxDepth⟩ val conv srt o1 o2 g = Res.ok t →
        cartPredictGrid val srt oW' t what' = cartPredictGrid val srt oW t what

/-- The claim for columns that are in another order in both the training data and the data to predict. -/
def C164_same_order (K : Type) [Field K] [LinearOrder K] : Prop :=
  ∀ (lg : K → K) (labels : List Int) (criterion : Criterion) (sortIdx : List K → List Nat) (maxDepth : Int) (val : U64 → K)
    (conv : U64 → Int) (srt : List Spec → List Spec), PositionSort srt →
    ∀ (g g' what what' : Grid) (n m : Nat) (cls : Attr), SameLabels conv g g' n cls cls → g.Presents n → g'.Presents n →
      what.Presents m → what'.Presents m → g.typed n → g'.typed n → what.typed m → what'.typed m →
      g'.nonClassFloats.Perm g.nonClassFloats → what.nonClassFloats = g.nonClassFloats → what'.nonClassFloats = g'.nonClassFloats →
      SameNumbers val g g' n g.nonClassFloats → SameNumbers val what what' m g.nonClassFloats →
      ∀ o1 o2 oW oW', g.RowOrder o1 → g.RowOrder o2 → g'.RowOrder o1 → g'.RowOrder o2 → what.RowOrder oW → what'.RowOrder oW' →
      ∀ t t', cartFitGrid ⟨classLoss lg labels criterion, sortIdx, maxDepth⟩ val conv srt o1 o2 g = Res.ok t →
        cartFitGrid ⟨classLoss lg labels criterion, sortIdx, maxDepth⟩ val conv srt o1 o2 g' = Res.ok t' →
        cartPredictGrid val srt oW' t' what' = cartPredictGrid val srt oW t what
end

end Golearn
