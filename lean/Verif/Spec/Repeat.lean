import Verif.Spec.Knn
import Verif.Spec.Bagging
import Verif.Spec.Tree

/-! # What determines a prediction -/

namespace Golearn

section
variable {R : Type} [LinearOrder R]

/-- The rows `S` are closer to the target than all others. -/
def ClearlyNearest (data : List (List R)) (dist : List R → List R → R) (target : List R) (S : List Nat) : Prop :=
  S.Nodup ∧ (∀ i ∈ S, i < data.length) ∧
  ∀ i ∈ S, ∀ j, j < data.length → j ∉ S → dist target (data.getD i []) < dist target (data.getD j [])

end

/-- `c` occurs more often than any other label. -/
def ClearWinner (labels : List String) (c : String) : Prop :=
  c ∈ labels ∧ ∀ c', c' ≠ c → labels.count c' < labels.count c

/-- The values of a row lead to a leaf with the class `c`, with a branch for every value. -/
inductive LeadsTo (fo : FloatOps) (g : Grid) (row : Nat) : Tree → String → Prop
  | leaf (dist : GoMap String Nat) (c : String) : LeadsTo fo g row (.leaf dist c) c
  | split (dist : GoMap String Nat) (cls : String) (r : Rule) (keys : List String) (child : String → Tree) (s : Spec) (v : Bytes) (k c : String) :
      g.getAttribute r.attr = Res.ok s → g.get s row = Res.ok v →
      (if s.attr.isFloat then thresholdKey fo r.val v else s.attr.getString fo v) = Res.ok k → k ∈ keys →
      LeadsTo fo g row (child k) c → LeadsTo fo g row (.split dist cls r keys child) c

/-- The full claim: predicting the same data again gives the same classes, whatever the orders in which Go visits rows and maps. -/
def KnnRepeats : Prop :=
  ∀ (e : KnnEnv ℚ) (sortKeys' : Nat → (Nat → ℚ) → List Nat → List Nat) (orderW' : List Nat) (orderT' : Nat → List Nat)
    (k nT nW : Nat) (train what : Grid) (lab : Nat → String) (cls : Attr) (ord ord' : Nat → List String → List String) (d d' : Dense) (r : Nat),
    KnnData e.fo train what nT nW lab cls → PositionSort e.srt →
    (∀ r, SortsKeys (e.sortKeys r)) → (∀ r, SortsKeys (sortKeys' r)) → what.RowOrder e.orderW → what.RowOrder orderW' →
    (∀ r, train.RowOrder (e.orderT r)) → (∀ r, train.RowOrder (orderT' r)) → (∀ r l, (ord r l).Perm l) → (∀ r l, (ord' r l).Perm l) →
    knnPredictLinear e k train what (fun r out m => vote e.fo train (ord r) m (out.map Prod.fst)) [] = Res.ok d →
    knnPredictLinear { e with sortKeys := sortKeys', orderW := orderW', orderT := orderT' } k train what
      (fun r out m => vote e.fo train (ord' r) m (out.map Prod.fst)) [] = Res.ok d' →
    r < nW → getClass e.fo (.dense d) r = getClass e.fo (.dense d') r

end Golearn
