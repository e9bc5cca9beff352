import Verif.Model.Liblinear
import Verif.Spec.Knn

/-! # Specification vocabulary: linear support vector machines -/

namespace Golearn

/-- The documented combinations of loss, penalty and requested form, with the liblinear solver (by its number in `linear.h`)
and the form that goes with them: `true` is the dual. -/
def svcTable (loss penalty : String) (dual : Bool) : Option (Nat × Bool) :=
  match loss, penalty, dual with
  | "l1", "l2", _ => some (3, true)
  | "l2", "l2", true => some (1, true)
  | "l2", "l2", false => some (2, false)
  | "l2", "l1", _ => some (5, false)
  | _, _, _ => none

section
variable {K : Type} [Field K] [LinearOrder K]

/-- The entry of a sparse vector in column `j`, counted from 0: the sum of the values stored for it. -/
def entry (nds : List (FNode K)) (j : Nat) : K := ((nds.filter fun nd => nd.index = (j : Int) + 1).map FNode.value).sum

/-- A list of nodes is a sparse form of the row `x`: the columns ascend, none is out of range, and every entry is the one of
`x`. -/
def Represents (nds : List (FNode K)) (x : List K) : Prop :=
  (nds.map FNode.index).Pairwise (· < ·) ∧ (∀ nd ∈ nds, 1 ≤ nd.index ∧ nd.index ≤ x.length) ∧
    ∀ j, j < x.length → entry nds j = x.getD j 0

/-- A row with its negative numbers replaced by 0. -/
def positivePart (x : List K) : List K := x.map fun v => max v 0

/-- The scalar product of weights and a row. -/
def weigh (w : Nat → K) (x : List K) : K := ((List.range x.length).map fun j => w j * x.getD j 0).sum

/-- The problem of telling the label `l` from the others: every row with whether its label is `l`. -/
def oneVsRest (rows : List (List (FNode K))) (labels : List Int) (l : Int) : SubProblem K :=
  (rows.zip labels).map fun p => (p.1, decide (p.2 = l))

/-- The weight of a label: the entry of the weight vector at the label, or 1 if there is none. -/
def svcWeight (weights : List K) (l : Int) : K := if 0 ≤ l then weights.getD l.toNat 1 else 1

/-- A model was trained, with the weights `weights`, by solving for every label the problem of telling it from the others, on
the rows `rows` with labels `labels` in some order. With two labels one problem is solved, with the penalties of the
two. With more, the penalty of a label applies to its own rows, and the rest has the common penalty. -/
structure TrainedOn (solve : Solver K) (param : LParam K) (weights : List K) (n : Nat) (rows : List (List (FNode K)))
    (labels : List Int) (m : LModel K) : Prop where
  classes : m.nrClass = m.label.length
  nodup : m.label.Nodup
  occur : ∀ l, l ∈ m.label ↔ l ∈ labels
  two : ∀ l0 l1, m.label = [l0, l1] → ∃ sub, sub.Perm (oneVsRest rows labels l0) ∧
    m.w = solve sub n param (param.c * svcWeight weights l0) (param.c * svcWeight weights l1)
  more : m.label.length ≠ 2 → ∀ i l, m.label[i]? = some l → ∃ sub, sub.Perm (oneVsRest rows labels l) ∧
    ∀ j, m.w (j * m.label.length + i) = solve sub n param (param.c * svcWeight weights l) param.c j

/-- The label a linear model gives the row `x`. With two labels: the first exactly if the weighted sum is positive. With any
other number: the first of those with the greatest weighted sum, where the weights of the label number `i` are at
the places that leave the remainder `i`. -/
def Chooses (m : LModel K) (x : List K) (l : Int) : Prop :=
  (∀ l0 l1, m.label = [l0, l1] → l = if 0 < weigh m.w x then l0 else l1) ∧
  (m.label.length ≠ 2 → ∃ i, m.label[i]? = some l ∧ ∀ i', i' < m.label.length →
    weigh (fun j => m.w (j * m.label.length + i')) x ≤ weigh (fun j => m.w (j * m.label.length + i)) x ∧
    (i' < i → weigh (fun j => m.w (j * m.label.length + i')) x < weigh (fun j => m.w (j * m.label.length + i)) x))

/-- The numbers and labels of `n` rows as liblinear gets them, and the model it trains on them. -/
structure LinearFit (solve : Solver K) (toInt : K → Int) (val : U64 → K) (g : Grid) (n : Nat) (cls : Attr) (fs : List Attr)
    (param : LParam K) (weights : List K) (m : LModel K) : Prop where
  trained : ∃ nds, nds.length = n ∧ (∀ r, r < n → ∃ nd, nds[r]? = some nd ∧ Represents nd (g.point val fs r)) ∧
    TrainedOn solve param weights (fs.length + 1) nds ((List.range n).map fun r => toInt (g.number val cls r)) m

/-- Every row `r` of the `n` rows of the data set `what` is given, in the class column `cw` of the prediction `d`, the label the
model chooses for the row made by `row`. -/
def LinearPrediction (enc : Int → U64) (m : LModel K) (n : Nat) (cw : Attr) (row : Nat → List K) (d : Dense) : Prop :=
  d.maxRow = n ∧ d.allClassAttributes = [cw] ∧
    ∀ r, r < n → ∃ l, Chooses m (row r) l ∧ (Grid.dense d).cell cw r = packU64 (enc l)

end

end Golearn
