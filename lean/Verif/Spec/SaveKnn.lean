import Verif.Spec.SaveGrid
import Verif.Spec.Knn
import Verif.Model.SaveKnn

/-! # Specification vocabulary: saved nearest neighbours classifiers -/

namespace Golearn

/-- A table that was written in the row order `order` and read back: a table of the same size with the same attributes, the
same class attributes and the same values, whose row `i` is row `order[i]` of the original. -/
structure GridRestored (g : Grid) (order : List Nat) (n : Nat) (d : Dense) : Prop where
  presents : (Grid.dense d).Presents n
  distinct : (Grid.dense d).distinct
  typed : (Grid.dense d).typed n
  same : SameStructure g (.dense d)
  cells : ∀ a ∈ g.allAttributes, ∀ a' ∈ d.allAttributes, a'.body = a.body →
    ∀ i (h : i < order.length), (Grid.dense d).cell a' i = g.cell a order[i]

/-- A classifier with the same parameters and the same training data. -/
structure KnnModel.Restored (m : KnnModel) (order : List Nat) (n : Nat) (m' : KnnModel) : Prop where
  distance : m'.distance = m.distance
  algorithm : m'.algorithm = m.algorithm
  neighbours : m'.neighbours = m.neighbours
  weighted : m'.weighted = m.weighted
  allowOpt : m'.allowOpt = m.allowOpt
  train : ∃ d, m'.train = .dense d ∧ GridRestored m.train order n d

/-- The row of the original that row `i` of the restored table is. -/
def rowOf (order : List Nat) (i : Nat) : Nat := order.getD i i

/-- The row of the restored table that row `r` of the original is. -/
def rowPos (order : List Nat) (r : Nat) : Nat := if r ∈ order then order.idxOf r else r

/-- The choices of a prediction with the original table that correspond to those with the restored table: rows are visited in the
order in which they were written, and sorted as the rows of the restored table are. -/
def KnnEnv.reordered {R : Type} (order : List Nat) (e : KnnEnv R) : KnnEnv R :=
  { e with
    orderT := fun _ => order
    sortKeys := fun row v l => (e.sortKeys row (fun i => v (rowOf order i)) (l.map (rowPos order))).map (rowOf order) }

end Golearn
