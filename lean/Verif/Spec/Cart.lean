import Verif.Model.Cart
import Verif.Spec.Knn
import Mathlib.Data.List.Dedup
import Mathlib.Algebra.BigOperators.Group.List.Basic

/-! # Specification vocabulary: CART trees -/

namespace Golearn

section
variable {K : Type} [Field K] [LinearOrder K] {Y : Type}

/-- Rows of numbers, each with its label. -/
abbrev LRows (K Y : Type) := List (List K × Y)

/-- The number of a row in column `f`. -/
def colVal (f : Nat) (x : List K) : K := x.getD f 0

/-- The rows below a threshold. -/
def lefts (f : Nat) (t : K) (rows : LRows K Y) : LRows K Y := rows.filter fun p => decide (colVal f p.1 < t)

/-- The rows that are not below it. -/
def rights (f : Nat) (t : K) (rows : LRows K Y) : LRows K Y := rows.filter fun p => !decide (colVal f p.1 < t)

/-- All rows have `w` columns. -/
def Rect (w : Nat) (rows : LRows K Y) : Prop := ∀ p ∈ rows, p.1.length = w

/-- The threshold has rows on both sides. -/
def Separates (f : Nat) (t : K) (rows : LRows K Y) : Prop := lefts f t rows ≠ [] ∧ rights f t rows ≠ []

/-- The impurity of the two sides of a split, averaged with their sizes. -/
def splitImpurity (imp : List Y → K) (f : Nat) (t : K) (rows : LRows K Y) : K :=
  imp ((lefts f t rows).map Prod.snd) * ((lefts f t rows).length : K) / (rows.length : K) +
    imp ((rights f t rows).map Prod.snd) * ((rights f t rows).length : K) / (rows.length : K)

/-- The proportion of a label. -/
def proportion [DecidableEq Y] (ls : List Y) (c : Y) : K := (ls.count c : K) / (ls.length : K)

/-- The Gini impurity: one minus the sum of the squares of the proportions. -/
def giniImpurity [DecidableEq Y] (ls : List Y) : K :=
  1 - (ls.dedup.map fun c => proportion (K := K) ls c * proportion ls c).sum

/-- The entropy. -/
def entropyImpurity [DecidableEq Y] (lg : K → K) (ls : List Y) : K :=
  -(ls.dedup.map fun c => proportion (K := K) ls c * lg (proportion ls c)).sum

/-- The mean. -/
def meanK (l : List K) : K := l.sum / (l.length : K)

/-- The mean distance from the mean. -/
def maeImpurity (l : List K) : K := meanK (l.map fun x => |x - meanK l|)

/-- The mean squared distance from the mean. -/
def mseImpurity (l : List K) : K := meanK (l.map fun x => (x - meanK l) * (x - meanK l))

/-- A most frequent element. -/
def IsMode [DecidableEq Y] (ls : List Y) (c : Y) : Prop := c ∈ ls ∧ ∀ c', ls.count c' ≤ ls.count c

/-- The order of the indexes after sorting: every index once, by value. -/
def SortsIdx (sortIdx : List K → List Nat) : Prop :=
  ∀ vals, (sortIdx vals).Perm (List.range vals.length) ∧
    (sortIdx vals).Pairwise fun i j => vals.getD i 0 ≤ vals.getD j 0

/-- A split that separates the rows and has the least impurity of all such splits of the `w` columns. -/
def BestSplit (imp : List Y → K) (w f : Nat) (t : K) (rows : LRows K Y) : Prop :=
  f < w ∧ Separates f t rows ∧ splitImpurity imp f t rows < imp (rows.map Prod.snd) ∧
  ∀ f' t', f' < w → Separates f' t' rows → splitImpurity imp f t rows ≤ splitImpurity imp f' t' rows

/-- No split is better than none. -/
def NoBetter (imp : List Y → K) (w : Nat) (rows : LRows K Y) : Prop :=
  ∀ f' t', f' < w → Separates f' t' rows → imp (rows.map Prod.snd) ≤ splitImpurity imp f' t' rows

/-- One level less; `none` is no limit. -/
def lessDepth : Option Nat → Option Nat
  | none => none
  | some d => some (d - 1)

/-- The tree is grown for the rows within a limit of the depth: every node has a best split of the rows that reach it, with
labels that `pick` allows for the two sides, and ends where the limit is reached or no split is better than none. -/
def CNode.Grown (imp : List Y → K) (pick : List Y → Y → Prop) (w : Nat) : CNode K Y → Option Nat → LRows K Y → Prop
  | .nil, limit, rows => limit = some 0 ∨ NoBetter imp w rows
  | .node l r t f a b _, limit, rows =>
    limit ≠ some 0 ∧ BestSplit imp w f t rows ∧ pick ((lefts f t rows).map Prod.snd) a ∧
    pick ((rights f t rows).map Prod.snd) b ∧
    l.Grown imp pick w (lessDepth limit) (lefts f t rows) ∧ r.Grown imp pick w (lessDepth limit) (rights f t rows)

/-- The number of tests on the longest path. -/
def CNode.height : CNode K Y → Nat
  | .nil => 0
  | .node l r _ _ _ _ _ => max l.height r.height + 1

/-- The rows that take the same way through the tree as `x`. -/
def CNode.region : CNode K Y → List K → LRows K Y → LRows K Y
  | .nil, _, rows => rows
  | .node l r t f _ _ _, x, rows => if colVal f x < t then l.region x (lefts f t rows) else r.region x (rights f t rows)

/-- The limit a depth parameter stands for. -/
def depthLimit (maxDepth : Int) : Option Nat := if maxDepth = -1 then none else some maxDepth.toNat

/-- A loss computes an impurity, whatever the order of the labels, and a label that `pick` allows. -/
structure Computes (loss : Loss K Y) (imp : List Y → K) (pick : List Y → Y → Prop) (ok : Y → Prop) : Prop where
  total : ∀ y, y ≠ [] → (∀ l ∈ y, ok l) → ∃ l, loss y = Res.ok (imp y, l) ∧ pick y l
  perm : ∀ y y', y.Perm y' → imp y = imp y'
  nonneg : ∀ y, y ≠ [] → 0 ≤ imp y
  pickPerm : ∀ y y' l, y.Perm y' → pick y l → pick y' l

/-- The rows of a data set: its numbers in the given columns, with the labels. -/
def Grid.labelled {K : Type} [Zero K] {Y : Type} (g : Grid) (val : U64 → K) (fs : List Attr) (lab : Nat → Y) (n : Nat) : LRows K Y :=
  (List.range n).map fun r => (g.point val fs r, lab r)

end

end Golearn
