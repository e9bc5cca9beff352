import Verif.Model.KdTree

/-! # What a k-d tree over a table of points is -/

namespace Golearn

variable {R : Type} [LinearOrder R] [Zero R]

/-- The row numbers stored in a tree. -/
def KNode.rows : KNode R → List Nat
  | .leaf _ r => [r]
  | .nil => []
  | .split _ _ r left right => r :: (left.rows ++ right.rows)

/-- Every node stores the point of its row. Every splitting node separates the rows below it: to the left
the split feature is not larger than in the node, to the right it is larger. -/
def KNode.Separates (data : List (List R)) (m : Nat) : KNode R → Prop
  | .leaf v r => v = data.getD r []
  | .nil => True
  | .split f v r left right =>
    v = data.getD r [] ∧ f < m ∧
    (∀ q ∈ left.rows, coord (data.getD q []) f ≤ coord v f) ∧
    (∀ q ∈ right.rows, coord v f < coord (data.getD q []) f) ∧
    left.Separates data m ∧ right.Separates data m

/-- A sort by a feature: a permutation in ascending order of the feature. -/
def SortsBy (data : List (List R)) (srt : Nat → List Nat → List Nat) : Prop :=
  ∀ f l, (srt f l).Perm l ∧
    (srt f l).Pairwise fun i j => coord (data.getD i []) f ≤ coord (data.getD j []) f

/-- Rows numbered `0 … n-1` of a rectangular table with `m` columns. -/
def Rectangular (data : List (List R)) (m : Nat) : Prop := ∀ v ∈ data, v.length = m

/-- `out` lists `k` distinct rows with their distances from the target, nearest first, and no row that is
left out is closer than a listed one. -/
structure Nearest (data : List (List R)) (dist : List R → List R → R) (target : List R) (k : Nat)
    (out : List (Nat × R)) : Prop where
  length : out.length = k
  distinct : (out.map Prod.fst).Nodup
  real : ∀ p ∈ out, p.1 < data.length ∧ p.2 = dist target (data.getD p.1 [])
  sorted : out.Pairwise fun p q => p.2 ≤ q.2
  nearest : ∀ q, q < data.length → q ∉ out.map Prod.fst → ∀ p ∈ out, p.2 ≤ dist target (data.getD q [])

/-- What the search may use about a distance: it is not smaller than the distance along any one feature,
and along one feature a point in between is not farther away. -/
structure AxisBound (dist : List R → List R → R) : Prop where
  coord_le : ∀ x y f, x.length = y.length → f < x.length → dist [coord x f] [coord y f] ≤ dist x y
  between : ∀ a b c, (a ≤ b ∧ b ≤ c) ∨ (c ≤ b ∧ b ≤ a) → dist [a] [b] ≤ dist [a] [c]

end Golearn
