import Verif.Model.Entropy
import Verif.Spec.Tree
import Mathlib.Data.List.Dedup
import Mathlib.Algebra.BigOperators.Group.List.Basic

/-! # Specification vocabulary: entropy and information gain -/

namespace Golearn

section
variable {K : Type} [Field K] [LinearOrder K]

/-- The entropy of a list of labels: minus the sum of `p * lg p` over the labels that occur, `p` being the proportion of
the label. -/
def entropyOf (lg : K → K) (ls : List String) : K :=
  -(ls.dedup.map fun c => (ls.count c : K) / ls.length * lg ((ls.count c : K) / ls.length)).sum

/-- The labels of the rows whose key is `v`. -/
def labelsAt (lab key : Nat → String) (n : Nat) (v : String) : List String :=
  ((List.range n).filter fun r => key r == v).map lab

/-- The entropy of the labels within the groups of rows with the same key, averaged with the sizes of the groups. -/
def condEntropy (lg : K → K) (lab key : Nat → String) (n : Nat) : K :=
  (((List.range n).map key).dedup.map fun v =>
    ((labelsAt lab key n v).length : K) / n * entropyOf lg (labelsAt lab key n v)).sum

/-- Information gain: how much the entropy of the labels of the first `n` rows falls when the rows are grouped by key. -/
def gainOf (lg : K → K) (lab key : Nat → String) (n : Nat) : K :=
  entropyOf lg ((List.range n).map lab) - condEntropy lg lab key n

/-- A logarithm turns products of positive numbers into sums and is negative below one. -/
structure Logarithm (lg : K → K) : Prop where
  mul : ∀ x y, 0 < x → 0 < y → lg (x * y) = lg x + lg y
  neg : ∀ x, 0 < x → x < 1 → lg x < 0

/-- What the code calls the gain ratio: the gain over the entropy that is left, infinite if none is left. -/
def ratioOf (lg : K → K) (lab key : Nat → String) (n : Nat) : WithTop K :=
  if condEntropy lg lab key n = 0 then ⊤
  else ((gainOf lg lab key n / condEntropy lg lab key n : K) : WithTop K)

/-- The rows with a number above `x` in the column of `a`. -/
def Grid.above (val : U64 → K) (g : Grid) (a : Attr) (x : K) (row : Nat) : String :=
  if x < g.number val a row then "1" else "0"

/-- The ways to group the first `n` rows by one of the attributes `as`: by its value if it is not numeric, and by a
threshold with rows on both sides if it is. -/
def Grid.IsTest (fo : FloatOps) (val : U64 → K) (g : Grid) (n : Nat) (as : List Attr) (key : Nat → String) : Prop :=
  ∃ a ∈ as,
    (a.isFloat = false ∧ ∀ q, q < n → key q = g.branch fo ⟨a, 0⟩ q) ∨
    (a.isFloat = true ∧ ∃ x, (∀ q, q < n → key q = g.above val a x q) ∧
      (∃ q, q < n ∧ key q = "0") ∧ ∃ q, q < n ∧ key q = "1")

/-- The patterns in `D` and their midpoints. -/
def OrMid (mid : U64 → U64 → U64) (D : U64 → Prop) (u : U64) : Prop := D u ∨ ∃ a b, D a ∧ D b ∧ u = mid a b

/-- On the patterns in `D` and their midpoints, the comparisons are those of the numbers `val` in an ordered field, and a
midpoint lies strictly between different numbers. This is what exact arithmetic gives; of the doubles it rules out NaN,
sums that overflow, and neighbours so close that the midpoint rounds to one of them. -/
structure ExactOn (e : RuleEnv K) (val : U64 → K) (D : U64 → Prop) : Prop where
  gt : ∀ u v, OrMid e.mid D u → OrMid e.mid D v → (e.fo.gt u v = true ↔ val v < val u)
  feq : ∀ u v, OrMid e.mid D u → OrMid e.mid D v → (e.feq u v = true ↔ val u = val v)
  same : ∀ u v, D u → D v → val u = val v → val (e.mid u v) = val u
  between : ∀ u v, D u → D v → val u < val v → val u < val (e.mid u v) ∧ val (e.mid u v) < val v

/-- What `sort.Sort` asks of a comparison: a strict weak order on the values that are compared. NaN has none. -/
def WeakOrderOn (gt : U64 → U64 → Bool) (l : List U64) : Prop :=
  ∀ a ∈ l, ∀ b ∈ l, ∀ c ∈ l, (gt a b = true → gt b a = false) ∧ (gt a c = true → gt a b = true ∨ gt b c = true)

/-- The sort of the values with their classes: a permutation and, if the comparison is an order, with no value before a
smaller one. -/
def SortsRefs (e : RuleEnv K) : Prop :=
  ∀ l, (e.sortRefs l).Perm l ∧
    (WeakOrderOn e.fo.gt (l.map Prod.fst) → (e.sortRefs l).Pairwise fun a b => e.fo.gt a.1 b.1 = false)

/-- The conditions on a rule generator: logarithm, sorting, and the orders of maps. -/
structure RuleEnv.Ok (e : RuleEnv K) : Prop where
  log : Logarithm e.lg
  sort : SortsRefs e
  rowOrder : ∀ g : Grid, g.RowOrder (e.order g)
  cands : ∀ l, (e.cands l).Perm l

/-- The numbers in the float columns are exact. -/
def Grid.ExactCells (e : RuleEnv K) (g : Grid) (n : Nat) (val : U64 → K) (D : U64 → Prop) : Prop :=
  ExactOn e val D ∧ g.FloatsIn n D

/-- No number occurs twice in a float column. -/
def Grid.NoRepeats (g : Grid) (n : Nat) (val : U64 → K) : Prop :=
  ∀ a ∈ g.allAttributes, a.isFloat = true → ∀ r s, r < n → s < n → g.number val a r = g.number val a s → r = s

end

end Golearn
