import Verif.Spec.Cluster
import Verif.Spec.KnnColumns

/-! # Specification: the rows of a table in another order -/

namespace Golearn

/-- Row `r` of the second table has the numbers of row `σ r` of the first in the columns `as`. -/
def RowsMoved {R : Type} [Zero R] (val : U64 → R) (σ : Equiv.Perm Nat) (g g' : Grid) (n : Nat) (as : List Attr) : Prop :=
  (∀ r, r < n ↔ σ r < n) ∧ ∀ a ∈ as, ∀ r, r < n → g'.number val a r = g.number val a (σ r)

/-- Two rows are in one cluster. -/
def Together (cs : List (Nat × List Nat)) (x y : Nat) : Prop := ∃ p ∈ cs, x ∈ p.2 ∧ y ∈ p.2

/-- Rows `p` and `q` are within eps, with the columns `as`. A row is within eps of itself unless eps is negative. -/
def Within {R : Type} [Zero R] [LE R] (val : U64 → R) (metric : List R → List R → R) (g : Grid) (as : List Attr) (eps : R) (p q : Nat) : Prop :=
  if p = q then 0 ≤ eps else metric (as.map fun a => g.number val a p) (as.map fun a => g.number val a q) ≤ eps

/-- At least `minCount` of the `n` rows are within eps of row `p`. -/
def CoreRow {R : Type} [Zero R] [LE R] (val : U64 → R) (metric : List R → List R → R) (g : Grid) (n : Nat) (as : List Attr) (eps : R)
    (minCount : Int) (p : Nat) : Prop :=
  ∃ l : List Nat, l.Nodup ∧ (∀ q, q ∈ l ↔ q < n ∧ Within val metric g as eps p q) ∧ minCount ≤ (l.length : Int)

end Golearn
