import Verif.Model.Instances
import Verif.Spec.Table

/-! # Specification vocabulary: labels of rows -/

namespace Golearn

/-- In the first `n` rows of `g`, attribute `a` reads as the strings `k 0, k 1, ...`. -/
def ReadsAs (fo : FloatOps) (g : Grid) (a : Attr) (n : Nat) (k : Nat → String) : Prop :=
  ∀ r, r < n → a.getString fo (g.cell a r) = Res.ok (k r)

/-- Number of rows among the first `n` that satisfy `p`. -/
def countRows (n : Nat) (p : Nat → Bool) : Nat := ((List.range n).filter p).length

end Golearn
