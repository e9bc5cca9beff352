import Verif.Spec.Regression
import Verif.Spec.Copies
import Verif.Spec.Rebuild

/-! # Specification vocabulary: a table written down in another way -/

namespace Golearn

/-- `g'` has `n'` rows, which are the `n` rows of `g`, each of them `k` times, in any order: its row `r` is row `σ r` of `g`. A number
`x` in the column of `a` is written as `scale a * x + shift a`. -/
structure Rewritten {R : Type} [Field R] (val : U64 → R) (g g' : Grid) (n n' k : Nat) (σ : Nat → Nat) (scale shift : Attr → R) :
    Prop where
  rows : ((List.range n').map σ).Perm (copies k (List.range n))
  some : 0 < k
  table : g'.Presents n'
  typed : g'.typed n'
  attrs : g'.allAttributes = g.allAttributes
  classes : g'.allClassAttributes = g.allClassAttributes
  scaled : ∀ a ∈ g.allAttributes, a.isFloat = true → scale a ≠ 0
  numbers : ∀ a ∈ g.allAttributes, a.isFloat = true → ∀ r, r < n' → g'.number val a r = scale a * g.number val a (σ r) + shift a

end Golearn
