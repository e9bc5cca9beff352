import Verif.Spec.Cart
import Mathlib.Algebra.Order.Ring.Rat

/-! # Specification vocabulary: labels in other units -/

namespace Golearn

/-- The rows with every label `y` replaced by `φ y`. -/
def relabel {K Y : Type} (φ : Y → Y) (rows : LRows K Y) : LRows K Y := rows.map fun p => (p.1, φ p.2)

/-- A tree with every label `y` replaced by `φ y`. -/
def CNode.relabel {K Y : Type} (φ : Y → Y) : CNode K Y → CNode K Y
  | .nil => .nil
  | .node l r t f a b nd => .node (l.relabel φ) (r.relabel φ) t f (φ a) (φ b) nd

/-- The full claim: trained on labels in other units, the regressor predicts the same values in these units. -/
def LabelUnitsDoNotMatter : Prop :=
  ∀ (s m : ℚ) (criterion : Criterion) (sortIdx : List ℚ → List Nat) (maxDepth : Int) (w : Nat) (rows : LRows ℚ ℚ) (x : List ℚ)
    (t t' : CNode ℚ ℚ) (p p' : ℚ), 0 < s → SortsIdx sortIdx → Rect w rows → rows ≠ [] → x.length = w →
    cartFit ⟨regLoss criterion, sortIdx, maxDepth⟩ (rows.map Prod.fst) (rows.map Prod.snd) = Res.ok t →
    cartFit ⟨regLoss criterion, sortIdx, maxDepth⟩ ((relabel (fun y => s * y + m) rows).map Prod.fst)
      ((relabel (fun y => s * y + m) rows).map Prod.snd) = Res.ok t' →
    cartPredict t x = Res.ok p → cartPredict t' x = Res.ok p' → p' = s * p + m

end Golearn
