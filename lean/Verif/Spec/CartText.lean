import Verif.Model.Cart

/-! # What a printed CART tree shows -/

namespace Golearn

/-- A tree with its tests and predictions as texts. -/
inductive CartView where
  | pred (label : String)
  | test (feature : Nat) (threshold : String) (below other : CartView)
  deriving DecidableEq

/-- The tests and predictions of a tree. A side without a child predicts the label of the node above. -/
def cartView {K Y : Type} (num : K → String) (lbl : Y → String) : CNode K Y → String → CartView
  | .nil, label => .pred label
  | .node l r t f a b _, _ => .test f (num t) (cartView num lbl l (lbl a)) (cartView num lbl r (lbl b))

/-- All thresholds of a tree. -/
def CNode.thresholds {K Y : Type} : CNode K Y → List K
  | .nil => []
  | .node l r t _ _ _ _ => t :: (l.thresholds ++ r.thresholds)

end Golearn
