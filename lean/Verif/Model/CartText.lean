import Verif.Model.Cart

/-!
# The printed form of CART trees (trees/cart_classifier.go, trees/cart_regressor.go)

`num` is `fmt.Sprintf("%.3f", …)`. `lbl` prints a prediction: `strconv.FormatInt` in the classifier, `num` in the regressor.
-/

namespace Golearn

section
variable {K Y : Type}

/-- A nil pointer. -/
def CNode.isNil : CNode K Y → Bool
  | .nil => true
  | _ => false

/-- The lines for a side without a child, trees/cart_classifier.go:333-342 and trees/cart_regressor.go:303-312. -/
def sideText (lbl : Y → String) (spacing arrow : String) (pred : Y) : String :=
  spacing ++ arrow ++ "\n" ++ ("  " ++ spacing ++ "PREDICT    ") ++ (lbl pred ++ "\n")

/-- `classifierPrintTreeFromNode`, trees/cart_classifier.go:324-354, and `regressorPrintTreeFromNode`, trees/cart_regressor.go:294-324. Features
are printed as `FormatInt` does. -/
def cartText (num : K → String) (lbl : Y → String) : CNode K Y → String → String
  | .nil, _ => ""
  | .node l r t f a b _, spacing =>
    spacing ++ "Feature " ++ Nat.repr f ++ " < " ++ num t ++ "\n" ++
      (if l.isNil then sideText lbl spacing "---> True" a else "") ++
      (if r.isNil then sideText lbl spacing "---> False" b else "") ++
      (if l.isNil then "" else spacing ++ "---> True" ++ "\n" ++ cartText num lbl l (spacing ++ "  ")) ++
      (if r.isNil then "" else spacing ++ "---> False" ++ "\n" ++ cartText num lbl r (spacing ++ "  "))

/-- `String`, trees/cart_classifier.go:319-322 and trees/cart_regressor.go:288-291. -/
def cartString (num : K → String) (lbl : Y → String) : CNode K Y → Res String
  | .nil => Res.panic
  | t => Res.ok (cartText num lbl t "")

end
end Golearn
