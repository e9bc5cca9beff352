import Verif.Spec.Cart
import Mathlib.Algebra.Order.Ring.Rat

/-! # Specification vocabulary: rows that occur several times -/

namespace Golearn

/-- A list `k` times over. -/
def copies {α : Type} (k : Nat) (l : List α) : List α := (List.replicate k l).flatten

end Golearn
