import Verif.Spec.Cart
import Mathlib.Algebra.Order.Ring.Rat

/-! # Specification vocabulary: numbers in other units -/

namespace Golearn

section
variable {K : Type} [Field K] [LinearOrder K] {Y : Type}

/-- Other units: column `f` is multiplied by `scale f` and moved by `shift f`. -/
structure Units (K : Type) where
  scale : Nat → K
  shift : Nat → K

/-- Multiplication by positive numbers. -/
def Units.Positive (u : Units K) : Prop := ∀ f, 0 < u.scale f

/-- A number of column `f` in the other units. -/
def Units.conv (u : Units K) (f : Nat) (v : K) : K := u.scale f * v + u.shift f

/-- A row in the other units. -/
def Units.row (u : Units K) (x : List K) : List K := x.mapIdx u.conv

/-- Rows with labels in the other units; the labels stay. -/
def Units.rows (u : Units K) (rows : LRows K Y) : LRows K Y := rows.map fun p => (u.row p.1, p.2)

/-- A tree with the thresholds of its splits in the other units; the rest stays. -/
def Units.tree (u : Units K) : CNode K Y → CNode K Y
  | .nil => .nil
  | .node l r t f a b true => .node (u.tree l) (u.tree r) (u.conv f t) f a b true
  | .node l r t f a b false => .node l r t f a b false

end

/-- The full claim: trained in other units, the classifier predicts for a row in these units what it predicts in the old units. -/
def UnitsDoNotMatter : Prop :=
  ∀ (u : Units ℚ) (labels : List Int) (sortIdx : List ℚ → List Nat) (maxDepth : Int) (w : Nat) (rows : LRows ℚ Int) (x : List ℚ)
    (t t' : CNode ℚ Int), u.Positive → labels.Nodup → SortsIdx sortIdx → Rect w rows → rows ≠ [] →
    (∀ p ∈ rows, p.2 ∈ labels) → x.length = w →
    cartFit ⟨classLoss (fun x => x) labels .gini, sortIdx, maxDepth⟩ (rows.map Prod.fst) (rows.map Prod.snd) = Res.ok t →
    cartFit ⟨classLoss (fun x => x) labels .gini, sortIdx, maxDepth⟩ ((u.rows rows).map Prod.fst) ((u.rows rows).map Prod.snd) =
      Res.ok t' →
    cartPredict t' (u.row x) = cartPredict t x

end Golearn
