import Verif.Spec.Neural
import Mathlib.Analysis.Calculus.Deriv.Basic

/-! # Specification vocabulary: gradients of neural networks -/

namespace Golearn

/-- The backward function gives the derivative of the forward function, from its value. -/
def NFunc.Smooth (f : NFunc ℝ) : Prop := ∀ z, HasDerivAt f.forward (f.backward (f.forward z)) z

/-- A direction in which a layered network can move and stay layered: weights between levels in order, and biases of
neurons that are not inputs. -/
structure Direction (n : Network ℝ) (level : Nat → Nat) (A : Nat → Nat → ℝ) (B : Nat → ℝ) : Prop where
  weights : ∀ t s, t < n.size → s < n.size → A t s ≠ 0 → level s < level t
  biases : ∀ i, i < n.input → B i = 0

/-- The weights the network remembers as those before training: its weights, if it has not been trained. -/
def Network.before (n : Network ℝ) (t s : Nat) : ℝ := (n.orig.getD n.weights) t s

/-- Training moves the weight from `s` to `t`. -/
def Network.Trained (n : Network ℝ) (t s : Nat) : Prop := t ≠ s ∧ 1 / 200 < |n.before t s|

/-- What training moves is all there is: weights which training does not move are 0, and those it moves lead from lower to
higher levels. -/
structure Network.Trainable (n : Network ℝ) (level : Nat → Nat) : Prop where
  rest : ∀ t s, t < n.size → s < n.size → t ≠ s → ¬ n.Trained t s → n.weights t s = 0
  up : ∀ t s, t < n.size → s < n.size → n.Trained t s → level s < level t

end Golearn
