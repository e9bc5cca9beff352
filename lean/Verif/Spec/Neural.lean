import Verif.Model.Neural

/-! # Specification vocabulary: neural networks -/

namespace Golearn

/-- A call that changes a network. -/
inductive NetOp (K : Type) where
  | setWeight (src target : Nat) (v : K)
  | setBias (node : Nat) (v : K)
  | updateWeights (out err : Nat → K) (learnRate : K)
  | updateBias (err : Nat → K) (learnRate : K)

section
variable {K : Type} [Field K] [LinearOrder K]

/-- The network after a call. -/
def Network.apply (n : Network K) : NetOp K → Res (Network K)
  | .setWeight src target v => n.setWeight src target v
  | .setBias node v => n.setBias node v
  | .updateWeights out err learnRate => Res.ok (n.updateWeights out err learnRate)
  | .updateBias err learnRate => Res.ok (n.updateBias err learnRate)

/-- The network after a sequence of calls. -/
def Network.applyAll (n : Network K) : List (NetOp K) → Res (Network K)
  | [] => Res.ok n
  | op :: ops => (n.apply op).bind fun n' => n'.applyAll ops

/-- A sequence of calls in which no weight is set by hand. -/
def noSetWeight : NetOp K → Prop
  | .setWeight _ _ _ => False
  | _ => True

/-- The network has its neurons on levels: the inputs on level 0, all others on levels from 1 to `L`. Connections lead
from lower to higher levels, but for those of the inputs to themselves, which have weight 1. Inputs pass on their value. -/
structure Network.Layered (n : Network K) (level : Nat → Nat) (L : Nat) : Prop where
  fits : n.input ≤ n.size
  inputs : ∀ i, i < n.input → level i = 0
  others : ∀ i, n.input ≤ i → i < n.size → 1 ≤ level i ∧ level i ≤ L
  edges : ∀ t s, t < n.size → s < n.size → n.weights t s ≠ 0 → (t = s ∧ t < n.input) ∨ level s < level t
  self : ∀ i, i < n.input → n.weights i i = 1
  linear : ∀ i, i < n.input → ∀ v, (n.funcs i).forward v = v
  noBias : ∀ i, i < n.input → n.biases i = 0

/-- `F` holds the values of the neurons for the input `x`: inputs have the values given, and every other neuron the value of
its function at the weighted sum of the values of all neurons, plus its bias. -/
structure Network.FeedForward (n : Network K) (x F : Nat → K) : Prop where
  inputs : ∀ i, i < n.input → F i = x i
  others : ∀ i, n.input ≤ i → i < n.size →
    F i = (n.funcs i).forward ((∑ c ∈ Finset.range n.size, n.weights i c * F c) + n.biases i)

/-- `D` holds the back-propagated errors of the neurons with outputs `out`: the error of a neuron that is not an input is
its own error plus the errors of the neurons it leads to, times their weights, all times the derivative of its function. -/
def Network.BackPropagates (n : Network K) (out err D : Nat → K) : Prop :=
  ∀ v, n.input ≤ v → v < n.size →
    D v = (n.funcs v).backward (out v) * (err v + ∑ u ∈ Finset.range n.size, n.weights u v * D u)

/-- The network with its weights changed by `θ` times `A` and its biases by `θ` times `B`. -/
def Network.moved (n : Network K) (A : Nat → Nat → K) (B : Nat → K) (θ : K) : Network K :=
  { n with weights := fun t s => n.weights t s + θ * A t s, biases := fun i => n.biases i + θ * B i }

/-- Half the sum of the squared differences of the outputs `O` from what they should be. -/
def halfSquares (O : Finset Nat) (y F : Nat → K) : K := (∑ v ∈ O, (y v - F v) ^ 2) / 2
end

end Golearn
