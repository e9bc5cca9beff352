import Verif.Model.Core
import Mathlib.Algebra.BigOperators.Group.Finset.Basic
import Mathlib.Algebra.Order.Field.Basic
import Mathlib.Algebra.Order.AbsoluteValue.Basic

/-!
# Neural networks (neural/network.go, neural/funcs.go)

Numbers are exact: elements of an ordered field. A matrix of the library is a function of row and column, of which the
rows and columns below its size count; reading or writing outside panics, as the library does. Vectors are matrices of
one column.
-/

namespace Golearn

/-- `NeuralFunction`, neural/neural.go:12-15. -/
structure NFunc (K : Type) where
  forward : K → K
  backward : K → K

/-- `Network`, neural/network.go:13-20; row and column of a weight are target and source, counted from 0. -/
structure Network (K : Type) where
  orig : Option (Nat → Nat → K)
  weights : Nat → Nat → K
  biases : Nat → K
  funcs : Nat → NFunc K
  size : Nat
  input : Nat

section
variable {K : Type} [Field K] [LinearOrder K]

/-- `Linear`, neural/funcs.go:16-19. -/
def linearFn : NFunc K := ⟨fun v => v, fun _ => 1⟩

/-- `Sigmoid`, neural/funcs.go:10-13, with the exponential function given. -/
def sigmoidFn (exp : K → K) : NFunc K := ⟨fun v => 1 / (1 + exp (-v)), fun v => v * (1 - v)⟩

/-- `SoftplusRectifier`, neural/funcs.go:23-26, with the logarithm and exponential function given. -/
def softplusFn (log exp : K → K) : NFunc K := ⟨fun v => log (1 + exp v), fun v => v * (1 - v)⟩

/-- `m[i][j] = v`. -/
def setEntry (m : Nat → Nat → K) (i j : Nat) (v : K) : Nat → Nat → K := fun a b => if a = i ∧ b = j then v else m a b

/-- `m[i] = v`. -/
def setItem {α : Type} (m : Nat → α) (i : Nat) (v : α) : Nat → α := fun a => if a = i then v else m a

/-- `GetWeight`, neural/network.go:68-72. Numbers below 1 and above the size panic. -/
def Network.getWeight (n : Network K) (src target : Nat) : Res K :=
  if 1 ≤ src ∧ src ≤ n.size ∧ 1 ≤ target ∧ target ≤ n.size then Res.ok (n.weights (target - 1) (src - 1)) else Res.panic

/-- `SetWeight`, neural/network.go:76-80. -/
def Network.setWeight (n : Network K) (src target : Nat) (v : K) : Res (Network K) :=
  if 1 ≤ src ∧ src ≤ n.size ∧ 1 ≤ target ∧ target ≤ n.size then
    Res.ok { n with weights := setEntry n.weights (target - 1) (src - 1) v }
  else Res.panic

/-- `SetBias`, neural/network.go:83-89. -/
def Network.setBias (n : Network K) (node : Nat) (v : K) : Res (Network K) :=
  if node ≤ n.input then Res.ok n
  else if node - 1 < n.size then Res.ok { n with biases := setItem n.biases (node - 1) v }
  else Res.panic

/-- `GetBias`, neural/network.go:92-95. -/
def Network.getBias (n : Network K) (node : Nat) : Res K :=
  if 1 ≤ node ∧ node - 1 < n.size then Res.ok (n.biases (node - 1)) else Res.panic

/-- The second loop of `NewNetwork`, neural/network.go:38-41. -/
def netInputs : List Nat → Network K → Res (Network K)
  | [], n => Res.ok n
  | i :: is, n =>
    if i < n.size then
      (Network.setWeight { n with funcs := setItem n.funcs i linearFn } (i + 1) (i + 1) 1).bind fun n' => netInputs is n'
    else Res.panic

/-- `NewNetwork`, neural/network.go:28-43. -/
def newNetwork (size input : Nat) (f : NFunc K) : Res (Network K) :=
  netInputs (List.range input) ⟨none, fun _ _ => 0, fun _ => 0, fun _ => f, size, input⟩

/-- The body of the loop of `Activate`, neural/network.go:121-125: product, bias, function. -/
def Network.pass (n : Network K) (x : Nat → K) : Nat → K :=
  fun r => (n.funcs r).forward ((∑ c ∈ Finset.range n.size, n.weights r c * x c) + n.biases r)

/-- `Activate`, neural/network.go:107-126. -/
def Network.activate (n : Network K) : Nat → (Nat → K) → Nat → K
  | 0, x => x
  | m + 1, x => n.activate m (n.pass x)

/-- The loop of `Error`, neural/network.go:203-215: the argument counts the passes left. -/
def Network.errorLoop (n : Network K) (out : Nat → K) : Nat → (Nat → K) → (Nat → K) → Nat → K
  | 0, _, ret => ret
  | m + 1, err, ret =>
    let err' := fun r => err r * out r
    let ret' := fun r => ret r + err' r
    n.errorLoop out m (if m ≠ 0 then fun r => ∑ c ∈ Finset.range n.size, n.weights c r * err' c else err') ret'

/-- `Error`, neural/network.go:175-219. -/
def Network.error (n : Network K) (out err : Nat → K) (iterations : Nat) : Nat → K :=
  n.errorLoop (fun r => (n.funcs r).backward (out r)) iterations err fun _ => 0

/-- `UpdateWeights`, neural/network.go:131-150. -/
def Network.updateWeights (n : Network K) (out err : Nat → K) (learnRate : K) : Network K :=
  let orig := n.orig.getD n.weights
  { n with
    orig := some orig
    weights := fun target source =>
      if target = source then n.weights target source
      else if |orig target source| > 1 / 200 then n.weights target source + learnRate * out source * err target
      else 0 }

/-- `UpdateBias`, neural/network.go:154-163. -/
def Network.updateBias (n : Network K) (err : Nat → K) (learnRate : K) : Network K :=
  { n with biases := fun i => if i < n.input then n.biases i else n.biases i + err i * learnRate }
end

end Golearn
