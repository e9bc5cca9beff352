import Verif.Model.Layered
import Verif.Spec.Neural
import Verif.Spec.Convert
import Verif.Spec.Knn

/-! # Specification vocabulary: networks in layers -/

namespace Golearn

/-- The layer a place falls into, for layers of the given sizes; after the last one comes one more. -/
def layerOf : List Nat → Nat → Nat
  | [], _ => 0
  | l :: ls, i => if i < l then 0 else 1 + layerOf ls (i - l)

section
variable {K : Type} [Field K] [LinearOrder K]

/-- The numbers at the places of a list of attributes in row `r`, the first at place `first`; 0 elsewhere. -/
def placed (num : Attr → Nat → K) (first : Nat) (as : List Attr) (r : Nat) : Nat → K :=
  fun i => if first ≤ i then (match as[i - first]? with | some a => num a r | none => 0) else 0

/-- What the outputs `O` lack. -/
def lacking (O : Finset Nat) (y F : Nat → K) : Nat → K := fun v => if v ∈ O then y v - F v else 0

/-- Training on rows, one after the other: for each row the values `F` of the neurons for the inputs `X r` are determined, then
the errors `δ` by back-propagation of what the outputs lack of `Y r`, and the weights and biases are moved by them. The last
argument is the sum over all rows of how much the outputs lack taken together. -/
inductive Epoch (rate : K) (O : Finset Nat) (X Y : Nat → Nat → K) : List Nat → Network K → Network K → K → Prop
  | done (n : Network K) : Epoch rate O X Y [] n n 0
  | row (r : Nat) (rs : List Nat) (n n' : Network K) (F δ : Nat → K) (e : K) (forward : n.FeedForward (X r) F)
      (backward : n.BackPropagates F (lacking O (Y r) F) δ)
      (rest : Epoch rate O X Y rs ((n.updateWeights F δ rate).updateBias δ rate) n' e) :
      Epoch rate O X Y (r :: rs) n n' (|∑ o ∈ O, (Y r o - F o)| + e)

/-- At most `left` iterations over all rows. Training stops early if the sum of the errors of an iteration, divided by the number
of the row visited last, is below `conv` (and not if that row has the number 0). -/
inductive Training (rate conv : K) (O : Finset Nat) (X Y : Nat → Nat → K) (order : Nat → List Nat) :
    Nat → Nat → Network K → Network K → Prop
  | spent (it : Nat) (n : Network K) : Training rate conv O X Y order it 0 n n
  | stop (it left last : Nat) (n n' : Network K) (e : K) (run : Epoch rate O X Y (order it) n n' e)
      (hlast : (order it).getLast? = some last) (hne : last ≠ 0) (small : e / (last : K) < conv) :
      Training rate conv O X Y order it (left + 1) n n'
  | next (it left : Nat) (n n1 n' : Network K) (e : K) (run : Epoch rate O X Y (order it) n n1 e)
      (large : ∀ last : Nat, (order it).getLast? = some last → last ≠ 0 → ¬ e / (last : K) < conv)
      (rest : Training rate conv O X Y order (it + 1) left n1 n') :
      Training rate conv O X Y order it (left + 1) n n'

/-- Data a network can be trained on or asked about: a table with attributes that differ, whose class attributes are attributes of
it, and which can be converted to numbers. -/
structure NetData (g : Grid) (n : Nat) (f : Filter) : Prop where
  presents : g.Presents n
  distinct : g.distinct
  known : ∀ c ∈ g.allClassAttributes, c ∈ g.allAttributes
  typed : g.typed n
  values : ∀ a ∈ g.allAttributes, ∀ name vals, a.body = .cat name vals → vals.Nodup ∧ vals.length ≤ 2 ^ 64 ∧
    ∀ r, r < n → ∃ i, i < vals.length ∧ g.cell a r = stored i
  names : (f.attrs.map fun p => p.new.name).Nodup

/-- A network for `ins` inputs, hidden layers `layers` and `outs` outputs: neurons in this order, all but the inputs with the sigmoid
function. Apart from the inputs, which lead to themselves, neurons lead only to those of the next layer. -/
structure InLayers (exp : K → K) (n : Network K) (ins : Nat) (layers : List Nat) (outs : Nat) : Prop where
  size : n.size = ins + layers.sum + outs
  input : n.input = ins
  layered : n.Layered (layerOf (ins :: layers)) (layers.length + 1)
  next : ∀ t s, t < n.size → s < n.size → t ≠ s → n.weights t s ≠ 0 →
    layerOf (ins :: layers) t = layerOf (ins :: layers) s + 1
  sigmoid : ∀ i, ins ≤ i → n.funcs i = sigmoidFn exp

/-- The random start of such a network: every connection of a neuron to one of the next layer, and every bias but that of the last
neuron, is a tenth of a random number, and no two of them are the same drawing. The bias of the last neuron is 0. -/
def RandomStart (draw : Nat → K) (n : Network K) (ins : Nat) (layers : List Nat) (outs : Nat) : Prop :=
  let joined := fun t s => t < ins + layers.sum + outs ∧ s < ins + layers.sum + outs ∧
    layerOf (ins :: layers) t = layerOf (ins :: layers) s + 1
  let biased := fun i => ins ≤ i ∧ i + 1 < ins + layers.sum + outs
  ∃ (w : Nat → Nat → Nat) (b : Nat → Nat),
    (∀ t s, joined t s → n.weights t s = draw (w t s) * (1 / 10)) ∧
    (∀ i, biased i → n.biases i = draw (b i) * (1 / 10)) ∧
    (0 < outs → n.biases (ins + layers.sum + outs - 1) = 0) ∧
    (∀ t s t' s', joined t s → joined t' s' → w t s = w t' s' → t = t' ∧ s = s') ∧
    (∀ i j, biased i → biased j → b i = b j → i = j) ∧
    ∀ t s i, joined t s → biased i → w t s ≠ b i

/-- The orders and rows of a call are possible: maps are listed in some order, and rows in one the table allows. -/
structure NetRun.Allowed (run : NetRun K) (g : Grid) : Prop where
  inputs : ∀ l, (run.inputs l).Perm l
  classes : ∀ l, (run.classes l).Perm l
  order : ∀ i, g.RowOrder (run.order i)

/-- Data with numbers as inputs, at least one, and a single class attribute `c`. -/
structure ClassData (g : Grid) (n : Nat) (f : Filter) (c : Attr) : Prop extends NetData g n f where
  one : g.allClassAttributes = [c]
  numbers : ∀ a ∈ g.allAttributes, a ≠ c → a.isFloat = true
  some : ∃ a ∈ g.allAttributes, a ≠ c

/-- The inputs of data with the class attribute `c`, in some order. -/
def InputsOf (g : Grid) (c : Attr) (ins : List Attr) : Prop := ins.Nodup ∧ ∀ a, a ∈ ins ↔ a ∈ g.allAttributes ∧ a ≠ c

/-- The neuron of the `j`-th of the outputs `outs`, if neurons from `first` on stand for the outputs in the order `cls`. -/
def neuronOf (first : Nat) (cls outs : List Attr) (j : Nat) : Nat := first + (outs[j]?.elim 0 fun a => cls.idxOf a)

/-- Every row of the prediction `d` has, in the column `cw`, one of `count` values, the one whose neuron has the greatest value among
those of all. -/
def PredictsGreatest (n : Network K) (x : Nat → Nat → K) (neuron : Nat → Nat) (count rows : Nat) (cw : Attr) (d : Dense) : Prop :=
  ∀ r, r < rows → ∃ F, n.FeedForward (x r) F ∧
    ∃ i, i < count ∧ (Grid.dense d).cell cw r = stored i ∧ ∀ j, j < count → F (neuron j) ≤ F (neuron i)

end

end Golearn
