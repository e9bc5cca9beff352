import Verif.Model.Cart
import Verif.Model.Instances
import Verif.Model.Predict

/-! # The average perceptron (perceptron/average.go). Numbers are exact: elements of an ordered field. -/

namespace Golearn

section
variable {K : Type} [Field K] [LinearOrder K]

/-- `AveragePerceptron`, perceptron/average.go:10-20; `data` is the training data, present if and only if `trained` is set. -/
structure Perceptron (K : Type) where
  weights : List K
  edges : List K
  bias : K
  threshold : K
  learningRate : K
  trainError : K
  count : K
  data : Option Grid

/-- `NewAveragePerceptron`, perceptron/average.go:188-196: the arguments are given to the fields in the order of the
fields, so the threshold is the argument `learningRate`, and the learning rate the argument `trainError`. -/
def newPerceptron (features : Nat) (learningRate startingThreshold trainError : K) : Perceptron K where
  weights := List.replicate features 0
  edges := List.replicate features 0
  bias := startingThreshold
  threshold := learningRate
  learningRate := trainError
  trainError := 0
  count := 0
  data := none

/-- The loop of `average`, perceptron/average.go:45-50. -/
def percAverages (count : K) : List K → List K → List K
  | f :: fs, w :: ws => (count * w + f) / (f + 1) :: percAverages count fs ws
  | _, ws => ws

/-- `average`, perceptron/average.go:43-52. -/
def Perceptron.average (p : Perceptron K) : Perceptron K :=
  { p with weights := percAverages p.count p.edges p.weights, count := p.count + 1 }

/-- `updateWeights`, perceptron/average.go:29-41: `features[i]` panics for a row of too few numbers. -/
def Perceptron.updateWeights (p : Perceptron K) (features : List K) (correction : K) : Res (Perceptron K) :=
  if features.length < p.weights.length then Res.panic
  else Res.ok ({ p with
    weights := (features.take p.weights.length).map fun v => p.learningRate * correction * v
    edges := p.edges.map fun e => e + 1 } : Perceptron K).average

/-- The loop of `score`, perceptron/average.go:57-59. -/
def percDot : List K → List K → K → Res K
  | [], _, acc => Res.ok acc
  | _ :: _, [], _ => Res.panic
  | w :: ws, x :: xs, acc => percDot ws xs (acc + x * w)

/-- `score`, perceptron/average.go:54-66. -/
def Perceptron.score (p : Perceptron K) (features : List K) : Res K :=
  (percDot p.weights features 0).map fun s => if p.threshold ≤ s then 1 else -1

/-- One row of the training loop, perceptron/average.go:77-84: what is expected is always `0.0`. -/
def Perceptron.learn (p : Perceptron K) (datum : String × List K) : Res (Perceptron K) :=
  (p.score datum.2).bind fun response =>
    if (0 : K) ≠ response then
      (p.updateWeights datum.2 (0 - response)).map fun q => { q with trainError := q.trainError + |0 - response| }
    else Res.ok p

/-- One pass over the rows, perceptron/average.go:76-85. -/
def Perceptron.epoch : Perceptron K → List (String × List K) → Res (Perceptron K)
  | p, [] => Res.ok p
  | p, x :: xs => (p.learn x).bind fun q => q.epoch xs

/-- The loop over the epochs, perceptron/average.go:75-92. -/
def Perceptron.epochs (data : List (String × List K)) : Nat → Perceptron K → Res (Perceptron K)
  | 0, p => Res.ok p
  | n + 1, p => (p.epoch data).bind fun q => Perceptron.epochs data n q

/-- The row callback of `processData`, perceptron/average.go:170-184. -/
def percCallback (fo : FloatOps) (val : U64 → K) (g : Grid) (m : Nat → String × List K) (vals : List Bytes) (row : Nat) :
    Res ((Nat → String × List K) × Ctl) :=
  (readRow val vals).bind fun t => (getClass fo g row).map fun c => (setRow m row (c, t), Ctl.cont)

/-- The checks of the class attribute, perceptron/average.go:151-167. -/
def percClassOk (g : Grid) : Bool :=
  match g.allClassAttributes with
  | [a] => match a.body with
    | .cat _ vs => vs.length == 2
    | .bin _ => true
    | .float _ _ => false
  | _ => false

/-- `processData`, perceptron/average.go:142-186. -/
def percData (fo : FloatOps) (val : U64 → K) (srt : List Spec → List Spec) (order : List Nat) (g : Grid) :
    Res (List (String × List K)) :=
  (g.resolve srt g.nonClassFloats).bind fun sp =>
    if percClassOk g then
      (keepState (g.mapOverRows sp order (percCallback fo val g) fun _ => ("", [])) fun _ => ("", [])).map fun m =>
        (List.range g.size.2).map m
    else Res.panic

/-- `Fit`, perceptron/average.go:68-97; `MaxEpochs` is 10. -/
def Perceptron.fit (fo : FloatOps) (val : U64 → K) (srt : List Spec → List Spec) (order : List Nat) (p : Perceptron K)
    (g : Grid) : Res (Perceptron K) :=
  (percData fo val srt order g).bind fun data =>
    (Perceptron.epochs data 10 { p with trainError := 1 / 10 }).map fun q => { q.average with data := some g }

/-- The loop of `Predict`, perceptron/average.go:130-137: the class of a row that scores below zero is written to row 1. -/
def Perceptron.write (p : Perceptron K) (spec : Spec) : List (String × List K) → Nat → Dense → Res Dense
  | [], _, d => Res.ok d
  | x :: xs, i, d =>
    (p.score x.2).bind fun s =>
      (if s > 0 then d.set spec i (packU64 1#64) else d.set spec 1 (List.replicate 8 0#8)).bind fun d' =>
        p.write spec xs (i + 1) d'

/-- `Predict`, perceptron/average.go:101-140: `none` if the attributes are not those of the training data. -/
def Perceptron.predict (fo : FloatOps) (val : U64 → K) (pg : Nat) (srt : List Spec → List Spec) (order : List Nat)
    (p : Perceptron K) (what : Grid) : Res (Option Dense) :=
  match p.data with
  | none => Res.panic
  | some train =>
    (percData fo val srt order what).bind fun data =>
      match checkCompatible what train with
      | none => Res.ok none
      | some _ =>
        (generatePredictionVector pg what).bind fun ret =>
          match ret.allClassAttributes with
          | [] => Res.panic
          | c :: _ => (ret.getAttribute c).orPanic.bind fun spec => (p.write spec data 0 ret).map some
end

end Golearn
