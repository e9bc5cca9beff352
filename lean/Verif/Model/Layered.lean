import Verif.Model.Neural
import Verif.Model.Convert
import Verif.Model.Regression
import Verif.Model.Knn
import Verif.Model.Predict

/-!
# Networks in layers (neural/layered.go)

Layer sizes are natural numbers (`[]int` in the code; a negative size is not modelled). Numbers are exact: elements of an
ordered field; `val` gives the number of a bit pattern and `bits` the pattern of a number.
-/

namespace Golearn

/-- `MultiLayerNet`, neural/layered.go:21-30. -/
structure MLNet (K : Type) where
  network : Option (Network K)
  attrs : GoMap Attr Nat
  layers : List Nat
  classAttrOffset : Nat
  classAttrCount : Nat
  convergence : K
  maxIterations : Nat
  learningRate : K

/-- A weight or a bias that `Fit` sets to a random number. Neurons are counted from 1. -/
inductive NetSlot where
  | weight (src target : Nat)
  | bias (node : Nat)
  deriving DecidableEq, Repr

/-- What a call depends on and the language or its libraries choose: the addresses of the attributes made by the conversion,
the orders in which `NonClassAttributes` and `AllClassAttributes` of the converted instances list attributes (both range
over Go maps), the results of `rand.NormFloat64`, and the order of rows in each iteration. -/
structure NetRun (K : Type) where
  fresh : Nat → Nat
  inputs : List Attr → List Attr
  classes : List Attr → List Attr
  draw : Nat → K
  order : Nat → List Nat

section
variable {K : Type} [Field K] [LinearOrder K]

/-- `NewMultiLayerNet`, neural/layered.go:37-48. -/
def newMLNet (layers : List Nat) : MLNet K := ⟨none, [], layers, 0, 0, 1 / 1000, 500, 9 / 10⟩

/-- `convertToFloatInsts`, neural/layered.go:55-65. -/
def convertToFloatInsts (fresh : Nat → Nat) (g : Grid) : Grid := Grid.newFiltered g (Conv.float fresh g.allAttributes)

/-- The loops that give attributes consecutive numbers, neural/layered.go:195-199 and 201-206. -/
def enumerateAttrs (m : GoMap Attr Nat) : Nat → List Attr → GoMap Attr Nat
  | _, [] => m
  | i, a :: as => enumerateAttrs (m.set a i) (i + 1) as

/-! ## The random start -/

/-- The slots between two layers, neural/layered.go:219-229 and 253-259. -/
def pairSlots (off this next : Nat) : List NetSlot :=
  (List.range this).flatMap fun j => (List.range next).map fun k => .weight (off + (j + 1)) (off + this + (k + 1))

/-- The slots between hidden layers, in the order of the loop at neural/layered.go:212-231. -/
def interSlots : Nat → List Nat → List NetSlot
  | off, l :: l' :: ls => pairSlots off l l' ++ interSlots (off + l) (l' :: ls)
  | _, _ => []

/-- The biases of the hidden layers, neural/layered.go:234-241. -/
def hiddenBiasSlots : Nat → List Nat → List NetSlot
  | _, [] => []
  | off, l :: ls => ((List.range l).map fun j => .bias (off + (j + 1))) ++ hiddenBiasSlots (off + l) ls

/-- The biases of the output layer, neural/layered.go:244-247: numbered from `off`, one less than the neurons are. -/
def outBiasSlots (off outs : Nat) : List NetSlot := (List.range outs).map fun i => .bias (off + i)

/-- The slots from the last hidden layer to the output layer, neural/layered.go:250-262. -/
def lastSlots (outs : Nat) : Nat → List Nat → List NetSlot
  | _, [] => []
  | off, [l] => pairSlots off l outs
  | off, l :: ls => lastSlots outs (off + l) ls

/-- The slots from the inputs to the next layer, neural/layered.go:265-277. -/
def inputSlots (ins outs : Nat) (layers : List Nat) : List NetSlot :=
  pairSlots 0 ins (match layers with | [] => outs | l :: _ => l)

/-- All slots in the order in which `Fit` sets them, neural/layered.go:212-277. -/
def netSlots (ins outs : Nat) (layers : List Nat) : List NetSlot :=
  interSlots ins layers ++ hiddenBiasSlots ins layers ++ outBiasSlots (ins + layers.sum) outs ++ lastSlots outs ins layers ++
    inputSlots ins outs layers

/-- Setting slot after slot to a tenth of the next random number, neural/layered.go:227, 238, 246, 257, 274-275. -/
def setSlots (draw : Nat → K) : Nat → List NetSlot → Network K → Res (Network K)
  | _, [], n => Res.ok n
  | i, .weight s t :: rest, n => (n.setWeight s t (draw i * (1 / 10))).bind fun n' => setSlots draw (i + 1) rest n'
  | i, .bias b :: rest, n => (n.setBias b (draw i * (1 / 10))).bind fun n' => setSlots draw (i + 1) rest n'

/-! ## Training -/

/-- `v.Set(i, 0, x)` of a vector of the given size. -/
def vecSet (size : Nat) (v : Nat → K) (i : Nat) (x : K) : Res (Nat → K) :=
  if i < size then Res.ok (setItem v i x) else Res.panic

/-- The loop at neural/layered.go:302-313 over the values of a row and their attributes: the training vector and the error
vector. -/
def buildVecs (val : U64 → K) (size : Nat) (tr cl : GoMap Attr Nat) :
    List (Spec × Bytes) → (Nat → K) → (Nat → K) → Res ((Nat → K) × (Nat → K))
  | [], x, e => Res.ok (x, e)
  | p :: ps, x, e =>
    (unpackFloatBits p.2).bind fun u =>
      match tr.get? p.1.attr with
      | some i => (vecSet size x i (val u)).bind fun x' => buildVecs val size tr cl ps x' e
      | none =>
        match cl.get? p.1.attr with
        | some i => (vecSet size e i (val u)).bind fun e' => buildVecs val size tr cl ps x e'
        | none => Res.panic

/-- The loop at neural/layered.go:319-322. -/
def subOutputs (size : Nat) (out : Nat → K) : List (Attr × Nat) → (Nat → K) → Res (Nat → K)
  | [], e => Res.ok e
  | p :: ps, e => (vecSet size e p.2 (e p.2 - out p.2)).bind fun e' => subOutputs size out ps e'

/-- The row callback of `Fit`, neural/layered.go:292-337. The state is the network, `totalError` and `maxRow`; `nl` is
`totalLayers`. -/
def fitCallback (val : U64 → K) (rate : K) (nl : Nat) (tr cl : GoMap Attr Nat) (specs : List Spec) (s : Network K × K × Nat)
    (vals : List Bytes) (row : Nat) : Res ((Network K × K × Nat) × Ctl) :=
  let n := s.1
  (buildVecs val n.size tr cl (specs.zip vals) (fun _ => 0) fun _ => 0).bind fun p =>
    let out := n.activate (nl - 1) p.1
    (subOutputs n.size out cl p.2).bind fun err =>
      let b := n.error out err nl
      Res.ok ((((n.updateWeights out b rate).updateBias b rate),
        s.2.1 + |∑ i ∈ Finset.range n.size, err i|, row), Ctl.cont)

/-- The test at neural/layered.go:339-343: dividing by zero gives infinity or NaN, neither of which is smaller. -/
def converged (convergence totalError : K) (maxRow : Nat) : Bool :=
  decide (maxRow ≠ 0) && decide (totalError / (maxRow : K) < convergence)

/-- The loop at neural/layered.go:289-344; the first argument counts the iterations left, the second those done. -/
def fitLoop (val : U64 → K) (m : MLNet K) (tr cl : GoMap Attr Nat) (insts : Grid) (specs : List Spec)
    (order : Nat → List Nat) : Nat → Nat → Network K → Res (Network K)
  | 0, _, n => Res.ok n
  | k + 1, it, n =>
    (keepState (insts.mapOverRows specs (order it)
      (fitCallback val m.learningRate (2 + m.layers.length) tr cl specs) (n, 0, 0)) (n, 0, 0)).bind fun s =>
        if converged m.convergence s.2.1 s.2.2 then Res.ok s.1
        else fitLoop val m tr cl insts specs order k (it + 1) s.1

/-- `Fit`, neural/layered.go:164-345. -/
def MLNet.fit (exp : K → K) (val : U64 → K) (srt : List Spec → List Spec) (run : NetRun K) (m : MLNet K) (g : Grid) :
    Res (MLNet K) :=
  let insts := convertToFloatInsts run.fresh g
  let ins := run.inputs insts.normalAttrs
  let cls := run.classes insts.allClassAttributes
  let hidden := m.layers.sum
  let size := ins.length + cls.length + hidden
  let counter := ins.length - 1
  let m1 : MLNet K := { m with
    attrs := enumerateAttrs (enumerateAttrs m.attrs 0 ins) (counter + 1 + hidden) cls
    classAttrOffset := counter + 1
    classAttrCount := m.classAttrCount + cls.length }
  let tr := enumerateAttrs [] 0 ins
  let cl := enumerateAttrs [] (counter + 1 + hidden) cls
  (newNetwork size ins.length (sigmoidFn exp)).bind fun n0 =>
    (setSlots run.draw 0 (netSlots ins.length cls.length m.layers) n0).bind fun n1 =>
      (insts.resolve srt insts.allAttributes).bind fun specs =>
        (fitLoop val m1 tr cl insts specs run.order m1.maxIterations 0 n1).map fun n => { m1 with network := some n }

/-! ## Prediction -/

/-- The loop at neural/layered.go:123-129. -/
def buildInput (val : U64 → K) (size : Nat) (attrs : GoMap Attr Nat) : List (Spec × Bytes) → (Nat → K) → Res (Nat → K)
  | [], x => Res.ok x
  | p :: ps, x =>
    match attrs.get? p.1.attr with
    | none => Res.panic
    | some i => (unpackFloatBits p.2).bind fun u => (vecSet size x i (val u)).bind fun x' => buildInput val size attrs ps x'

/-- The loop at neural/layered.go:142-148 over the neurons that are left: the number of the greatest value found so far and the
value. -/
def maxLoop (size : Nat) (out : Nat → K) : List Nat → Nat → K → Res Nat
  | [], mi, _ => Res.ok mi
  | i :: is, mi, mv =>
    if i < size then (if mv < out i then maxLoop size out is i (out i) else maxLoop size out is mi mv) else Res.panic

/-- The loop at neural/layered.go:135-138; an attribute that is not in the map has the number 0. -/
def setFloats (bits : K → U64) (size : Nat) (attrs : GoMap Attr Nat) (out : Nat → K) (row : Nat) :
    List Spec → Dense → Res Dense
  | [], d => Res.ok d
  | s :: ss, d =>
    let i := (attrs.get? s.attr).getD 0
    if i < size then (d.set s row (packU64 (bits (out i)))).bind fun d' => setFloats bits size attrs out row ss d' else Res.panic

/-- The row callback of `Predict`, neural/layered.go:117-153. The subtraction at line 149 is one of integers; the result is
stored modulo `2^64`. -/
def predictCallback (val : U64 → K) (bits : K → U64) (m : MLNet K) (n : Network K) (floatMode : Bool) (inAs outAs : List Spec)
    (ret : Dense) (vals : List Bytes) (row : Nat) : Res (Dense × Ctl) :=
  (buildInput val n.size m.attrs (inAs.zip vals) fun _ => 0).bind fun x =>
    let out := n.activate (2 + m.layers.length) x
    if floatMode then (setFloats bits n.size m.attrs out row outAs ret).map fun d => (d, Ctl.cont)
    else
      (maxLoop n.size out ((List.range m.classAttrCount).map (m.classAttrOffset + ·)) 0 0).bind fun mi =>
        match outAs with
        | s :: _ => (ret.set s row (packU64 (BitVec.ofInt 64 ((mi : Int) - (m.classAttrOffset : Int))))).map fun d => (d, Ctl.cont)
        | [] => Res.panic

/-- `Predict`, neural/layered.go:73-157. Before `Fit` the network is a nil pointer. -/
def MLNet.predict (val : U64 → K) (bits : K → U64) (srt : List Spec → List Spec) (pg : Nat) (run : NetRun K) (m : MLNet K)
    (g : Grid) : Res Dense :=
  (generatePredictionVector pg g).bind fun ret =>
    let insts := convertToFloatInsts run.fresh g
    let ins := run.inputs insts.normalAttrs
    let outs := ret.allClassAttributes
    let floats := outs.countP Attr.isFloat
    let cats := outs.countP Attr.isCat
    if outs.any Attr.isBin then Res.panic
    else if 0 < floats ∧ 0 < cats then Res.panic
    else if 1 < cats then Res.panic
    else
      match m.network with
      | none => Res.panic
      | some n =>
        (insts.resolve srt ins).bind fun inAs =>
          ((Grid.dense ret).resolve srt outs).bind fun outAs =>
            keepState (insts.mapOverRows inAs (run.order 0)
              (predictCallback val bits m n (decide (0 < floats)) inAs outAs) ret) ret

end

end Golearn
