import Verif.Model.Pipeline
import Verif.Model.Perceptron
import Verif.Model.Layered
import Verif.Model.Discretise
import Verif.Model.ChiMerge
import Verif.Model.Convert

/-! # Fitting something that has been fitted before -/

namespace Golearn

/-- `Fit` called on one table after the other. A call that returns an error leaves the model as it was: this is so for the models
below, whose errors come before the first assignment (naive/bernoulli_nb.go:189-215, trees/id3.go:538-547; the others return none). -/
def ClassifierOps.fits {σ : Type} (ops : ClassifierOps σ) : σ → List Grid → Res σ
  | m, [] => Res.ok m
  | m, g :: gs =>
    match ops.fit m g with
    | .ok m' => ops.fits m' gs
    | .err => ops.fits m gs
    | .panic => Res.panic

section
variable {K : Type} [Field K] [LinearOrder K]

/-- `AveragePerceptron` as a `Classifier`: `Fit`, perceptron/average.go:68-97, goes on from the weights, the edges and the count of an
earlier call, and `Predict`, perceptron/average.go:101-140. A nil result is an error here. -/
def percOps (fo : FloatOps) (val : U64 → K) (pg : Nat) (srt : List Spec → List Spec) (order : Grid → List Nat) :
    ClassifierOps (Perceptron K) where
  fit p train := p.fit fo val srt (order train) train
  predict p what := (p.predict fo val pg srt (order what) what).bind fun o =>
    match o with
    | none => Res.err
    | some d => Res.ok (p, .dense d)

/-- `MultiLayerNet` as a `Classifier`: `Fit`, neural/layered.go:164-345, and `Predict`, neural/layered.go:73-157. The arbitrary choices
may depend on the data. -/
def netOps (exp : K → K) (val : U64 → K) (bits : K → U64) (srt : List Spec → List Spec) (pg : Nat) (fitRun predRun : Grid → NetRun K) :
    ClassifierOps (MLNet K) where
  fit m train := m.fit exp val srt (fitRun train) train
  predict m what := (m.predict val bits srt pg (predRun what) what).map fun d => (m, .dense d)

/-- `BinningFilter.Train`, filters/binning.go:40-72, of a filter that has the ranges `old`: the ends of the chosen attributes are reset
(lines 43-46), those of others are not touched. -/
def binRetrain (val : U64 → K) (g : Grid) (chosen : List Attr) (order : List Nat) (old : GoMap Attr (Range K)) :
    Res (GoMap Attr (Range K)) :=
  (discSpecs g chosen).bind fun specs =>
    match g.mapOverRows specs order (fun m row _ => (binRow val specs row m).map fun m => (m, Ctl.cont))
        (chosen.foldl (fun m a => m.set a ⟨none, none⟩) old) with
    | .ok (m, false) => Res.ok m
    | .ok (_, true) => Res.err
    | .err => Res.err
    | .panic => Res.panic

/-- `ChiMergeFilter.Train`, filters/chimerge.go:116-143, of a filter that has the tables `old`. -/
def chiRetrain (fo : FloatOps) (val : U64 → K) (below : Nat → K → Bool) (minrows maxrows : Int)
    (g : Grid) (order : List Nat) (chosen : List Attr) (old : GoMap Attr (List (FreqEntry K))) : Res (GoMap Attr (List (FreqEntry K))) :=
  (discSpecs g chosen).bind fun specs => chiTrainLoop fo val below minrows maxrows g order specs old
end

/-- `BinaryConvertFilter.Train` called again, filters/binary.go:117-151: `attrs` are all attributes added so far, and the lists of the
first call are appended to. `k` counts the attributes created before. -/
def Conv.binaryAgain (fresh : Nat → Nat) (c : Conv) (k : Nat) (attrs : List Attr) : Filter :=
  let c := Conv.trainBinary fresh c k attrs
  ⟨c.converted, c.transformBinary⟩

/-- `FloatConvertFilter.Train` called again, filters/float.go:107-141. -/
def Conv.floatAgain (fresh : Nat → Nat) (c : Conv) (k : Nat) (attrs : List Attr) : Filter :=
  let c := Conv.trainFloat fresh c k attrs
  ⟨c.converted, c.transformFloat⟩

end Golearn
