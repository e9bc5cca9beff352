import Verif.Model.Bagging
import Verif.Spec.Labels
import Verif.Spec.Knn

/-! # Specification vocabulary: ensembles -/

namespace Golearn

/-- A grid of `n` rows with one class attribute, whose rows have the classes `k 0, k 1, ...`. -/
def ShowsClasses (fo : FloatOps) (g : Grid) (n : Nat) (k : Nat → String) : Prop :=
  g.Presents n ∧ ∃ c, g.allClassAttributes = [c] ∧ c ∈ g.allAttributes ∧ ReadsAs fo g c n k

/-- Every classifier of the ensemble succeeds on its part of the data: for row `r`, classifier `i` predicts
`lab i r`. -/
def Bagged.Predicts (b : Bagged) (fo : FloatOps) (srt : List Spec → List Spec) (g : Grid) (n : Nat)
    (lab : Nat → Nat → String) : Prop :=
  ∀ i f, b.classifiers[i]? = some f → ∃ part out, b.predictionInstances srt i g = Res.ok part ∧ f part = Res.ok out ∧
    ShowsClasses fo out n (lab i)

/-- The schedule brings the goroutines of a pipeline from the start to the state `s`. -/
def Pipeline.Reaches {V σ : Type} (p : Pipeline V σ) (t : σ) (sched : List Thread) (s : PipeState V σ) : Prop :=
  p.exec (p.start t) sched = some s

/-- The number of models whose prediction for row `r` is `c`. -/
def votesFor (models : Nat) (lab : Nat → Nat → String) (r : Nat) (c : String) : Nat :=
  ((List.range models).filter fun i => lab i r == c).length

end Golearn
