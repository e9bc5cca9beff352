import Verif.Spec.SaveGrid
import Verif.Model.SaveSvc

/-! # Specification vocabulary: saved linear support vector machines and one-vs-all models -/

namespace Golearn

section
variable {K : Type} [Field K] [LinearOrder K]

/-- A number survives being written as JSON: `float64` holds it exactly and it is finite. -/
def SvcEnv.Keeps (E : SvcEnv K) (x : K) : Prop := E.val (E.num x) = x ∧ E.fin (E.num x) = true

/-- The numbers in the parameters survive. -/
def SvcEnv.KeepsParams (E : SvcEnv K) (p : SvcParams K) : Prop :=
  E.Keeps p.c ∧ E.Keeps p.eps ∧ ∀ ws, p.weights = some ws → ∀ x ∈ ws, E.Keeps x

/-- What has to be true of a linear support vector machine for it to be saved: it has been trained, with a solver that has a name and as
many labels as classes; its parameters survive; and its bias is a number that 16 digits tell exactly. -/
structure SvcModel.Written (E : SvcEnv K) (m : SvcModel K) (solver : Nat) (lm : LModel K) : Prop where
  trained : m.model = some (solver, lm)
  named : ∃ s, solverNames[solver]? = some s ∧ s ≠ ""
  labels : lm.label.length = lm.nrClass
  params : ∀ p, m.params = some p → E.KeepsParams p
  bias : E.rnd lm.bias = lm.bias

/-- What has to be true for nothing to be lost: 16 digits tell the weights exactly, too. -/
structure SvcModel.Kept (E : SvcEnv K) (m : SvcModel K) (solver : Nat) (lm : LModel K) : Prop extends m.Written E solver lm where
  weights : ∀ k, k < weightCount lm.nrFeature lm.nrClass lm.bias → E.rnd (lm.w k) = lm.w k

/-- Two linear models have the same sizes, labels and weights. -/
structure LModel.Same (m m' : LModel K) : Prop where
  nrFeature : m'.nrFeature = m.nrFeature
  nrClass : m'.nrClass = m.nrClass
  label : m'.label = m.label
  bias : m'.bias = m.bias
  weights : ∀ k, k < weightCount m.nrFeature m.nrClass m.bias → m'.w k = m.w k

/-- Two linear support vector machines have the same parameters and the same model. -/
def SvcModel.Same (m m' : SvcModel K) : Prop :=
  m'.params = m.params ∧ ∃ solver lm lm', m.model = some (solver, lm) ∧ m'.model = some (solver, lm') ∧ lm.Same lm'
end

/-- What has to be true of a one-vs-all model for it to be saved: the grid it keeps has no rows and survives being written, its only class
attribute is categorical and has exactly the values the model was trained for, there is a filter and a classifier for each, and the
filters are about attributes of the grid. -/
structure SavedOva.Kept {M : Type} (nilVals : Bool) (viaFloat : Int → Int) (m : SavedOva M) : Prop where
  grid : GridKept nilVals viaFloat (.dense m.fitOn) 0
  empty : m.fitOn.maxRow = 0
  cls : ∃ c nm, m.fitOn.allClassAttributes = [c] ∧ c.body = .cat nm m.classValues
  values : m.classValues.Nodup
  two : 2 ≤ m.classValues.length
  few : m.classValues.length < 2 ^ 64
  models : m.models.length = m.classValues.length
  filters : m.filters.length = m.classValues.length
  keys : ∀ f ∈ m.filters, (f.attrs.map Prod.fst).Nodup
  known : ∀ f ∈ m.filters, f.cls ∈ m.fitOn.allAttributes ∧ ∀ p ∈ f.attrs, p.1 ∈ m.fitOn.allAttributes
  kept : ∀ f ∈ m.filters, ∀ p ∈ f.attrs, AttrKept nilVals viaFloat p.2.body

/-- Two filters single out the same class value and replace the same attributes by the same attributes, at whatever addresses. -/
structure OvaFilter.Same (f f' : OvaFilter) : Prop where
  val : f'.val = f.val
  cls : f'.cls.body = f.cls.body
  attrs : (f'.attrs.map fun p => (p.1.body, p.2.body)).Perm (f.attrs.map fun p => (p.1.body, p.2.body))

/-- What is restored of a one-vs-all model: everything, at other addresses. `good i` is what is restored of classifier `i`. -/
structure SavedOva.Restored {M μ : Type} (good : Nat → μ → Prop) (m : SavedOva M) (m' : LoadedOva μ) : Prop where
  classValues : m'.classValues = m.classValues
  maxVal : m'.maxVal.toNat + 1 = m.classValues.length
  models : m'.models.length = m.models.length ∧ ∀ i q, m'.models[i]? = some q → good i q
  filters : List.Forall₂ OvaFilter.Same m.filters m'.filters
  grid : SameStructure (.dense m.fitOn) (.dense m'.fitOn)
  known : ∀ f ∈ m'.filters, f.cls ∈ m'.fitOn.allAttributes ∧ ∀ p ∈ f.attrs, p.1 ∈ m'.fitOn.allAttributes

section
variable {K : Type} [Field K] [LinearOrder K]

/-- What has to be true of a linear support vector machine for several classes: it has parameters, they and the weights survive, and so
do the one-vs-all model and its classifiers. -/
structure MultiSvc.Kept (nilVals : Bool) (viaFloat : Int → Int) (E : SvcEnv K) (m : MultiSvc K) : Prop where
  params : ∃ p, m.params = some p ∧ E.KeepsParams p
  weights : ∀ l, m.weights = some l → (l.map Prod.fst).Nodup ∧ ∀ p ∈ l, E.Keeps p.2
  ova : m.ova.Kept nilVals viaFloat
  members : ∀ q ∈ m.ova.models, ∃ solver lm, q.Kept E solver lm

/-- What is restored of the classifiers: each has the parameters and the weights it had. -/
def SavedOva.SameAt (m : SavedOva (SvcModel K)) (i : Nat) (q : SvcModel K) : Prop := ∃ p, m.models[i]? = some p ∧ p.Same q
end

end Golearn
