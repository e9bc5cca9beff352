import Verif.Model.Refit

/-! # What a user expects of fitting a model again -/

namespace Golearn

/-- A model that has been fitted to any number of tables, and then to `g`, predicts as one with the same settings that has only been
fitted to `g`. -/
def Forgets {σ : Type} (ops : ClassifierOps σ) (same : σ → σ → Prop) : Prop :=
  ∀ m fresh, same m fresh → ∀ earlier g m1 m2, ops.fits m earlier = Res.ok m1 → ops.fit m1 g = Res.ok m2 →
    ∃ m', ops.fit fresh g = Res.ok m' ∧ ∀ what, (ops.predict m2 what).map Prod.snd = (ops.predict m' what).map Prod.snd

/-- Two k-nearest-neighbours classifiers that differ in their training data at most. -/
def KnnModel.Same (m m' : KnnModel) : Prop :=
  m.distance = m'.distance ∧ m.algorithm = m'.algorithm ∧ m.neighbours = m'.neighbours ∧ m.weighted = m'.weighted ∧
    m.allowOpt = m'.allowOpt

end Golearn
