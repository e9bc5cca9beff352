import Verif.Model.Reload

/-! # What a user expects of loading into a classifier that is in use -/

namespace Golearn

/-- If loading does not succeed, the classifier is as it was. -/
def KeepsOnError {σ : Type} (reload : σ → Archive → After σ) : Prop :=
  ∀ old ar, (reload old ar).2 ≠ Res.ok () → (reload old ar).1 = old

/-- If loading succeeds, what was there before does not matter. -/
def Replaces {σ : Type} (reload : σ → Archive → After σ) : Prop :=
  ∀ old old' ar, (reload old ar).2 = Res.ok () → reload old' ar = reload old ar

end Golearn
