import Verif.Spec.SaveGrid
import Verif.Model.SaveNB

/-! # Specification vocabulary: saved naive Bayes classifiers -/

namespace Golearn

variable {K : Type}

/-- Two classifiers hold the same numbers for the same attributes, at whatever addresses these are. -/
structure NB.Same (nb nb' : NB K) : Prop where
  condProb : nb'.condProb = nb.condProb
  inst : nb'.inst = nb.inst
  rows : nb'.rows = nb.rows
  features : nb'.features = nb.features
  attrs : nb'.attrs.map Attr.body = nb.attrs.map Attr.body

/-- What has to be true of a classifier for it to be saved: the grid it keeps has no rows and survives being written, the attributes it
uses are attributes of it, and its probabilities are numbers that `float64` holds exactly and that are finite. -/
structure NB.Kept (nilVals : Bool) (viaFloat : Int → Int) (num : K → U64) (val : U64 → K) (fin : U64 → Bool) (nb : NB K) (fitOn : Dense) :
    Prop where
  grid : GridKept nilVals viaFloat (.dense fitOn) 0
  empty : fitOn.maxRow = 0
  attrs : ∀ a ∈ nb.attrs, a ∈ fitOn.allAttributes
  few : nb.attrs.length < 2 ^ 64
  features : nb.features < 2 ^ 64
  rows : nb.rows < 2 ^ 64
  probs : ∀ p ∈ nb.condProb, ∀ x ∈ p.2, val (num x) = x ∧ fin (num x) = true

end Golearn
