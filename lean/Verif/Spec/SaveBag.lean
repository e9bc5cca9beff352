import Verif.Spec.SaveGrid

/-! # Specification vocabulary: saved ensembles -/

namespace Golearn

/-- The same attributes are selected for the same classifiers, at whatever addresses. -/
def SameSelected (sel sel' : GoMap Nat (List Attr)) : Prop :=
  sel'.map (fun p => (p.1, p.2.map Attr.body)) = sel.map fun p => (p.1, p.2.map Attr.body)

/-- What has to be true of a bagged model for it to be saved: the grid it keeps has no rows and survives being written, and the
selected attributes are attributes of it. -/
structure BagKept (nilVals : Bool) (viaFloat : Int → Int) (fitOn : Dense) (sel : GoMap Nat (List Attr)) : Prop where
  grid : GridKept nilVals viaFloat (.dense fitOn) 0
  rows : fitOn.maxRow = 0
  selected : ∀ p ∈ sel, ∀ a ∈ p.2, a ∈ fitOn.allAttributes

end Golearn
