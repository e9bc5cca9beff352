import Verif.Spec.Save
import Verif.Spec.Table
import Verif.Model.SaveBag
import Verif.Props.C31

/-! # Specification vocabulary: grids inside saved models -/

namespace Golearn

/-- The grid behaves as a table of `n` rows whose attributes are pairwise different and survive being written. -/
structure GridKept (nilVals : Bool) (viaFloat : Int → Int) (g : Grid) (n : Nat) : Prop where
  presents : g.Presents n
  distinct : g.distinct
  typed : g.typed n
  width : g.size.1 = g.allAttributes.length
  few : g.allAttributes.length < 2 ^ 64
  short : n < 2 ^ 64
  classes : ∀ c ∈ g.allClassAttributes, c ∈ g.allAttributes
  classNodup : g.allClassAttributes.Nodup
  kept : ∀ a ∈ g.allAttributes, AttrKept nilVals viaFloat a.body

/-- The sort moves elements by position, and the orders of attributes are orders of the right attributes. -/
structure GridEnv.Ok (G : GridEnv) : Prop where
  sort : Positional G.srt
  cls : ∀ g, (G.cls g).Perm g.allClassAttributes
  nrm : ∀ g, (G.nrm g).Perm (attrDifferenceRefs g.allAttributes g.allClassAttributes)

/-- Two grids have the same attributes and the same class attributes, at whatever addresses and in whatever order. -/
def SameStructure (g g' : Grid) : Prop :=
  (g'.allAttributes.map Attr.body).Perm (g.allAttributes.map Attr.body) ∧
  (g'.allClassAttributes.map Attr.body).Perm (g.allClassAttributes.map Attr.body) ∧
  ∀ a ∈ g.allAttributes, ∀ a' ∈ g'.allAttributes, a'.body = a.body →
    (a' ∈ g'.allClassAttributes ↔ a ∈ g.allClassAttributes)

end Golearn
