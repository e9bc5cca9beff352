import Verif.Model.SaveKnn
import Verif.Spec.Table

/-!
# What an estimator can be used with

Small predicates on settings and data sets, in terms of what a data set says about its attributes.
-/

namespace Golearn

/-- The data set has one class attribute, and it is of the given kind. -/
def Grid.OneClass (g : Grid) (kind : Attr → Prop) : Prop := ∃ c, g.allClassAttributes = [c] ∧ kind c

/-- A categorical attribute with exactly two values, or a binary attribute. -/
def Attr.twoSided (a : Attr) : Prop :=
  match a.body with
  | .cat _ vs => vs.length = 2
  | .bin _ => True
  | .float _ _ => False

/-- A categorical attribute. -/
def Attr.categorical (a : Attr) : Prop :=
  match a.body with
  | .cat _ _ => True
  | _ => False

/-- Two data sets have as many attributes as each other, and every attribute of the first equals one of the second. -/
def SameAttributes (what train : Grid) : Prop :=
  what.allAttributes.length = train.allAttributes.length ∧
    ∀ a ∈ what.allAttributes, ∃ b ∈ train.allAttributes, a.equals b = true

/-- The settings of a nearest neighbours classifier are among those its documentation names. -/
def KnnKnown (m : KnnModel) : Prop :=
  (m.distance = "euclidean" ∨ m.distance = "manhattan" ∨ m.distance = "cosine") ∧
    (m.algorithm = "linear" ∨ m.algorithm = "kdtree")

end Golearn
