import Verif.Model.SharedAttr
import Verif.Spec.Table

/-! # What a user expects of attributes that are shared -/

namespace Golearn

/-- The attribute as it was, except that a categorical one may have more values, at the end. -/
def AttrBody.grows : AttrBody → AttrBody → Prop
  | .cat n vs, .cat m ws => n = m ∧ vs <+: ws
  | a, b => a = b

/-- No filter is involved. -/
def Grid.unfiltered : Grid → Prop
  | .dense _ => True
  | .view src _ _ _ _ => src.unfiltered
  | .filt _ _ _ _ => False

/-- Different attributes of the grid have different names. -/
def Grid.namesApart (o : Objs) (g : Grid) : Prop :=
  ∀ a ∈ g.allAttributes, ∀ b ∈ g.allAttributes, a.ptr ≠ b.ptr → (a.now o).name ≠ (b.now o).name

/-- The texts of a list that a categorical attribute with the values `vs` does not have, each once, in the order in which they come. -/
def newTexts (vs : List String) : List String → List String
  | [] => []
  | t :: ts => if t ∈ vs then newTexts vs ts else t :: newTexts (vs ++ [t]) ts

/-- What a grid shows under the objects `o'` is what it shows under `o`: the size, every cell, and the text of every cell. -/
def StaysAsItWas (fo : FloatOps) (g : Grid) (o o' : Objs) : Prop :=
  (g.now o').size = (g.now o).size ∧
  ∀ a ∈ g.allAttributes, ∀ r, (g.now o').cell (a.now o') r = (g.now o).cell (a.now o) r ∧
    ∀ t, (a.now o).getString fo ((g.now o).cell (a.now o) r) = Res.ok t →
      (a.now o').getString fo ((g.now o').cell (a.now o') r) = Res.ok t

/-- The full claim: no text that is new somewhere changes what any grid shows. -/
def TextsDoNotInterfere : Prop :=
  ∀ (fo : FloatOps) (g : Grid) (o : Objs) (l : List (Nat × String)), g.unfiltered → (g.now o).distinct → StaysAsItWas fo g o (o.interns l)

/-- The full claim for predictions: the data to predict is left as it was, its attributes included. -/
def PredictingLeavesData (fo : FloatOps) (parse : String → Option U64) (pg : Nat) : Prop :=
  ∀ (g : Grid) (o : Objs) (d0 d : Dense) (r : Nat) (c : String), g.unfiltered → g.namesApart o →
    generatePredictionVector pg (g.now o) = Res.ok d0 → setClass fo parse d0 r c = Res.ok d → g.now (o.written d) = g.now o

end Golearn
