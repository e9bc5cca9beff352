import Verif.Model.Save

/-! # Specification vocabulary: saved models -/

namespace Golearn

/-- The grid is a dense grid or a view of one, at any depth: no lazily filtered grid is involved. -/
def Grid.Unfiltered : Grid → Prop
  | .dense _ => True
  | .view src _ _ _ _ => src.Unfiltered
  | .filt _ _ _ _ => False

/-- Attributes survive being written and read: a categorical attribute is not one that has a nil slice of values, and the
precision of a float attribute is a number that `float64` can hold. -/
def AttrKept (nilVals : Bool) (viaFloat : Int → Int) (b : AttrBody) : Prop :=
  (∀ n, ¬ (b = .cat n [] ∧ nilVals = true)) ∧ ∀ n k, b = .float n k → viaFloat k = k

/-- A rule survives: its attribute does and its threshold is finite. -/
def RuleKept (S : SaveEnv) (r : Rule) : Prop := S.fin r.val = true ∧ AttrKept S.nilVals S.viaFloat r.attr.body

/-- The branches of every node have different names, as the keys of a map do. -/
def Tree.Keyed : Tree → Prop
  | .leaf _ _ => True
  | .split _ _ _ keys child => keys.Nodup ∧ ∀ k ∈ keys, (child k).Keyed

/-- Two trees have the same shape, classes, distributions, thresholds and attributes (at whatever addresses these are). -/
def Tree.Same : Tree → Tree → Prop
  | .leaf d c, .leaf d' c' => d = d' ∧ c = c'
  | .split d c r keys child, .split d' c' r' keys' child' =>
    d = d' ∧ c = c' ∧ r.val = r'.val ∧ r.attr.body = r'.attr.body ∧ keys = keys' ∧ ∀ k ∈ keys, (child k).Same (child' k)
  | _, _ => False

/-- Reading the archive under the keys of `es` gives what `es` has under them. -/
def Agrees (ar es : Archive) : Prop := ∀ e ∈ es, getNamedFile ar e.1 = getNamedFile es e.1

/-- Saving and loading under a prefix fit together: on a file that is open, saving succeeds and adds entries whose names
start with the prefix, the same whatever else is in the file (afterwards, the file is closed or not as `closes` says); and
loading from any file that agrees with these entries gives a model that is `good`. -/
def Restores {μ : Type} (save : Writer → String → Res Writer) (load : Archive → String → Res μ) (good : μ → Prop)
    (closes : Bool) : Prop :=
  ∀ pre, ∃ es : Archive, (∀ e ∈ es, ∃ s, e.1 = tarPrefix pre s) ∧
    (∀ w : Writer, w.closed = false → save w pre = Res.ok ⟨w.entries ++ es, closes⟩) ∧
    ∀ ar, Agrees ar es → ∃ m, load ar pre = Res.ok m ∧ good m

end Golearn
