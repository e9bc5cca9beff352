import Verif.Spec.Save
import Verif.Model.Grid

/-! # Specification vocabulary: attributes that are found by what they are, not where they are -/

namespace Golearn

/-- The grid finds these attributes by their contents: at any depth, a lazily filtered grid converts them (so that it does not
compare addresses), and its conversion does not look at the addresses either. -/
def Grid.ByContent : Grid → List Attr → Prop
  | .dense _, _ => True
  | .view src none _ _ _, as => src.ByContent as
  | .view _ (some _) _ _ _, _ => True
  | .filt f _ _ unf, as => (∀ a ∈ as, Grid.flag unf a = false) ∧
      ∀ o a a' raw, a.body = a'.body → f.transform o a raw = f.transform o a' raw

end Golearn
