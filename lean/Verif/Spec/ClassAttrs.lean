import Verif.Spec.History

namespace Golearn

/-- Attribute `x` is currently a class attribute: at some point, when it was already present, it
was designated (through an attribute equal to it), and it has not been removed since. -/
def isDesignated (ops : List Op) (x : Attr) : Prop :=
  ∃ pre b post, ops = pre ++ Op.addClass b :: post ∧ x ∈ addedAttrs pre ∧ x.equals b = true ∧
    ∀ c, Op.removeClass c ∈ post → x.equals c = false

end Golearn
