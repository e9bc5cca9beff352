import Verif.Spec.History

namespace Golearn

/-- When a call is allowed after the calls `pre`: attributes only before the first `Extend`; writes
only through a specification already handed out, to an allocated row, with a value of the right
size for that attribute. -/
def legal (pre : List Op) : Op → Prop
  | .add _ => ∀ n, Op.extend n ∉ pre
  | .extend _ => True
  | .set h r v => ∃ a, (addedAttrs pre)[h]? = some a ∧ r < totalRows pre ∧
      acceptable (defaultKind a) v
  | _ => True

end Golearn
