import Verif.Model.Attr

namespace Golearn

/-- What it means for two attributes to be the same column: same type, same name and, for
categorical attributes, the same list of values. Precision is ignored, as documented. -/
def sameAttr (a b : Attr) : Prop :=
  match a.body, b.body with
  | .float n _, .float m _ => n = m
  | .cat n vs, .cat m ws => n = m ∧ vs = ws
  | .bin n, .bin m => n = m
  | _, _ => False

/-- Same storage representation: same type and, for categorical attributes, the same values. -/
def sameRepr (a b : Attr) : Prop :=
  match a.body, b.body with
  | .float _ _, .float _ _ => True
  | .cat _ vs, .cat _ ws => vs = ws
  | .bin _, .bin _ => True
  | _, _ => False

end Golearn
