import Verif.Model.Attr

/-! # Specification of C134: kinds of attributes -/

namespace Golearn

/-- Two attributes are both categorical, both floats or both binary. -/
def SameKind (a b : Attr) : Prop := a.isFloat = b.isFloat ∧ a.isCat = b.isCat ∧ a.isBin = b.isBin

/-- No more than `n` of the attributes are floats, no more than `n` categorical and no more than `n` binary. -/
def AtMostOfEachKind (n : Nat) (as : List Attr) : Prop :=
  as.countP Attr.isFloat ≤ n ∧ as.countP Attr.isCat ≤ n ∧ as.countP Attr.isBin ≤ n

end Golearn
