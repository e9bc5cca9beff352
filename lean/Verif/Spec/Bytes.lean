import Verif.Model.Core

/-! # Specification vocabulary for packed values -/

namespace Golearn

/-- Value of a list of bytes read as a little-endian number (specification). -/
def leValue : Bytes → Nat
  | [] => 0
  | b :: bs => b.toNat + 256 * leValue bs

end Golearn
