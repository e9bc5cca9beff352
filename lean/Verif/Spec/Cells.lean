import Verif.Model.Group

/-!
# What a cell should hold

Independent of how storage is laid out: a cell of an `n`-byte group holds exactly the last value
written (or `n` zero bytes if none was), a cell of a one-bit group holds `1` or `0` according to
whether the first byte of the last value written is positive.
-/

namespace Golearn

/-- The value a read must return, given the last write to the cell (if any). -/
def cellValue : GKind → Option Bytes → Bytes
  | .fixed n, none => List.replicate n 0#8
  | .fixed _, some v => v
  | .binary, none => [0#8]
  | .binary, some v =>
    match v with
    | b :: _ => if 0 < b.toNat then [1#8] else [0#8]
    | [] => [0#8]

/-- The values a cell accepts. -/
def acceptable : GKind → Bytes → Prop
  | .fixed n, v => v.length = n
  | .binary, v => v ≠ []

instance (k : GKind) (v : Bytes) : Decidable (acceptable k v) := by
  cases k <;> simp only [acceptable] <;> infer_instance

end Golearn
