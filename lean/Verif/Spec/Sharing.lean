import Verif.Model.Memory

/-! # Vocabulary for statements about shared memory -/

namespace Golearn

/-- The step acts on table `i`: a call on it that may change it, or a write into a slice it handed
out (`held` are the slices the client holds, with the table each came from). -/
def MOp.actsOn (held : List Held) (i : Nat) : MOp → Prop
  | .build j _ => j = i
  | .extend j _ => j = i
  | .set j _ _ _ => j = i
  | .swap j _ _ => j = i
  | .poke k _ => ∃ h, held[k]? = some h ∧ h.source = some i
  | _ => False

/-- The step changes the layout or the size of table `i`. -/
def MOp.reshapes (i : Nat) : MOp → Prop
  | .build j _ => j = i
  | .extend j _ => j = i
  | _ => False

/-- The bytes the client sees in the `k`-th slice it holds (`none` if it holds no such slice). -/
def World.shows (w : World) (k : Nat) : Option Bytes := (w.held[k]?).map fun h => w.mem.bytes h.slice

/-- Table `i` stores the attribute of `s` in a group of whole bytes (`FixedAttributeGroup`), as it does
all float and categorical attributes, and not in a group of bits. -/
def World.wholeBytes (w : World) (i : Nat) (s : Spec) : Prop :=
  ∃ id g size, s.pond = some id ∧ (w.table i).ags[id]? = some g ∧ g.kind = GKind.fixed size

/-- Table `i` stores the attribute of `s` in a group of bits (`BinaryAttributeGroup`). -/
def World.bits (w : World) (i : Nat) (s : Spec) : Prop :=
  ∃ id g, s.pond = some id ∧ (w.table i).ags[id]? = some g ∧ g.kind = GKind.binary

/-- A table or a view of a table (of a view ...): no filter is involved. -/
def HGrid.unfiltered : HGrid → Prop
  | .table _ => True
  | .view src _ _ _ _ => src.unfiltered
  | .filt _ _ _ _ => False

end Golearn
