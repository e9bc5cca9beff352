import Verif.Model.Attr

/-!
# Attribute groups (base/fixed.go, base/bag.go)
-/

namespace Golearn

/-- Which implementation a group is: `FixedAttributeGroup` with its `size` field
(base/fixed.go:10-16) or `BinaryAttributeGroup` (base/bag.go:10-16). -/
inductive GKind where
  | fixed (size : Nat)
  | binary
  deriving DecidableEq, Repr

/-- An attribute group. The `parent` pointer and the `maxRow` field (written, never read) of
base/fixed.go:10-16 and base/bag.go:10-16 are omitted. -/
structure Group where
  kind : GKind
  attrs : List Attr
  alloc : Bytes
  deriving DecidableEq, Repr

namespace Group

/-- `RowSizeInBytes`: base/fixed.go:24-26 and base/bag.go:25-27. -/
def rowSize (g : Group) : Nat :=
  match g.kind with
  | .fixed size => g.attrs.length * size
  | .binary => (g.attrs.length + 7) / 8

/-- `AddAttribute`: base/fixed.go:39-42, base/bag.go:39-42. -/
def addAttr (g : Group) (a : Attr) : Group := { g with attrs := g.attrs ++ [a] }

/-- `offset` (base/fixed.go:55-57) and `getByteOffset` (base/bag.go:59-61). -/
def offset (g : Group) (col row : Nat) : Nat :=
  match g.kind with
  | .fixed size => row * g.rowSize + col * size
  | .binary => row * g.rowSize + col / 8

/-- `copy(alloc[off:], v)` when `off ≤ len(alloc)`. -/
def splice (alloc : Bytes) (off : Nat) (v : Bytes) : Bytes :=
  alloc.take off ++ v.take (alloc.length - off) ++ alloc.drop (off + v.length)

/-- `set`: base/fixed.go:59-79 and base/bag.go:63-79.
Fixed: panics on a wrong length, on a start beyond the storage (slice bounds) or on a short copy.
Binary: `val[0]` panics when empty, `alloc[offset]` when out of range. The bit is `col % 8`. -/
def set (g : Group) (col row : Nat) (v : Bytes) : Res Group :=
  match g.kind with
  | .fixed size =>
    if v.length ≠ size then Res.panic
    else
      let off := g.offset col row
      if off > g.alloc.length then Res.panic
      else
        let copied := min (g.alloc.length - off) v.length
        if copied ≠ size then Res.panic
        else Res.ok { g with alloc := splice g.alloc off v }
  | .binary =>
    match v with
    | [] => Res.panic
    | v0 :: _ =>
      match g.alloc[g.offset col row]? with
      | none => Res.panic
      | some b =>
        let bit : Byte := (1#8) <<< (col % 8)
        let b' := if v0.toNat > 0 then b ||| bit else b &&& (~~~ bit)
        Res.ok { g with alloc := g.alloc.set (g.offset col row) b' }

/-- `get`: base/fixed.go:81-84 and base/bag.go:81-88. The fixed version returns a slice of the
storage; the model returns its current contents. -/
def get (g : Group) (col row : Nat) : Res Bytes :=
  match g.kind with
  | .fixed size =>
    let off := g.offset col row
    if off + size > g.alloc.length then Res.panic
    else Res.ok ((g.alloc.drop off).take size)
  | .binary =>
    match g.alloc[g.offset col row]? with
    | none => Res.panic
    | some b => if (b &&& ((1#8) <<< (col % 8))).toNat > 0 then Res.ok [1#8] else Res.ok [0#8]

/-- `resize`: base/fixed.go:96-100, base/bag.go:101-105. -/
def resize (g : Group) (add : Nat) : Group :=
  { g with alloc := g.alloc ++ List.replicate add 0#8 }

end Group

end Golearn
