import Verif.Model.Group

/-! # Several goroutines that fill one table

`DenseInstances.Set` and `Get` take no lock, base/dense.go:430-439, and `Extend`, which holds one, replaces the storage of every group,
base/dense.go:392-418. Here the goroutines share one group of attributes, and every access to the shared slice and to one byte of the
storage is a step of its own. The steps happen one after the other: the reordering of accesses is not modelled. `copy` may write its bytes
one at a time, since Go promises no more. The field `maxRow` of a group, which is written but never read, is left out. -/

namespace Golearn

/-- What a goroutine does with one group: `Set`, `Get`, whose bytes it then reads, or `Extend`, by a number of bytes. -/
inductive CellOp where
  | set (col row : Nat) (v : Bytes)
  | get (col row : Nat)
  | extend (add : Nat)
deriving DecidableEq

/-- How far a call has come. `a` is the number of the array that the call found in `alloc`. -/
inductive CellPc where
  /-- no call -/
  | idle
  /-- before the next byte is copied, base/fixed.go:70 -/
  | copy (a off : Nat) (rest : Bytes)
  /-- before the byte is read that has the bit `col`, base/bag.go:68-73 -/
  | load (a off col : Nat) (on : Bool)
  /-- before that byte is written, base/bag.go:68-73 -/
  | store (a off : Nat) (b : Byte)
  /-- before the next byte of a value is read, of which there are `n`, base/fixed.go:83 -/
  | view (a off n : Nat) (got : Bytes)
  /-- before the byte is read that has the bit `col`, base/bag.go:83 -/
  | test (a off col : Nat)
  /-- before `alloc` is set, base/fixed.go:99, base/bag.go:104 -/
  | swap (new : Bytes)
deriving DecidableEq

/-- A goroutine: the calls it has still to make, its call, and the values it read. -/
structure Filler where
  todo : List CellOp
  pc : CellPc
  got : List Bytes
deriving DecidableEq

/-- The arrays, and the number of the one that `alloc` is. -/
structure FillMem where
  arrays : List Bytes
  cur : Nat
deriving DecidableEq

/-- The shared storage and the goroutines. -/
structure FillSt where
  mem : FillMem
  fillers : List Filler
deriving DecidableEq

/-- The storage of the group. -/
def FillMem.alloc (m : FillMem) : Bytes := m.arrays.getD m.cur []

/-- A byte of an array is written. -/
def FillMem.put (m : FillMem) (a off : Nat) (b : Byte) : FillMem :=
  { m with arrays := m.arrays.modify a (·.set off b) }

/-- The byte with the bit of a column changed, base/bag.go:68-73. -/
def bitPut (b : Byte) (col : Nat) (on : Bool) : Byte :=
  if on then b ||| (1#8) <<< (col % 8) else b &&& ~~~ ((1#8) <<< (col % 8))

/-- What `get` says of a byte, base/bag.go:83-87. -/
def bitTest (b : Byte) (col : Nat) : Bytes := if (b &&& ((1#8) <<< (col % 8))).toNat > 0 then [1#8] else [0#8]

/-- One step of a goroutine: base/fixed.go:59-84 and :96-100, base/bag.go:63-88 and :101-105. `none` is a panic. `resize` makes and copies
the new array in one step. -/
def fillerStep (g : Group) (m : FillMem) (w : Filler) : Option (FillMem × Filler) :=
  match w.pc with
  | .idle =>
    match w.todo with
    | [] => some (m, w)
    | .set col row v :: rest =>
      let off := g.offset col row
      match g.kind with
      | .fixed size =>
        if v.length = size ∧ off + size ≤ m.alloc.length then some (m, { w with todo := rest, pc := .copy m.cur off v }) else none
      | .binary =>
        match v with
        | [] => none
        | v0 :: _ =>
          if off < m.alloc.length then some (m, { w with todo := rest, pc := .load m.cur off col (decide (v0.toNat > 0)) }) else none
    | .get col row :: rest =>
      let off := g.offset col row
      match g.kind with
      | .fixed size => if off + size ≤ m.alloc.length then some (m, { w with todo := rest, pc := .view m.cur off size [] }) else none
      | .binary => if off < m.alloc.length then some (m, { w with todo := rest, pc := .test m.cur off col }) else none
    | .extend add :: rest => some (m, { w with todo := rest, pc := .swap (m.alloc ++ List.replicate add 0#8) })
  | .copy _ _ [] => some (m, { w with pc := .idle })
  | .copy a off (b :: rest) => some (m.put a off b, { w with pc := .copy a (off + 1) rest })
  | .load a off col on => some (m, { w with pc := .store a off (bitPut ((m.arrays.getD a []).getD off 0#8) col on) })
  | .store a off b => some (m.put a off b, { w with pc := .idle })
  | .view _ _ 0 got => some (m, { w with pc := .idle, got := w.got ++ [got] })
  | .view a off (n + 1) got => some (m, { w with pc := .view a (off + 1) n (got ++ [(m.arrays.getD a []).getD off 0#8]) })
  | .test a off col => some (m, { w with pc := .idle, got := w.got ++ [bitTest ((m.arrays.getD a []).getD off 0#8) col] })
  | .swap new => some ({ arrays := m.arrays ++ [new], cur := m.arrays.length }, { w with pc := .idle })

/-- Goroutine `i` makes a step. -/
def FillSt.step (g : Group) (st : FillSt) (i : Nat) : Option FillSt :=
  match st.fillers[i]? with
  | none => some st
  | some w =>
    match fillerStep g st.mem w with
    | none => none
    | some (m, w') => some { mem := m, fillers := st.fillers.set i w' }

/-- The goroutines make steps in the order of a schedule. -/
def FillSt.runs (g : Group) : FillSt → List Nat → Option FillSt
  | st, [] => some st
  | st, i :: is =>
    match st.step g i with
    | none => none
    | some st' => st'.runs g is

/-- The goroutines are about to start on a group, each with its own calls. -/
def FillSt.start (g : Group) (progs : List (List CellOp)) : FillSt :=
  { mem := { arrays := [g.alloc], cur := 0 }, fillers := progs.map fun p => { todo := p, pc := .idle, got := [] } }

/-- The group with the storage it has now. -/
def FillSt.group (g : Group) (st : FillSt) : Group := { g with alloc := st.mem.alloc }

end Golearn
