import Verif.Model.Grid

/-!
# Row swaps, shuffling and sorting (base/dense.go:485-495, base/util_instances.go:400-439,
base/sort.go)

`srt` stands for `sort.Sort(byPosition(..))`, whose comparison is always false
(base/spec.go:24-30): it is an arbitrary function returning a permutation of its argument.
-/

namespace Golearn

/-- `ResolveAttributes`, base/util_attributes.go:44-59. -/
def Grid.resolve (srt : List Spec → List Spec) (g : Grid) (attrs : List Attr) : Res (List Spec) :=
  (g.resolveUnsorted attrs).map srt

/-- Body of the loop of `swapRows`, base/dense.go:488-493. -/
def swapCell (d : Dense) (a : Spec) (i j : Nat) : Res Dense :=
  (d.get a i).bind fun v1 =>
    (d.get a j).bind fun v2 =>
      (d.set a j v1).bind fun d1 => d1.set a i v2

/-- Loop of `swapRows`, base/dense.go:487-494. -/
def swapLoop (d : Dense) : List Spec → Nat → Nat → Res Dense
  | [], _, _ => Res.ok d
  | a :: as, i, j => (swapCell d a i j).bind fun d' => swapLoop d' as i j

/-- `swapRows`, base/dense.go:485-495. -/
def Dense.swapRows (srt : List Spec → List Spec) (d : Dense) (i j : Nat) : Res Dense :=
  ((Grid.dense d).resolve srt d.allAttributes).bind fun as => swapLoop d as i j

/-- A sequence of `swapRows`. -/
def Dense.swapAll (srt : List Spec → List Spec) : Dense → List (Nat × Nat) → Res Dense
  | d, [] => Res.ok d
  | d, p :: ps => (d.swapRows srt p.1 p.2).bind fun d' => Dense.swapAll srt d' ps

/-- `Shuffle` on `DenseInstances`, base/util_instances.go:413-420. `draw i` is the result of
`rand.Intn(i+1)` in round `i`. -/
def shuffleDense (srt : List Spec → List Spec) (draw : Nat → Nat) (d : Dense) : Res Dense :=
  d.swapAll srt ((List.range d.size.2).map fun i => (i, draw i))

/-- `LazyShuffle`, base/util_instances.go:400-409. -/
def lazyShuffle (draw : Nat → Nat) (g : Grid) : Grid :=
  Grid.viewFromRows g ((List.range g.size.2).foldl (fun m i => (m.set i (draw i)).set (draw i) i) [])

/-- `Shuffle`, base/util_instances.go:413-424. -/
def shuffle (srt : List Spec → List Spec) (draw : Nat → Nat) : Grid → Res Grid
  | .dense d => (shuffleDense srt draw d).map Grid.dense
  | g => Res.ok (lazyShuffle draw g)

/-- `SampleWithReplacement`, base/util_instances.go:431-439. `draw i` is the result of
`rand.Intn(rows)` in round `i`; `rand.Intn(0)` panics. -/
def sampleWithReplacement (draw : Nat → Nat) (g : Grid) (size : Nat) : Res Grid :=
  if 0 < size ∧ g.size.2 = 0 then Res.panic
  else Res.ok (Grid.viewFromRows g
    ((List.range size).foldl (fun m i => m.set i (draw i)) []))

/-! ## Sorting -/

/-- `sortXorOp`, base/sort.go:8-13. -/
def sortXorOp : Bytes → Res Bytes
  | [] => Res.panic
  | b :: bs => Res.ok ((b ^^^ 0x80#8) :: bs)

/-- Bytes written to the buffer for one row, base/sort.go:49-55. -/
def sortRowBytes : List Bytes → Res Bytes
  | [] => Res.ok []
  | r :: rs => (sortXorOp r).map fun x => x ++ rs.flatten

/-- State captured by the row callback of `createSortSpec`, base/sort.go:34-37. -/
structure SortBuf where
  buf : Bytes
  ds : List Bytes
  rs : List Nat
  rowSize : Nat

/-- Row callback of `createSortSpec`, base/sort.go:39-61. -/
def sortCallback (s : SortBuf) (row : List Bytes) (rowNo : Nat) : Res (SortBuf × Ctl) :=
  let rowSize := if s.rowSize = 0 then (row.map List.length).sum else s.rowSize
  (sortRowBytes row).bind fun bytes =>
    let buf := s.buf ++ bytes
    let byteBuf := buf.take rowSize ++ List.replicate (rowSize - buf.length) 0#8
    if rowNo < s.ds.length ∧ rowNo < s.rs.length then
      Res.ok (⟨buf.drop rowSize, s.ds.set rowNo byteBuf, s.rs.set rowNo rowNo, rowSize⟩, Ctl.cont)
    else Res.panic

/-- One pass of the radix sort, base/sort.go:66-83: rows are appended to 256 bins by their `i`-th
byte, then the bins are concatenated. -/
def radixPass (i : Nat) (l : List (Bytes × Nat)) : Res (List (Bytes × Nat)) :=
  if l.all fun p => i < p.1.length then
    Res.ok ((List.range 256).flatMap fun k => l.filter fun p => (p.1.getD i 0).toNat == k)
  else Res.panic

/-- All passes, base/sort.go:66-83. -/
def radixPasses : List Nat → List (Bytes × Nat) → Res (List (Bytes × Nat))
  | [], l => Res.ok l
  | i :: is, l => (radixPass i l).bind fun l' => radixPasses is l'

/-- Inner loop, base/sort.go:90-99. `fuel` bounds the iterations of the Go `for {}`; running out of
it is reported as `panic`, so every theorem whose conclusion is `ok` shows it is not exhausted. -/
def cycleLoop (rs : List Nat) (index : Nat) : Nat → Nat → List Bool → List (Nat × Nat) →
    Res (List Bool × List (Nat × Nat))
  | 0, _, _, _ => Res.panic
  | fuel + 1, j, done, acc =>
    match rs[j]? with
    | none => Res.panic
    | some x =>
      if j < done.length then
        if x ≠ index then cycleLoop rs index fuel x (done.set j true) (acc ++ [(j, x)])
        else Res.ok (done.set j true, acc)
      else Res.panic

/-- Outer loop, base/sort.go:85-100. -/
def cyclesLoop (rs : List Nat) : List Nat → List Bool → List (Nat × Nat) →
    Res (List (Nat × Nat))
  | [], _, acc => Res.ok acc
  | index :: rest, done, acc =>
    match done[index]? with
    | none => Res.panic
    | some true => cyclesLoop rs rest done acc
    | some false =>
      (cycleLoop rs index (rs.length + 1) index done acc).bind fun p => cyclesLoop rs rest p.1 p.2

/-- `createSortSpec`, base/sort.go:21-102. `order` is the row order of `MapOverRows`, whose error is
ignored. -/
def createSortSpec (g : Grid) (order : List Nat) (attrsArg : List Spec) :
    Res (List (Nat × Nat)) :=
  let rows := g.size.2
  let init : SortBuf := ⟨[], List.replicate rows [], List.replicate rows 0, 0⟩
  let mapped : Res SortBuf :=
    match g.mapOverRows attrsArg.reverse order sortCallback init with
    | .ok p => Res.ok p.1
    | .err => Res.ok init
    | .panic => Res.panic
  mapped.bind fun s =>
    (radixPasses (List.range s.rowSize) (s.ds.zip s.rs)).bind fun sorted =>
      let rs := sorted.map Prod.snd
      cyclesLoop rs (List.range rs.length) (List.replicate rows false) []

/-- The swaps that reverse the rows, base/sort.go:120-122: `i` from 0 while `i < rows-1-i`. -/
def reverseSwaps (rows : Nat) : List (Nat × Nat) :=
  (List.range (rows / 2)).map fun i => (i, rows - 1 - i)

/-- `Sort`, base/sort.go:110-128 on `DenseInstances` (anything else panics, line 125). -/
def sortDense (srt : List Spec → List Spec) (d : Dense) (descending : Bool) (attrs : List Spec) :
    Res Dense :=
  (createSortSpec (.dense d) (List.range d.maxRow) attrs).bind fun instrs =>
    (d.swapAll srt instrs).bind fun d1 =>
      if descending then d1.swapAll srt (reverseSwaps d.maxRow) else Res.ok d1

/-- Exchange two entries of `rowArr`, base/sort.go:144-148 and 152-154 (out of range panics). -/
def swapEntries (l : List Nat) (p : Nat × Nat) : Res (List Nat) :=
  match l[p.1]?, l[p.2]? with
  | some x, some y => Res.ok ((l.set p.1 y).set p.2 x)
  | _, _ => Res.panic

/-- The loops over `rowArr`, base/sort.go:143-149 and 150-156. -/
def swapEntriesAll : List Nat → List (Nat × Nat) → Res (List Nat)
  | l, [] => Res.ok l
  | l, p :: ps => (swapEntries l p).bind fun l' => swapEntriesAll l' ps

/-- `LazySort`, base/sort.go:133-168. -/
def lazySort (g : Grid) (order : List Nat) (descending : Bool) (attrs : List Spec) : Res Grid :=
  (createSortSpec g order attrs).bind fun instrs =>
    let rows := g.size.2
    (swapEntriesAll (List.range rows) instrs).bind fun arr1 =>
      (if descending then swapEntriesAll arr1 (reverseSwaps rows) else Res.ok arr1).map fun arr =>
        Grid.viewFromRows g (arr.zipIdx.foldl (fun m p => if p.2 = p.1 then m else m.set p.2 p.1) [])

end Golearn
