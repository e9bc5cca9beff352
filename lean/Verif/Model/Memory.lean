import Verif.Model.Copy
import Verif.Model.Sort

/-!
# Memory: which values share storage (base/dense.go, base/fixed.go, base/bag.go)

The other files treat a `[]byte` as its contents. Here a `[]byte` is what Go makes it: a window into
an array that other windows may overlap. A client may keep the values it was handed, write into
them, and use several tables and grids at once.
-/

namespace Golearn

/-- The byte arrays that exist. The address of an array is its position; arrays are never freed and
never change length. -/
abbrev Mem := List Bytes

/-- A `[]byte`: an array, the start of the window and its length. Capacity is not modelled: nothing
modelled here appends to a byte slice. -/
structure BSlice where
  buf : Nat
  off : Nat
  len : Nat
  deriving DecidableEq, Repr

namespace Mem

/-- The contents of an array. -/
def arr (m : Mem) (b : Nat) : Bytes := m.getD b []

/-- The bytes a slice shows at present. -/
def bytes (m : Mem) (v : BSlice) : Bytes := ((m.arr v.buf).drop v.off).take v.len

/-- A new array with the given contents, and the slice that spans it (`make` and composite
literals). -/
def alloc (m : Mem) (x : Bytes) : Mem × BSlice := (m ++ [x], ⟨m.length, 0, x.length⟩)

/-- `copy(v, x)`: at most `len(v)` bytes are overwritten. -/
def poke (m : Mem) (v : BSlice) (x : Bytes) : Mem :=
  m.set v.buf (Group.splice (m.arr v.buf) v.off (x.take v.len))

end Mem

/-- A `DenseInstances` (base/dense.go:12-26) whose groups hold references to arrays: `bufs` lists the
`alloc` field of each group (base/fixed.go:14, base/bag.go:14). The `alloc` fields inside `shape` are
not used. -/
structure HTable where
  shape : Dense
  bufs : List Nat
  deriving DecidableEq, Repr

namespace HTable

/-- The contents of the table at present: each group with the contents of its array. -/
def at_ (t : HTable) (m : Mem) : Dense :=
  { t.shape with
    ags := List.zipWith (fun (g : Group) b => { g with alloc := m.arr b }) t.shape.ags t.bufs }

/-- `Get`, base/dense.go:437-439. A fixed group returns a window into its own array
(base/fixed.go:81-84), a binary group a new one-byte array (base/bag.go:81-88). -/
def get (t : HTable) (m : Mem) (s : Spec) (row : Nat) : Res (Mem × BSlice) :=
  match s.pond with
  | none => Res.panic
  | some id =>
    match t.shape.ags[id]?, t.bufs[id]? with
    | some g, some b =>
      match g.kind with
      | .fixed size =>
        if g.offset s.position row + size > (m.arr b).length then Res.panic
        else Res.ok (m, ⟨b, g.offset s.position row, size⟩)
      | .binary =>
        match (m.arr b)[g.offset s.position row]? with
        | none => Res.panic
        | some x =>
          if (x &&& ((1#8) <<< (s.position % 8))).toNat > 0 then Res.ok (m.alloc [1#8])
          else Res.ok (m.alloc [0#8])
    | _, _ => Res.panic

/-- `Set`, base/dense.go:430-432: the bytes the argument shows are copied into the group's array
(base/fixed.go:59-79, base/bag.go:63-79); `copy` behaves as if it read all its input first. The
effect on the array is that of `Group.set`. -/
def set (t : HTable) (m : Mem) (s : Spec) (row : Nat) (v : BSlice) : Res Mem :=
  match s.pond with
  | none => Res.panic
  | some id =>
    match t.shape.ags[id]?, t.bufs[id]? with
    | some g, some b =>
      (({ g with alloc := m.arr b } : Group).set s.position row (m.bytes v)).map fun g' =>
        m.set b g'.alloc
    | _, _ => Res.panic

/-- Put the groups of `d` into new arrays. -/
def place (d : Dense) (m : Mem) : HTable × Mem :=
  (⟨{ d with ags := d.ags.map fun g => { g with alloc := [] } },
      List.range' m.length d.ags.length⟩, m ++ d.ags.map Group.alloc)

/-- `Extend`, base/dense.go:392-418: `resize` puts every group into a new, longer array and copies the
old contents (base/fixed.go:96-100, base/bag.go:101-105). -/
def extend (t : HTable) (m : Mem) (rows : Nat) : HTable × Mem :=
  place ((t.at_ m).extend rows) m

/-- Structural calls do not touch the arrays; a new group starts with a new empty array
(base/dense.go:120, 127). `d` is the outcome of the call. -/
def build (t : HTable) (m : Mem) (d : Dense) : HTable × Mem :=
  (⟨{ d with ags := d.ags.map fun g => { g with alloc := [] } },
      t.bufs ++ List.range' m.length (d.ags.length - t.bufs.length)⟩,
    m ++ List.replicate (d.ags.length - t.bufs.length) [])

/-- Body of the loop of `swapRows`, base/dense.go:488-493: `v3` is a copy of `v2`. -/
def swapCell (t : HTable) (m : Mem) (a : Spec) (i j : Nat) : Res Mem :=
  (t.get m a i).bind fun v1 =>
    (t.get v1.1 a j).bind fun v2 =>
      (t.set (v2.1.alloc (v2.1.bytes v2.2)).1 a j v1.2).bind fun m' =>
        t.set m' a i (v2.1.alloc (v2.1.bytes v2.2)).2

/-- Loop of `swapRows`, base/dense.go:487-494. -/
def swapLoop (t : HTable) (m : Mem) : List Spec → Nat → Nat → Res Mem
  | [], _, _ => Res.ok m
  | a :: as, i, j => (t.swapCell m a i j).bind fun m' => swapLoop t m' as i j

/-- `swapRows`, base/dense.go:485-495. Called by `Shuffle` and `Sort`. -/
def swapRows (srt : List Spec → List Spec) (t : HTable) (m : Mem) (i j : Nat) : Res Mem :=
  ((Grid.dense (t.at_ m)).resolve srt (t.at_ m).allAttributes).bind fun as => t.swapLoop m as i j

/-- Inner loop of `NewDenseCopy`, base/dense.go:91-93. -/
def setAll (t : HTable) (m : Mem) : List Spec → Nat → List BSlice → Res Mem
  | _, _, [] => Res.ok m
  | [], _, _ :: _ => Res.panic
  | s :: ss, r, v :: vs => (t.set m s r v).bind fun m' => setAll t m' ss r vs

end HTable

/-- A `FixedDataGrid` as a client holds it: a reference to a table, a view of a grid
(base/view.go:10-16) or a filtered grid (base/filtered.go:13-19). Views and filtered grids refer to
their source, they do not contain it. -/
inductive HGrid where
  | table (i : Nat)
  | view (src : HGrid) (attrs : Option (List Spec)) (rows : Option (GoMap Nat Nat))
      (classAttrs : GoMap Attr Bool) (maskRows : Bool)
  | filt (f : Filter) (src : HGrid) (classAttrs : GoMap Attr Bool) (unfiltered : GoMap Attr Bool)

/-- The `i`-th table made so far (a table without storage if there is none). -/
def tableAt (ts : List HTable) (i : Nat) : HTable := (ts[i]?).getD ⟨Dense.new, []⟩

/-- Read several slices in order. -/
def collect {α : Type} (f : Mem → α → Res (Mem × BSlice)) : Mem → List α → Res (Mem × List BSlice)
  | m, [] => Res.ok (m, [])
  | m, a :: as =>
    (f m a).bind fun p => (collect f p.1 as).bind fun q => Res.ok (q.1, p.2 :: q.2)

namespace HGrid

/-- The table at the bottom of a grid. -/
def root : HGrid → Nat
  | .table i => i
  | .view src _ _ _ _ => src.root
  | .filt _ src _ _ => src.root

/-- What the grid shows at present. -/
def at_ (ts : List HTable) (m : Mem) : HGrid → Grid
  | .table i => .dense ((tableAt ts i).at_ m)
  | .view src as rows cls mask => .view (src.at_ ts m) as rows cls mask
  | .filt f src cls unf => .filt f (src.at_ ts m) cls unf

/-- `Get`: base/dense.go:437-439, base/view.go:35-48 and 194-201, base/filtered.go:157-168. A view
hands out the slice of its source. A transformed value is a new array; a filter that returns its
argument unchanged is not distinguished from one that copies it. -/
def get (ts : List HTable) : HGrid → Mem → Spec → Nat → Res (Mem × BSlice)
  | .table i, m, s, row => (tableAt ts i).get m s row
  | .view src _ none _ _, m, s, row => src.get ts m s row
  | .view src _ (some rs) _ mask, m, s, row =>
    match rs.get? row with
    | some r => src.get ts m s r
    | none => if mask then Res.panic else src.get ts m s row
  | .filt f src _ unf, m, s, row =>
    match Grid.newToOld f (src.at_ ts m) unf s with
    | .ok old =>
      (src.get ts m old row).bind fun p =>
        if Grid.flag unf s.attr then Res.ok p
        else (f.transform old.attr s.attr (p.1.bytes p.2)).map fun x => p.1.alloc x
    | _ => Res.panic

/-- The row buffer of `MapOverRows`: base/dense.go:463-466, base/view.go:211-214,
base/filtered.go:187-193. -/
def rowVals (ts : List HTable) : HGrid → List Spec → Mem → Nat → Res (Mem × List BSlice)
  | .table i, as, m, r => collect (fun m s => (tableAt ts i).get m s r) m as
  | .view src _ rows _ mask, as, m, r =>
    if mask then
      match GoMap.get? (rows.getD []) r with
      | some r' => collect (fun m s => src.get ts m s r') m as
      | none => Res.panic
    else rowVals ts src as m r
  | .filt f src _ unf, as, m, r =>
    match mapRes (Grid.newToOld f (src.at_ ts m) unf) as with
    | .ok old =>
      (rowVals ts src old m r).bind fun q =>
        collect (fun m (p : (Spec × Spec) × BSlice) =>
          (f.transform p.1.1.attr p.1.2.attr (m.bytes p.2)).map fun x => m.alloc x)
          q.1 ((old.zip as).zip q.2)
    | .err => Res.err
    | .panic => Res.panic

/-- The loop of `NewDenseCopy`, base/dense.go:90-95: read a row, then store its values in `dst`. -/
def copyRows (ts : List HTable) (g : HGrid) (dst : HTable) (s1 s2 : List Spec) :
    Mem → List Nat → Res Mem
  | m, [] => Res.ok m
  | m, r :: rs =>
    (g.rowVals ts s1 m r).bind fun q =>
      (dst.setAll q.1 s2 r q.2).bind fun m' => copyRows ts g dst s1 s2 m' rs

/-- `NewDenseCopy`, base/dense.go:81-98, with the map orders `classes` and `order`. As in
`newDenseCopy`, an error before the first row leaves the copy zeroed. -/
def copy (pg : Nat) (ts : List HTable) (g : HGrid) (classes : List Attr) (order : List Nat) (m : Mem) :
    Res (HTable × Mem) :=
  (copyStructure pg (g.at_ ts m) classes).bind fun p =>
    let q := HTable.place (p.1.extend (g.at_ ts m).size.2) m
    match (g.at_ ts m).mapPrep p.2.1 with
    | .ok _ => (match g.copyRows ts q.1 p.2.1 p.2.2 q.2 order with
        | .ok m' => Res.ok (q.1, m')
        | .err => Res.ok q
        | .panic => Res.panic)
    | .err => Res.ok q
    | .panic => Res.panic

end HGrid

/-- A call that changes the structure of a table. -/
inductive Build where
  /-- `CreateAttributeGroup`, base/dense.go:139-154 -/
  | create (name : String) (size : Nat)
  /-- `AddAttribute`, base/dense.go:188-233 -/
  | add (a : Attr)
  /-- `AddAttributeToAttributeGroup`, base/dense.go:236-256 -/
  | addTo (a : Attr) (ag : String)
  /-- `AddClassAttribute`, base/dense.go:294-306 -/
  | addClass (a : Attr)
  /-- `RemoveClassAttribute`, base/dense.go:309-321 -/
  | removeClass (a : Attr)
  deriving DecidableEq, Repr

/-- The effect of a structural call (base/dense.go:139-321) on the contents of a table; an error
leaves it as it was. -/
def Build.apply (pg : Nat) (d : Dense) : Build → Res Dense
  | .create name size => (match d.createAttributeGroup name size with | .err => .ok d | r => r)
  | .add a => (d.addAttribute pg a).map Prod.fst
  | .addTo a ag => (match (d.addAttributeToGroup a ag).map Prod.fst with | .err => .ok d | r => r)
  | .addClass a => (match d.addClassAttribute a with | .err => .ok d | r => r)
  | .removeClass a => (match d.removeClassAttribute a with | .err => .ok d | r => r)

/-- A slice a client holds, and the table it was handed out by (`none`: the client made it). -/
structure Held where
  slice : BSlice
  source : Option Nat
  deriving DecidableEq, Repr

/-- Everything the client can reach: the arrays, the tables made so far and the slices it holds. -/
structure World where
  mem : Mem
  tables : List HTable
  held : List Held
  deriving DecidableEq, Repr

/-- One step of a client. Tables and held slices are named by the order in which they appeared. -/
inductive MOp where
  /-- `NewDenseInstances()`, base/dense.go:30-45 -/
  | new
  /-- a structural call on table `i` -/
  | build (i : Nat) (b : Build)
  /-- `Extend(n)` on table `i`, base/dense.go:392-418 -/
  | extend (i n : Nat)
  /-- the client makes a `[]byte` of its own -/
  | make (x : Bytes)
  /-- `Get(s, row)` on a grid; the client keeps the slice -/
  | get (g : HGrid) (s : Spec) (row : Nat)
  /-- `Storage()` of group `id` of table `i` (base/fixed.go:50-53); the client keeps the slice -/
  | storage (i id : Nat)
  /-- `Set(s, row, v)` on table `i`, where `v` is the `k`-th slice held, base/dense.go:430-432 -/
  | set (i : Nat) (s : Spec) (row k : Nat)
  /-- the client writes `x` into the `k`-th slice it holds -/
  | poke (k : Nat) (x : Bytes)
  /-- `swapRows(a, b)` on table `i`, as `Shuffle` and `Sort` do, base/dense.go:485-495 -/
  | swap (i a b : Nat)
  /-- `NewDenseCopy(g)`, base/dense.go:81-98 -/
  | copy (g : HGrid) (classes : List Attr) (order : List Nat)

namespace World

/-- The contents of table `i` at present. -/
def table (w : World) (i : Nat) : Dense := (tableAt w.tables i).at_ w.mem

/-- What a grid shows at present. -/
def grid (w : World) (g : HGrid) : Grid := g.at_ w.tables w.mem

/-- One step: base/dense.go:30-495 (see `MOp`). A panic ends the history; so does naming a table or
slice that does not exist. -/
def step (pg : Nat) (srt : List Spec → List Spec) (w : World) : MOp → Res World
  | .new => Res.ok { w with tables := w.tables ++ [⟨Dense.new, []⟩] }
  | .build i b =>
    match w.tables[i]? with
    | none => Res.panic
    | some t => (b.apply pg (t.at_ w.mem)).map fun d =>
        { w with mem := (t.build w.mem d).2, tables := w.tables.set i (t.build w.mem d).1 }
  | .extend i n =>
    match w.tables[i]? with
    | none => Res.panic
    | some t => Res.ok
        { w with mem := (t.extend w.mem n).2, tables := w.tables.set i (t.extend w.mem n).1 }
  | .make x =>
    Res.ok { w with mem := (w.mem.alloc x).1, held := w.held ++ [⟨(w.mem.alloc x).2, none⟩] }
  | .get g s row =>
    (g.get w.tables w.mem s row).map fun p =>
      { w with mem := p.1, held := w.held ++ [⟨p.2, some g.root⟩] }
  | .storage i id =>
    match w.tables[i]? with
    | none => Res.panic
    | some t =>
      match t.bufs[id]? with
      | none => Res.panic
      | some b => Res.ok { w with held := w.held ++ [⟨⟨b, 0, (w.mem.arr b).length⟩, some i⟩] }
  | .set i s row k =>
    match w.tables[i]?, w.held[k]? with
    | some t, some h => (t.set w.mem s row h.slice).map fun m => { w with mem := m }
    | _, _ => Res.panic
  | .poke k x =>
    match w.held[k]? with
    | none => Res.panic
    | some h => Res.ok { w with mem := w.mem.poke h.slice x }
  | .swap i a b =>
    match w.tables[i]? with
    | none => Res.panic
    | some t => (t.swapRows srt w.mem a b).map fun m => { w with mem := m }
  | .copy g classes order =>
    if g.root < w.tables.length then
      (g.copy pg w.tables classes order w.mem).map fun p =>
        { w with mem := p.2, tables := w.tables ++ [p.1] }
    else Res.panic

/-- A history from `w`. -/
def runFrom (pg : Nat) (srt : List Spec → List Spec) (w : World) (ops : List MOp) : Res World :=
  ops.foldl (fun r op => r.bind fun w => w.step pg srt op) (Res.ok w)

/-- A history from nothing. -/
def run (pg : Nat) (srt : List Spec → List Spec) (ops : List MOp) : Res World :=
  runFrom pg srt ⟨[], [], []⟩ ops

end World

end Golearn
