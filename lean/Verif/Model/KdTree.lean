import Verif.Model.Core
import Mathlib.Order.Defs.LinearOrder
import Mathlib.Algebra.Notation.Defs
import Mathlib.Order.Basic

/-!
# The k-d tree (kdtree/heap.go, kdtree/kdtree.go)

Values and distances are elements of a linear order `R` with a zero: NaN is excluded and nothing is
rounded.
-/

namespace Golearn

variable {R : Type} [LinearOrder R] [Zero R]

/-- `heapNode`, kdtree/heap.go:3-7. -/
structure HNode (R : Type) where
  value : List R
  len : R
  row : Nat
deriving DecidableEq

/-- `heap.tree`, kdtree/heap.go:9-11. -/
abbrev Heap (R : Type) := List (HNode R)

/-- `h.tree[i].length`. -/
def Heap.ln (t : Heap R) (i : Nat) : R := ((t[i]?).map HNode.len).getD 0

/-- `h.tree[i], h.tree[j] = h.tree[j], h.tree[i]`. -/
def Heap.swap (t : Heap R) (i j : Nat) : Heap R :=
  match t[i]?, t[j]? with
  | some x, some y => (t.set i y).set j x
  | _, _ => t

/-- `maximum`, kdtree/heap.go:21-27: the zero node when empty. -/
def Heap.maximum (t : Heap R) : HNode R :=
  match t with
  | [] => ⟨[], 0, 0⟩
  | n :: _ => n

/-- The loop of `insert`, kdtree/heap.go:71-78; `target` is one more than the index. It halves in every
round, so `fuel` at least `target` is never used up. -/
def Heap.siftUp : Nat → Heap R → Nat → Heap R
  | 0, t, _ => t
  | fuel + 1, t, target =>
    if target ≤ 1 then t
    else if t.ln (target / 2 - 1) ≥ t.ln (target - 1) then t
    else Heap.siftUp fuel (t.swap (target - 1) (target / 2 - 1)) (target / 2)

/-- `insert`, kdtree/heap.go:63-79. -/
def Heap.insert (t : Heap R) (value : List R) (len : R) (row : Nat) : Heap R :=
  Heap.siftUp (t.length + 1) (t ++ [⟨value, len, row⟩]) (t.length + 1)

/-- The larger child or the node itself, kdtree/heap.go:40-52. -/
def Heap.largest (t : Heap R) (target : Nat) : Nat :=
  let l := if t.ln (target * 2 - 1) > t.ln (target - 1) then target * 2 else target
  if target * 2 < t.length then
    if t.ln (target * 2) > t.ln (l - 1) then target * 2 + 1 else l
  else l

/-- The loop of `extractMax`, kdtree/heap.go:39-59. `target` at least doubles in every round, so `fuel`
at least the length is never used up. -/
def Heap.siftDown : Nat → Heap R → Nat → Heap R
  | 0, t, _ => t
  | fuel + 1, t, target =>
    if target * 2 - 1 ≥ t.length then t
    else
      let l := t.largest target
      if l = target then t else Heap.siftDown fuel (t.swap (l - 1) (target - 1)) l

/-- `extractMax`, kdtree/heap.go:30-60. -/
def Heap.extractMax (t : Heap R) : Heap R :=
  match t.getLast? with
  | none => t
  | some x => Heap.siftDown t.length ((t.set 0 x).dropLast) 1

/-! ## The tree -/

/-- `node`, kdtree/kdtree.go:10-16: `leaf` is feature -1, `nil` is feature -2. -/
inductive KNode (R : Type) where
  | leaf (value : List R) (row : Nat)
  | nil
  | split (feature : Nat) (value : List R) (row : Nat) (left right : KNode R)
deriving DecidableEq

/-- `t.data[i][f]`, zero when out of range: `Build` has checked that all rows have the same length. -/
def coord (v : List R) (f : Nat) : R := (v[f]?).getD 0

/-- Loop finding `divPoint`, kdtree/kdtree.go:79-86: how many of the following rows have the value `x`. -/
def runLength (data : List (List R)) (f : Nat) (x : R) : List Nat → Nat
  | [] => 0
  | i :: is => if coord (data.getD i []) f = x then runLength data f x is + 1 else 0

/-- `buildHandle`, kdtree/kdtree.go:72-112. `srt f l` is `sort.Sort` by feature `f`. In-place sorting of
subslices only permutes rows that belong to the same subtree. `m` is the number of features. -/
def buildHandle (data : List (List R)) (m : Nat) (srt : Nat → List Nat → List Nat) : Nat → List Nat → Nat → KNode R
  | 0, _, _ => .nil
  | fuel + 1, rows, f =>
    let d := srt f rows
    let middle := d.length / 2
    let div := middle + runLength data f (coord (data.getD (d.getD middle 0) []) f) (d.drop (middle + 1))
    let left :=
      if div = 1 then KNode.leaf (data.getD (d.getD 0 0) []) (d.getD 0 0)
      else buildHandle data m srt fuel (d.take div) ((f + 1) % m)
    let right :=
      if div + 2 = d.length then KNode.leaf (data.getD (d.getD (div + 1) 0) []) (d.getD (div + 1) 0)
      else if div + 1 ≠ d.length then buildHandle data m srt fuel (d.drop (div + 1)) ((f + 1) % m)
      else KNode.nil
    .split f (data.getD (d.getD div 0) []) (d.getD div 0) left right

/-- `Build`, kdtree/kdtree.go:42-69. Without features and with two rows or more, reading feature 0
panics. -/
def kdBuild (srt : Nat → List Nat → List Nat) (data : List (List R)) : Res (KNode R) :=
  match data with
  | [] => Res.err
  | r :: rs =>
    if rs.all fun v => v.length == r.length then
      if rs.isEmpty then Res.ok (.leaf r 0)
      else if r.length = 0 then Res.panic
      else Res.ok (buildHandle data r.length srt data.length (List.range data.length) 0)
    else Res.err

/-! ## The search -/

/-- The values of a node as a matrix of `m` rows: `mat.NewDense(m, 1, nil)` is zero. -/
def KNode.point (m : Nat) : KNode R → List R
  | .leaf v _ => v
  | .nil => List.replicate m 0
  | .split _ v _ _ _ => v

/-- `n.value`: no values in a `nil` node. -/
def KNode.value : KNode R → List R
  | .leaf v _ => v
  | .nil => []
  | .split _ v _ _ _ => v

/-- `n.srcRowNo`: zero in a `nil` node. -/
def KNode.row : KNode R → Nat
  | .leaf _ r => r
  | .nil => 0
  | .split _ _ r _ _ => r

/-- Offer a point to the heap, kdtree/kdtree.go:199-204. -/
def offer (k : Nat) (h : Heap R) (value : List R) (len : R) (row : Nat) : Heap R :=
  if k > h.length then h.insert value len row
  else if h.maximum.len > len then h.extractMax.insert value len row
  else h

/-- `searchAllNodes`, kdtree/kdtree.go:194-212. It is also called on `nil` nodes, which have no
children. -/
def searchAllNodes (k : Nat) (dist : List R → List R → R) (target : List R) (h : Heap R) : KNode R → Heap R
  | .split f v r left right =>
    searchAllNodes k dist target
      (searchAllNodes k dist target (offer k h v (dist target v) r) left) right
  | n => offer k h n.value (dist target (n.point target.length)) n.row

/-- `searchHandle`, kdtree/kdtree.go:141-192. -/
def searchHandle (k : Nat) (dist : List R → List R → R) (target : List R) (h : Heap R) : KNode R → Heap R
  | .leaf v r => h.insert v (dist target v) r
  | .nil => h
  | .split f v r left right =>
    let dir := decide (coord target f ≤ coord v f)
    let h1 := if dir then searchHandle k dist target h left else searchHandle k dist target h right
    let other := if dir then right else left
    let len := dist target v
    if k > h1.length then searchAllNodes k dist target (h1.insert v len r) other
    else if h1.maximum.len > len then searchAllNodes k dist target (h1.extractMax.insert v len r) other
    else if h1.maximum.len > dist [coord target f] [coord v f] then searchAllNodes k dist target h1 other
    else h1

/-- The loop emptying the heap, kdtree/kdtree.go:130-136: the results are written from the back; a write
before the first place is an index panic. `i` is one more than the index. -/
def drainHeap : Nat → Heap R → Nat → List (Nat × R) → Res (List (Nat × R))
  | 0, _, _, out => Res.ok out
  | fuel + 1, h, i, out =>
    if h.isEmpty then Res.ok out
    else
      match i with
      | 0 => Res.panic
      | j + 1 => drainHeap fuel h.extractMax j (out.set j (h.maximum.row, h.maximum.len))

/-- `Search`, kdtree/kdtree.go:116-139. `k` is not negative (`make` panics) and there is at least one
feature (a matrix of no rows is not modelled). -/
def kdSearch (data : List (List R)) (root : KNode R) (k : Nat) (dist : List R → List R → R) (target : List R) :
    Res (List (Nat × R)) :=
  if k > data.length then Res.err
  else
    match data with
    | [] => Res.panic
    | r :: _ =>
      if target.length ≠ r.length then Res.err
      else
        let h := searchHandle k dist target [] root
        drainHeap (h.length + 1) h k (List.replicate k (0, 0))

end Golearn
