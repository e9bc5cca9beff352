import Verif.Model.Knn
import Mathlib.Algebra.Order.Field.Basic

/-!
# Clustering (clustering/clustering.go, clustering/dbscan.go, base/conversion.go)

`big.Int` values are natural numbers (only bits are set, so they are never negative). Numbers are elements of an ordered field `K`;
rounding, infinities and NaN are not modelled. `mat.NewDense` of gonum panics if a dimension is zero.
-/

namespace Golearn

/-! ## Bits -/

/-- `big.Int.SetBit(x, i, 1)`. -/
def setBit (n i : Nat) : Nat := n ||| 2 ^ i

/-- `big.Int.Bytes()`: the absolute value in base 256, most significant byte first, without leading zeros. The first argument bounds the
number of digits. -/
def bigBytes : Nat → Nat → List Nat
  | 0, _ => []
  | fuel + 1, n => if n = 0 then [] else bigBytes fuel (n / 256) ++ [n % 256]

/-- `bitCounts`, clustering/dbscan.go:154-188. -/
def bitCounts : List Nat := [
  0, 1, 1, 2, 1, 2, 2, 3, 1, 2, 2, 3, 2, 3, 3, 4, 1, 2, 2, 3, 2, 3, 3, 4, 2, 3, 3, 4, 3, 4, 4, 5,
  1, 2, 2, 3, 2, 3, 3, 4, 2, 3, 3, 4, 3, 4, 4, 5, 2, 3, 3, 4, 3, 4, 4, 5, 3, 4, 4, 5, 4, 5, 5, 6,
  1, 2, 2, 3, 2, 3, 3, 4, 2, 3, 3, 4, 3, 4, 4, 5, 2, 3, 3, 4, 3, 4, 4, 5, 3, 4, 4, 5, 4, 5, 5, 6,
  2, 3, 3, 4, 3, 4, 4, 5, 3, 4, 4, 5, 4, 5, 5, 6, 3, 4, 4, 5, 4, 5, 5, 6, 4, 5, 5, 6, 5, 6, 6, 7,
  1, 2, 2, 3, 2, 3, 3, 4, 2, 3, 3, 4, 3, 4, 4, 5, 2, 3, 3, 4, 3, 4, 4, 5, 3, 4, 4, 5, 4, 5, 5, 6,
  2, 3, 3, 4, 3, 4, 4, 5, 3, 4, 4, 5, 4, 5, 5, 6, 3, 4, 4, 5, 4, 5, 5, 6, 4, 5, 5, 6, 5, 6, 6, 7,
  2, 3, 3, 4, 3, 4, 4, 5, 3, 4, 4, 5, 4, 5, 5, 6, 3, 4, 4, 5, 4, 5, 5, 6, 4, 5, 5, 6, 5, 6, 6, 7,
  3, 4, 4, 5, 4, 5, 5, 6, 4, 5, 5, 6, 5, 6, 6, 7, 4, 5, 5, 6, 5, 6, 6, 7, 5, 6, 6, 7, 6, 7, 7, 8]

/-- `BitCount`, clustering/dbscan.go:145-151. -/
def bitCount (n : Nat) : Nat := (bigBytes n n).foldl (fun count b => count + bitCounts.getD b 0) 0

/-! ## DBSCAN -/

/-- `regionQuery`, clustering/dbscan.go:25-34. `near p i` is `dist.At(p, i) <= eps`. -/
def regionQuery (rows : Nat) (near : Nat → Nat → Bool) (p ret : Nat) : Nat :=
  (List.range rows).foldl (fun ret i => if near p i then setBit ret i else ret) ret

/-- The variables of the loop in `expandCluster`: neighbours, visited, clustered, and the list of the cluster. -/
structure Expand where
  nb : Nat
  visited : Nat
  clustered : Nat
  mem : List Nat
  deriving DecidableEq, Repr

/-- The loop of `expandCluster`, clustering/dbscan.go:84-109. After `i = 0` the loop header makes `i` one. `none` if the fuel runs out, which
does not happen (`C73_terminates`). -/
def expandLoop (rows : Nat) (near : Nat → Nat → Bool) (minCount : Int) : Nat → Nat → Expand → Option Expand
  | 0, _, _ => none
  | fuel + 1, i, s =>
    if i < rows then
      if s.nb.testBit i = false then expandLoop rows near minCount fuel (i + 1) s
      else if s.visited.testBit i then expandLoop rows near minCount fuel (i + 1) s
      else
        let nn := regionQuery rows near i 0
        let reset := decide ((bitCount nn : Int) ≥ minCount)
        let s1 : Expand := ⟨if reset then s.nb ||| nn else s.nb, setBit s.visited i, s.clustered, s.mem⟩
        let s2 : Expand := if s1.clustered.testBit i = false then { s1 with mem := s1.mem ++ [i], clustered := setBit s1.clustered i } else s1
        expandLoop rows near minCount fuel (if reset then 1 else i + 1) s2
    else some s

/-- The variables of `DBSCAN`: visited, clustered, the clusters and the cluster count. -/
structure Dbscan where
  visited : Nat
  clustered : Nat
  clusters : GoMap Nat (List Nat)
  count : Nat
  deriving DecidableEq, Repr

/-- `expandCluster`, clustering/dbscan.go:72-110, for a new cluster number. -/
def expandCluster (rows : Nat) (near : Nat → Nat → Bool) (minCount : Int) (p nb : Nat) (s : Dbscan) : Res Dbscan :=
  if s.clustered.testBit p then Res.panic
  else
    match expandLoop rows near minCount ((rows + 1) * (rows + 1)) 0
        ⟨nb, setBit s.visited p, setBit s.clustered p, (s.clusters.get? s.count).getD [] ++ [p]⟩ with
    | some e => Res.ok { s with visited := e.visited, clustered := e.clustered, clusters := s.clusters.set s.count e.mem }
    | none => Res.err

/-- One turn of the main loop, clustering/dbscan.go:114-126. -/
def dbscanStep (rows : Nat) (near : Nat → Nat → Bool) (minCount : Int) (s : Dbscan) (i : Nat) : Res Dbscan :=
  if s.visited.testBit i then Res.ok s
  else
    let nb := regionQuery rows near i 0
    let s := { s with visited := setBit s.visited i }
    if (bitCount nb : Int) < minCount then Res.ok { s with clustered := s.clustered ||| nb }
    else expandCluster rows near minCount i nb { s with count := s.count + 1 }

/-- The main loop, clustering/dbscan.go:113-127, over the given points. -/
def dbscanLoop (rows : Nat) (near : Nat → Nat → Bool) (minCount : Int) : List Nat → Dbscan → Res Dbscan
  | [], s => Res.ok s
  | i :: is, s => (dbscanStep rows near minCount s i).bind fun s => dbscanLoop rows near minCount is s

/-- `DBSCAN` from the distances on, clustering/dbscan.go:66-141: the clusters with fewer than `minCount` points are removed. -/
def dbscanNear (rows : Nat) (near : Nat → Nat → Bool) (minCount : Int) : Res (GoMap Nat (List Nat)) :=
  (dbscanLoop rows near minCount (List.range rows) ⟨0, 0, [], 0⟩).map fun s =>
    s.clusters.filter fun p => decide ((p.2.length : Int) ≥ minCount)

/-! ## Cluster maps -/

/-- `ClusterMap`, clustering/clustering.go:25. -/
abbrev ClusterMap := GoMap Int (List Int)

/-- The inner loop of `Invert`, clustering/clustering.go:32-38. -/
def invertPoints (c : Int) : List Int → GoMap Int Int → Res (GoMap Int Int)
  | [], ret => Res.ok ret
  | p :: ps, ret => if (ret.get? p).isSome then Res.err else invertPoints c ps (ret.set p c)

/-- The outer loop of `Invert`, clustering/clustering.go:31-39, over the clusters in the given order. -/
def invertLoop (m : ClusterMap) : List Int → GoMap Int Int → Res (GoMap Int Int)
  | [], ret => Res.ok ret
  | c :: cs, ret => (invertPoints c ((m.get? c).getD []) ret).bind fun ret => invertLoop m cs ret

/-- `Invert`, clustering/clustering.go:29-41. `ord` is the order of iteration over the map. -/
def ClusterMap.invert (ord : List Int → List Int) (m : ClusterMap) : Res (GoMap Int Int) :=
  invertLoop m (ord (m.map Prod.fst)) []

/-- The loop over the points in `Equals`, clustering/clustering.go:62-78: which cluster of the first map belongs to a cluster of the other. -/
def matchLoop (refInv otherInv : GoMap Int Int) : List Int → GoMap Int Int → Res (GoMap Int Int)
  | [], ids => Res.ok ids
  | p :: ps, ids =>
    let c1 := (refInv.get? p).getD 0
    match otherInv.get? p with
    | none => Res.err
    | some c2 =>
      match ids.get? c2 with
      | some c3 => if c1 = c3 then matchLoop refInv otherInv ps ids else Res.err
      | none => matchLoop refInv otherInv ps (ids.set c2 c1)

/-- `arraysEqual`, clustering/clustering.go:81-96. -/
def arraysEqual (a1 a2 : List Int) : Bool := a2.all fun a => decide (a ∈ a1)

/-- `Equals`, clustering/clustering.go:45-108: true, or an error. `ord` gives the orders of iteration over the maps. -/
def ClusterMap.equals (ord : List Int → List Int) (ref other : ClusterMap) : Res Bool :=
  if ref.length ≠ other.length then Res.err
  else
    (ref.invert ord).bind fun refInv =>
      (other.invert ord).bind fun otherInv =>
        (matchLoop refInv otherInv (ord (refInv.map Prod.fst)) []).bind fun ids =>
          if (ord (other.map Prod.fst)).all fun c => arraysEqual ((ref.get? ((ids.get? c).getD 0)).getD []) ((other.get? c).getD []) then
            Res.ok true
          else Res.err

variable {K : Type}

/-- `ConvertAllRowsToMat64`, base/conversion.go:46-70; `srt` is the sort at the end of `ResolveAttributes`. -/
def allRows (srt : List Spec → List Spec) (val : U64 → K) (g : Grid) (attrs : List Attr) : Res (List (List K)) :=
  if attrs.all Attr.isFloat then
    (g.resolve srt attrs).bind fun specs =>
      mapRes (fun r => if attrs = [] then Res.panic else (mapRes (fun s => g.get s r) specs).bind (readRow val)) (List.range g.size.2)
  else Res.err

/-- `ConvertRowToMat64`, base/conversion.go:23-44: the numbers of one row. `mat.NewDense` panics without attributes. -/
def rowMat (srt : List Spec → List Spec) (val : U64 → K) (g : Grid) (attrs : List Attr) (r : Nat) : Res (List K) :=
  if attrs.all Attr.isFloat then
    if attrs = [] then Res.panic
    else (g.resolve srt attrs).bind fun specs => (mapRes (fun s => g.get s r) specs).bind (readRow val)
  else Res.err

/-- The matrix of `computePairwiseDistances`, clustering/dbscan.go:44-53: zero on the diagonal, one distance per pair elsewhere. -/
def pairDist [Zero K] (metric : List K → List K → K) (m : List (List K)) (i j : Nat) : K :=
  if i < j then metric (m.getD i []) (m.getD j [])
  else if j < i then metric (m.getD j []) (m.getD i [])
  else 0

/-- `DBSCAN`, clustering/dbscan.go:58-142. -/
def dbscan [Zero K] [LE K] [DecidableLE K] (srt : List Spec → List Spec) (val : U64 → K) (metric : List K → List K → K) (g : Grid)
    (attrs : List Attr) (eps : K) (minCount : Int) : Res (GoMap Nat (List Nat)) :=
  (allRows srt val g attrs).bind fun m =>
    if g.size.2 = 0 then Res.panic
    else dbscanNear g.size.2 (fun i j => decide (pairDist metric m i j ≤ eps)) minCount

end Golearn
