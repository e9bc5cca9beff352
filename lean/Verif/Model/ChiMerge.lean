import Verif.Model.Discretise
import Verif.Model.Sort

/-!
# ChiMerge (filters/chimerge.go, filters/chimerge_funcs.go, filters/disc.go)

Numbers are elements of an ordered field `K`; rounding, infinities and NaN are not modelled. `chiSquaredPercentile` (numeric
integration, filters/chimerge_funcs.go:44-85) together with the comparison against the significance level is a parameter
`below degrees x`: whether the percentile of `x` is below the level. Go maps are ranged over in the order of their keys here; the sums
do not depend on it (`C63_statistic`).
-/

namespace Golearn

variable {K : Type}

/-- `FrequencyTableEntry`, filters/chimerge_freq.go:8-11. -/
structure FreqEntry (K : Type) where
  value : K
  freq : GoMap String Nat
  deriving DecidableEq, Repr

/-- The search of the table for one row, filters/chimerge_funcs.go:21-38. -/
def freqAdd [DecidableEq K] (t : List (FreqEntry K)) (v : K) (c : String) : List (FreqEntry K) :=
  if t.any (fun e => decide (e.value = v)) then
    t.map fun e => if e.value = v then ⟨e.value, incr e.freq c⟩ else e
  else t ++ [⟨v, GoMap.set [] c 1⟩]

/-- `ChiMBuildFrequencyTable`, filters/chimerge_funcs.go:8-42. The error of `MapOverRows` is dropped; the row order is `order`. -/
def buildFreq [DecidableEq K] (fo : FloatOps) (val : U64 → K) (g : Grid) (order : List Nat) (a : Attr) : Res (List (FreqEntry K)) :=
  (g.getAttribute a).orPanic.bind fun s =>
    match g.mapOverRows [s] order (fun (t : List (FreqEntry K)) row r =>
        match row with
        | b :: _ => (unpackFloatBits b).bind fun u => (getClass fo g r).map fun c => (freqAdd t (val u) c, Ctl.cont)
        | [] => Res.panic) [] with
    | .ok (t, _) => Res.ok t
    | .err => Res.ok []
    | .panic => Res.panic

/-- `m[k] += n` for the pairs of a map, filters/chimerge_funcs.go:87-95, 101-106 and 163-168. -/
def addCounts (m : GoMap String Nat) (f : GoMap String Nat) : GoMap String Nat :=
  f.foldl (fun m p => m.set p.1 ((m.get? p.1).getD 0 + p.2)) m

/-- `chiCountClasses`, filters/chimerge_funcs.go:87-95. -/
def chiClasses (t : List (FreqEntry K)) : GoMap String Nat := t.foldl (fun m e => addCounts m e.freq) []

/-- The sum of the counts of a map, filters/chimerge_funcs.go:109-116. -/
def freqTotal (f : GoMap String Nat) : Nat := f.foldl (fun n p => n + p.2) 0

/-- One term of the statistic, filters/chimerge_funcs.go:136-143, 126-130 and 134-143 (144-153 for the second entry). -/
def chiTerm [Field K] [LinearOrder K] (observed classTotal entryTotal total : Nat) : K :=
  let e : K := (classTotal : K) * entryTotal / total
  let d : K := if e < 1 / 2 then 1 / 2 else e
  ((observed : K) - e) ^ 2 / d

/-- `chiComputeStatistic`, filters/chimerge_funcs.go:97-157. -/
def chiStatistic [Field K] [LinearOrder K] (f1 f2 : GoMap String Nat) : K :=
  let counter := addCounts (addCounts [] f1) f2
  let n1 := freqTotal f1
  let n2 := freqTotal f2
  let s1 := counter.foldl (fun s p => s + chiTerm ((f1.get? p.1).getD 0) p.2 n1 (n1 + n2)) (0 : K)
  counter.foldl (fun s p => s + chiTerm ((f2.get? p.1).getD 0) p.2 n2 (n1 + n2)) s1

/-- The merged entry, filters/chimerge_funcs.go:160-173. -/
def mergeEntries (a b : FreqEntry K) : FreqEntry K := ⟨a.value, addCounts (addCounts [] a.freq) b.freq⟩

/-- `chiMergeMergeZipAdjacent`, filters/chimerge_funcs.go:159-186: entries `i` and `i + 1` are replaced by one. -/
def mergeAdjacent (t : List (FreqEntry K)) (i : Nat) : Res (List (FreqEntry K)) :=
  match t[i]?, t[i + 1]? with
  | some a, some b => Res.ok (t.take i ++ mergeEntries a b :: t.drop (i + 2))
  | _, _ => Res.panic

/-- The loop at filters/chimerge.go:75-87 over the statistics of the neighbours: the least value and the positions where it occurs. -/
def minChi [LT K] [DecidableLT K] [DecidableEq K] : List K → Nat → Option K × List Nat → Option K × List Nat
  | [], _, s => s
  | x :: xs, i, (m, idx) =>
    let lower : Bool := match m with | none => true | some y => decide (x < y)
    let m' := if lower then some x else m
    let idx' := if lower then [] else idx
    minChi xs (i + 1) (m', if m' = some x then idx' ++ [i] else idx')

/-- The statistics of all pairs of neighbours, filters/chimerge.go:78-79. -/
def neighbourChi [Field K] [LinearOrder K] : List (FreqEntry K) → List K
  | a :: b :: rest => chiStatistic a.freq b.freq :: neighbourChi (b :: rest)
  | _ => []

/-- The merges at filters/chimerge.go:109-111: position `v` is moved down by the number of merges before it. -/
def mergeAt : List Nat → Nat → List (FreqEntry K) → Res (List (FreqEntry K))
  | [], _, t => Res.ok t
  | v :: vs, i, t => (mergeAdjacent t (v - i)).bind fun t => mergeAt vs (i + 1) t

/-- The main loop, filters/chimerge.go:71-112. Every turn that does not stop the loop shortens the table, so a fuel of the length of the
table is enough. -/
def chiLoop [Field K] [LinearOrder K] (below : K → Bool) (minrows maxrows : Nat) : Nat → List (FreqEntry K) → Res (List (FreqEntry K))
  | 0, t => Res.ok t
  | fuel + 1, t =>
    if t.length ≤ minrows then Res.ok t
    else
      let s := minChi (neighbourChi t) 0 (none, [])
      let merge := decide (t.length > maxrows) || (match s.1 with | none => false | some x => below x)
      if merge then (mergeAt s.2 0 t).bind fun t => chiLoop below minrows maxrows fuel t
      else Res.ok t

/-- `chiMerge` from the frequency table on, filters/chimerge.go:51-56 and 67-113. The numbers of rows are integers in Go. -/
def chiMergeTable [Field K] [LinearOrder K] (below : Nat → K → Bool) (minrows maxrows : Int) (t : List (FreqEntry K)) :
    Res (List (FreqEntry K)) :=
  let mn : Int := if 2 ≤ minrows then minrows else 2
  let mx : Int := if mn < maxrows then maxrows else mn + 1
  chiLoop (below ((chiClasses t).length - 1)) mn.toNat mx.toNat t.length t

/-- `chiMerge`, filters/chimerge.go:48-114; a significance of zero is replaced by ten before (part of `below`). -/
def chiMerge [Field K] [LinearOrder K] (fo : FloatOps) (val : U64 → K) (below : Nat → K → Bool) (minrows maxrows : Int)
    (g : Grid) (order : List Nat) (a : Attr) : Res (List (FreqEntry K)) :=
  if a.isFloat then (buildFreq fo val g order a).bind fun t => chiMergeTable below minrows maxrows t else Res.panic

/-- The loop of `ChiMergeFilter.Train`, filters/chimerge.go:119-140. The attributes are the chosen ones, so none is skipped. -/
def chiTrainLoop [Field K] [LinearOrder K] (fo : FloatOps) (val : U64 → K) (below : Nat → K → Bool) (minrows maxrows : Int)
    (g : Grid) (order : List Nat) : List Spec → GoMap Attr (List (FreqEntry K)) → Res (GoMap Attr (List (FreqEntry K)))
  | [], m => Res.ok m
  | s :: ss, m =>
    (lazySort g order false [s]).orPanic.bind fun sorted =>
      (chiMerge fo val below minrows maxrows sorted order s.attr).bind fun t =>
        chiTrainLoop fo val below minrows maxrows g order ss (m.set s.attr t)

/-- `ChiMergeFilter.Train`, filters/chimerge.go:116-143; `chosen` is the order of the map of attributes. -/
def chiTrain [Field K] [LinearOrder K] (fo : FloatOps) (val : U64 → K) (below : Nat → K → Bool) (minrows maxrows : Int)
    (g : Grid) (order : List Nat) (chosen : List Attr) : Res (GoMap Attr (List (FreqEntry K))) :=
  (discSpecs g chosen).bind fun specs => chiTrainLoop fo val below minrows maxrows g order specs []

/-- The search of `Transform`, filters/chimerge.go:173-181: the last position before the first value not below `v`. -/
def chiIndex [LT K] [DecidableLT K] (v : K) : List K → Nat → Nat → Nat
  | [], _, dis => dis
  | k :: ks, j, dis => if k < v then chiIndex v ks (j + 1) j else dis

/-- `ChiMergeFilter.Transform`, filters/chimerge.go:166-184. -/
def chiTransform [LT K] [DecidableLT K] (val : U64 → K) (chosen : List Attr) (m : GoMap Attr (List (FreqEntry K)))
    (a : Attr) (_ : Attr) (raw : Bytes) : Res Bytes :=
  if a ∈ chosen then
    (unpackFloatBits raw).map fun u => packU64 (BitVec.ofNat 64 (chiIndex (val u) (((m.get? a).getD []).map FreqEntry.value) 0 0))
  else Res.ok raw

/-- The labels of a chosen column, filters/chimerge.go:154-156; `fmt` is `%f`. -/
def chiLabels (fmt : K → String) (m : GoMap Attr (List (FreqEntry K))) (a : Attr) : List String :=
  addLabels [] (((m.get? a).getD []).map fun e => fmt e.value)

/-- The trained filter: `GetAttributesAfterFiltering`, filters/chimerge.go:147-163, and `Transform`. -/
def chiFilter [LT K] [DecidableLT K] (val : U64 → K) (fmt : K → String) (all chosen : List Attr) (fresh : Nat → Nat)
    (m : GoMap Attr (List (FreqEntry K))) : Filter :=
  ⟨discAttrs all chosen (chiLabels fmt m) fresh, chiTransform val chosen m⟩

end Golearn
