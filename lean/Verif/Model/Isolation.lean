import Verif.Model.Cart
import Mathlib.Analysis.SpecialFunctions.Pow.Real

/-!
# Isolation forests (trees/isolation.go)

Numbers are elements of an ordered field `K`. The rows have the same number of columns, as `preprocessData` makes them, and
drawn features are columns, so reading a column does not fail; it is `getD` here. The random numbers are arbitrary
functions of the place in the tree and of the number of the attempt. Trees are those of `Verif.Model.Cart`, with the number of
rows, a natural number here, as the label.
-/

namespace Golearn

section
variable {K : Type} [Field K] [LinearOrder K]

/-- `minMax`, trees/isolation.go:23-39. The two infinities it starts with give way to the first value; it is never called
without rows. -/
def minMax (f : Nat) : List (List K) → K × K
  | [] => (0, 0)
  | x :: xs => xs.foldl (fun m y => (if y.getD f 0 < m.1 then y.getD f 0 else m.1, if m.2 < y.getD f 0 then y.getD f 0 else m.2))
      (x.getD f 0, x.getD f 0)

/-- `selectValue`, trees/isolation.go:42-50. `u` is the draw of `rand.Float64`, `eps` is 0.000001. -/
def selectValue (eps u min max : K) : K :=
  let v := min + u * (max - min)
  if v = min then v + eps else if v = max then v - eps else v

/-- `splitData`, trees/isolation.go:53-63. -/
def splitData (v : K) (f : Nat) (data : List (List K)) : List (List K) × List (List K) :=
  data.foldl (fun acc x => if x.getD f 0 ≤ v then (acc.1 ++ [x], acc.2) else (acc.1, acc.2 ++ [x])) ([], [])

/-- `checkData`, trees/isolation.go:66-75. -/
def checkData : List (List K) → Bool
  | [] => false
  | x :: xs => (x :: xs).any fun y => (List.zipWith (fun a b => decide (a ≠ b)) y x).any id

/-- The random numbers of one node: the feature and the position of the threshold in each attempt. -/
abbrev Draws (K : Type) := Nat → Nat × K

/-- The loop `for min == max`, trees/isolation.go:92-96, from attempt `k` on; `none` if it has not ended after `tries`
attempts. -/
def drawSplit (eps : K) (draws : Draws K) (data : List (List K)) : Nat → Nat → Option (Nat × K)
  | 0, _ => none
  | tries + 1, k =>
    let f := (draws k).1
    let m := minMax f data
    if m.1 = m.2 then drawSplit eps draws data tries (k + 1) else some (f, selectValue eps (draws k).2 m.1 m.2)

/-- `buildTree`, trees/isolation.go:78-117. The first number is how many levels may still be added: `maxDepth - depth`. The path
from the root says which random numbers are used. A call that does not need its node returns a fresh one. -/
def buildTree (eps : K) (draws : List Bool → Draws K) (tries : Nat) :
    Nat → List Bool → List (List K) → Option (CNode K Nat)
  | 0, _, _ => some CNode.empty
  | levels + 1, path, data =>
    if data.length ≤ 1 ∨ checkData data = false then some CNode.empty
    else
      (drawSplit eps (draws path) data tries 0).bind fun s =>
        let p := splitData s.2 s.1 data
        (buildTree eps draws tries levels (path ++ [false]) p.1).bind fun l =>
          (buildTree eps draws tries levels (path ++ [true]) p.2).map fun r =>
            .node l.ifNeeded r.ifNeeded s.2 s.1 p.1.length p.2.length true

/-- `getRandomData`, trees/isolation.go:120-126; `draw i` is the draw of `rand.Intn`, which panics without rows. -/
def getRandomData (draw : Nat → Nat) (data : List (List K)) (subSpace : Nat) : Res (List (List K)) :=
  mapRes (fun i => atIdx data (draw i)) (List.range subSpace)

/-- `Fit`, trees/isolation.go:138-153, after `preprocessData`. -/
def isoFit (eps : K) (pick : Nat → Nat → Nat) (draws : Nat → List Bool → Draws K) (tries nTrees : Nat) (maxDepth : Int)
    (subSpace : Nat) (data : List (List K)) : Res (Option (List (CNode K Nat))) :=
  (mapRes (fun i => (getRandomData (pick i) data subSpace).map
    (buildTree eps (draws i) tries maxDepth.toNat [])) (List.range nTrees)).map fun l => l.foldr (fun t ts => t.bind fun t => ts.map (t :: ·)) (some [])

/-- `pathLength`, trees/isolation.go:156-179; `cf` is `cFactor`, which is only called with two rows or more. A nil root does not
come up. -/
def pathLength (cf : Nat → K) : CNode K Nat → List K → K → K
  | .nil, _, path => path
  | .node l r t f a b _, x, path =>
    if x.getD f 0 ≤ t then
      match l with
      | .nil => if a ≤ 1 then path + 1 else path + 1 + cf a
      | l => pathLength cf l x (path + 1)
    else
      match r with
      | .nil => if b ≤ 1 then path + 1 else path + 1 + cf b
      | r => pathLength cf r x (path + 1)

end

/-! ## Scores -/

/-- A number, minus infinity or NaN. -/
inductive CValue where
  | num (x : ℝ)
  | negInf
  | nan

/-- `cFactor`, trees/isolation.go:191-193: `math.Log` of zero is minus infinity, of a negative number NaN. -/
noncomputable def cFactor (n : Int) : CValue :=
  if 2 ≤ n then .num (2 * (Real.log ((n - 1 : Int) : ℝ) + 0.5772156649) - ((2 * (n - 1) : Int) : ℝ) / ((n : Int) : ℝ))
  else if n = 1 then .negInf
  else .nan

/-- `cFactor` for two rows or more, as `pathLength` uses it. -/
noncomputable def cFactorNat (n : Nat) : ℝ :=
  match cFactor n with
  | .num x => x
  | _ => 0

/-- `evaluateInstance`, trees/isolation.go:182-188. -/
noncomputable def evaluateInstance (x : List ℝ) (forest : List (CNode ℝ Nat)) : List ℝ :=
  forest.map fun t => pathLength cFactorNat t x 0

/-- `anomalyScore`, trees/isolation.go:196-205. No trees give `0 / 0`; `none` is NaN. With minus infinity the exponent is
zero. -/
noncomputable def anomalyScore (x : List ℝ) (forest : List (CNode ℝ Nat)) (n : Int) : Option ℝ :=
  let paths := evaluateInstance x forest
  if paths = [] then none
  else
    match cFactor n with
    | .num c => some ((2 : ℝ) ^ (-1 * (paths.foldl (· + ·) 0 / (paths.length : ℝ)) / c))
    | .negInf => some 1
    | .nan => none

/-- `Predict`, trees/isolation.go:208-217, after `preprocessData`. -/
noncomputable def isoPredict (forest : List (CNode ℝ Nat)) (subSpace : Int) (data : List (List ℝ)) : List (Option ℝ) :=
  data.map fun x => anomalyScore x forest subSpace

/-- `preprocessData`, trees/isolation.go:220-230: the class is one more column. -/
def preprocessData {K : Type} [Field K] (val : U64 → K) (srt : List Spec → List Spec) (order order' : List Nat) (g : Grid) :
    Res (List (List K)) :=
  (problemVec val srt order g).bind fun data =>
    match labelVec val srt order' g with
    | .ok y => Res.ok (List.zipWith (fun x l => x ++ [l]) data y)
    | _ => Res.panic

/-- `Fit` on instances, trees/isolation.go:138-153. -/
def isoFitGrid {K : Type} [Field K] [LinearOrder K] (eps : K) (pick : Nat → Nat → Nat) (draws : Nat → List Bool → Draws K) (tries nTrees : Nat)
    (maxDepth : Int) (subSpace : Nat) (val : U64 → K) (srt : List Spec → List Spec) (order order' : List Nat) (g : Grid) :
    Res (Option (List (CNode K Nat))) :=
  (preprocessData val srt order order' g).bind (isoFit eps pick draws tries nTrees maxDepth subSpace)

/-- `Predict` on instances, trees/isolation.go:208-217. -/
noncomputable def isoPredictGrid (forest : List (CNode ℝ Nat)) (subSpace : Int) (val : U64 → ℝ) (srt : List Spec → List Spec)
    (order order' : List Nat) (g : Grid) : Res (List (Option ℝ)) :=
  (preprocessData val srt order order' g).map (isoPredict forest subSpace)

end Golearn
