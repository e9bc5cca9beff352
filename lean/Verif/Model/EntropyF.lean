import Verif.Model.Entropy

/-!
# Rule generators with the arithmetic of the machine (trees/entropy.go, trees/gr.go, trees/gini.go, trees/random.go)

The same functions as in `Verif.Model.Entropy`, statement by statement, with the operations on entropies as parameters, so
that they can be those of `float64` with any rounding and any logarithm. The orders of iteration over maps are parameters
too, since sums depend on them. Simplified: one order for each map, although two loops over a map may differ.
-/

namespace Golearn

/-- The operations on entropies, in a type `F` of numbers. -/
structure Arith (F : Type) where
  add : F → F → F
  sub : F → F → F
  mul : F → F → F
  div : F → F → F
  /-- `math.Log`. -/
  log : F → F
  /-- `float64(n)`, and the constants 0.0, 1.0 and 2. -/
  ofNat : Nat → F
  /-- `x > y`. -/
  gt : F → F → Bool
  /-- `x == 0`. -/
  isZero : F → Bool
  posInf : F
  negInf : F

/-- What a rule generator depends on besides the data. -/
structure RuleEnvF (F : Type) where
  fo : FloatOps
  /-- `==` on floats. -/
  feq : U64 → U64 → Bool
  mid : U64 → U64 → U64
  arith : Arith F
  /-- `sort.Sort` of the values with their classes, by value. -/
  sortRefs : List (U64 × String) → List (U64 × String)
  /-- The order in which `MapOverRows` visits the rows. -/
  order : Grid → List Nat
  /-- The order of iteration over the set of candidate attributes. -/
  cands : List Attr → List Attr
  /-- The order of iteration over a distribution of classes. -/
  classes : GoMap String Nat → GoMap String Nat
  /-- The order of iteration over the values of an attribute. -/
  values : GoMap String (GoMap String Nat) → GoMap String (GoMap String Nat)

variable {F : Type}

/-- `a / count * math.Log(a/count) / math.Log(2)`, trees/entropy.go:180, 183, 204, 206, 220. -/
def xlogF (A : Arith F) (a : F) (count : Nat) : F :=
  A.div (A.mul (A.div a (A.ofNat count)) (A.log (A.div a (A.ofNat count)))) (A.log (A.ofNat 2))

/-- `getBaseEntropy`, trees/entropy.go:213-223. -/
def baseEntropyF (e : RuleEnvF F) (s : GoMap String Nat) : F :=
  (e.classes s).foldl (fun ret p => e.arith.sub ret (xlogF e.arith (e.arith.ofNat p.2) ((e.classes s).map Prod.snd).sum))
    (e.arith.ofNat 0)

/-- The total of a distribution of distributions, trees/entropy.go:192-197 and trees/gini.go:95-100. -/
def totalF (e : RuleEnvF F) (s : GoMap String (GoMap String Nat)) : Nat :=
  ((e.values s).map fun p => ((e.classes p.2).map Prod.snd).sum).sum

/-- `getSplitEntropy`, trees/entropy.go:190-209. -/
def splitEntropyF (e : RuleEnvF F) (s : GoMap String (GoMap String Nat)) : F :=
  (e.values s).foldl (fun ret p =>
    let total := (e.classes p.2).foldl (fun t q => e.arith.add t (e.arith.ofNat q.2)) (e.arith.ofNat 0)
    let ret := (e.classes p.2).foldl (fun ret q => e.arith.sub ret (xlogF e.arith (e.arith.ofNat q.2) (totalF e s))) ret
    e.arith.add ret (xlogF e.arith total (totalF e s))) (e.arith.ofNat 0)

/-- `getSplitEntropyFast`, trees/entropy.go:165-186. A slice with an entry for each class is a function on the class names. -/
def splitEntropyFastF (A : Arith F) (cls : List String) (l r : String → Nat) : F :=
  let count := (cls.map l).sum + (cls.map r).sum
  [l, r].foldl (fun ret s =>
    let total := cls.foldl (fun t c => A.add t (A.ofNat (s c))) (A.ofNat 0)
    let ret := cls.foldl (fun ret c => if s c ≠ 0 then A.sub ret (xlogF A (A.ofNat (s c)) count) else ret) ret
    A.add ret (xlogF A total count)) (A.ofNat 0)

/-- The loop at trees/entropy.go:135-156. `rest` is what is left of `refs` from `prevInd` on, `prev` is `none` for NaN, which is
where it starts, and `best` is `minSplitEntropy` and `minSplitVal`. Each turn either advances `i` or sets `prevVal` to a new
value, so `2 * len(refs) + 1` turns are enough if the value equals itself; if it is NaN the loop never ends, which is modelled
as a panic. -/
def scanLoopF (e : RuleEnvF F) (cls : List String) (refs : List (U64 × String)) :
    Nat → Nat → Option U64 → List (U64 × String) → (String → Nat) → (String → Nat) → F × U64 → Res (F × U64)
  | 0, _, _, _, _, _, _ => Res.panic
  | fuel + 1, i, prev, rest, l, r, best =>
    match refs[i]?, refs[i + 1]? with
    | some a, some b =>
      let val := e.mid a.1 b.1
      if (match prev with | some p => e.feq val p | none => false) then
        scanLoopF e cls refs fuel (i + 1) prev rest l r best
      else
        let moved := rest.takeWhile fun x => e.fo.gt val x.1
        let l' := moved.foldl (fun s x => bump s x.2) l
        let r' := moved.foldl (fun s x => drop1 s x.2) r
        let s := splitEntropyFastF e.arith cls l' r'
        scanLoopF e cls refs fuel (i + moved.length) (some val) (rest.drop moved.length) l' r'
          (if e.arith.gt best.1 s then (s, val) else best)
    | _, _ => Res.ok best

/-- `getNumericAttributeEntropy`, trees/entropy.go:95-159. -/
def numericEntropyF (e : RuleEnvF F) (g : Grid) (a : Attr) : Res (F × U64) :=
  (numericRefs e.fo e.sortRefs (e.order g) g a).bind fun st =>
    scanLoopF e st.2 st.1 (2 * st.1.length + 1) 0 none st.1 (fun _ => 0) (st.1.foldl (fun s x => bump s x.2) fun _ => 0)
      (e.arith.posInf, posInf)

/-- The entropy after splitting on an attribute and the threshold, trees/entropy.go:57-67 and trees/gr.go:56-64; the threshold
is zero if the attribute is not numeric. -/
def localEntropyF (e : RuleEnvF F) (g : Grid) (a : Attr) : Res (F × U64) :=
  if a.isFloat then numericEntropyF e g a
  else (distAfterSplit e.fo g a).map fun m => (splitEntropyF e m, 0)

/-- The loops that keep the first candidate that is better than all before, trees/entropy.go:69-73, trees/gr.go:67-71 and
trees/gini.go:57-61. The attribute is nil, here `none`, until one is. -/
def pickF (better : F → F → Bool) (l : List (Attr × F × U64)) (start : F) : Option Rule :=
  (l.foldl (fun best t => if better t.2.1 best.1 then (t.2.1, some ⟨t.1, t.2.2⟩) else best) (start, none)).2

/-- `InformationGainRuleGenerator.GetSplitRuleFromSelection`, trees/entropy.go:36-78. -/
def infoGainFromF (e : RuleEnvF F) (considered : List Attr) (g : Grid) : Res (Option Rule) :=
  match considered with
  | [] => Res.panic
  | _ :: _ =>
    (getClassDistribution e.fo g).bind fun d =>
      (mapRes (fun a => (localEntropyF e g a).map fun p => (a, e.arith.sub (baseEntropyF e d) p.1, p.2)) considered).map fun l =>
        pickF e.arith.gt l e.arith.negInf

/-- `InformationGainRuleGenerator.GenerateSplitRule`, trees/entropy.go:23-30. -/
def infoGainF (e : RuleEnvF F) (g : Grid) : Res (Option Rule) := infoGainFromF e (e.cands g.normalAttrs) g

/-- `InformationGainRatioRuleGenerator.GetSplitRuleFromSelection`, trees/gr.go:35-76. -/
def gainRatioFromF (e : RuleEnvF F) (considered : List Attr) (g : Grid) : Res (Option Rule) :=
  match considered with
  | [] => Res.panic
  | _ :: _ =>
    (getClassDistribution e.fo g).bind fun d =>
      (mapRes (fun a => (localEntropyF e g a).map fun p =>
        (a, e.arith.div (e.arith.sub (baseEntropyF e d) p.1) p.1, p.2)) considered).map fun l =>
        pickF e.arith.gt l e.arith.negInf

/-- `InformationGainRatioRuleGenerator.GenerateSplitRule`, trees/gr.go:22-29. -/
def gainRatioRuleF (e : RuleEnvF F) (g : Grid) : Res (Option Rule) := gainRatioFromF e (e.cands g.normalAttrs) g

/-- `computeGini`, trees/gini.go:72-88: `p` is read before anything is stored in it. -/
def computeGiniF (e : RuleEnvF F) (s : GoMap String Nat) : F :=
  let p : GoMap String F := (e.classes s).foldl (fun p q =>
    if e.arith.isZero ((GoMap.get? p q.1).getD (e.arith.ofNat 0)) then p
    else p.set q.1 (e.arith.div (e.arith.ofNat 1) ((GoMap.get? p q.1).getD (e.arith.ofNat 0)))) []
  e.arith.sub (e.arith.ofNat 1) (p.foldl (fun sum q => e.arith.add sum (e.arith.mul q.2 q.2)) (e.arith.ofNat 0))

/-- `computeAverageGiniIndex`, trees/gini.go:92-113. -/
def averageGiniF (e : RuleEnvF F) (s : GoMap String (GoMap String Nat)) : F :=
  (e.values s).foldl (fun sum p =>
    let subtotal := (e.classes p.2).foldl (fun t q => e.arith.add t (e.arith.ofNat q.2)) (e.arith.ofNat 0)
    e.arith.add sum (e.arith.mul (e.arith.div subtotal (e.arith.ofNat (totalF e s))) (computeGiniF e p.2))) (e.arith.ofNat 0)

/-- The average Gini index of an attribute and its threshold, trees/gini.go:48-56. -/
def localGiniF (e : RuleEnvF F) (g : Grid) (a : Attr) : Res (F × U64) :=
  if a.isFloat then
    (numericEntropyF e g a).bind fun p => (distAfterThreshold e.fo g a p.2).map fun m => (averageGiniF e m, p.2)
  else (distAfterSplit e.fo g a).map fun m => (averageGiniF e m, 0)

/-- `GiniCoefficientRuleGenerator.GetSplitRuleFromSelection`, trees/gini.go:35-65. -/
def giniFromF (e : RuleEnvF F) (considered : List Attr) (g : Grid) : Res (Option Rule) :=
  match considered with
  | [] => Res.panic
  | _ :: _ =>
    (mapRes (fun a => (localGiniF e g a).map fun p => (a, p.1, p.2)) considered).map fun l =>
      pickF (fun x y => e.arith.gt y x) l e.arith.posInf

/-- `GiniCoefficientRuleGenerator.GenerateSplitRule`, trees/gini.go:22-29. -/
def giniRuleF (e : RuleEnvF F) (g : Grid) : Res (Option Rule) := giniFromF e (e.cands g.normalAttrs) g

/-- `RandomTreeRuleGenerator.GenerateSplitRule`, trees/random.go:17-47. -/
def randomRuleF (e : RuleEnvF F) (want : Nat) (draws : List Nat) (g : Grid) : Res (Option Rule) :=
  (randomAttrs (e.cands g.normalAttrs) want draws []).bind fun sel => infoGainFromF e sel g

end Golearn
