import Verif.Model.Tree
import Mathlib.Algebra.Order.Field.Basic
import Mathlib.Order.WithBot

/-!
# Rule generators (trees/entropy.go, trees/gr.go, trees/gini.go, trees/random.go)

Entropies are elements of an ordered field `K`, so rounding is not modelled; `lg x` stands for `math.Log(x)/math.Log(2)`. The
result `none` is NaN. Values and thresholds stay bit patterns; `mid u v` is `(u+v)/2`.
-/

namespace Golearn

/-- What a rule generator depends on besides the data. -/
structure RuleEnv (K : Type) where
  fo : FloatOps
  /-- `==` on floats. -/
  feq : U64 → U64 → Bool
  mid : U64 → U64 → U64
  lg : K → K
  /-- `sort.Sort` of the values with their classes, by value. -/
  sortRefs : List (U64 × String) → List (U64 × String)
  /-- The order in which `MapOverRows` visits the rows. -/
  order : Grid → List Nat
  /-- The order of iteration over the set of candidate attributes. -/
  cands : List Attr → List Attr

section
variable {K : Type} [Field K] [LinearOrder K]

/-- `a/n * log(a/n)`: NaN if `a` is zero. -/
def xlog (lg : K → K) (a n : Nat) : Option K :=
  if a = 0 ∨ n = 0 then none else some ((a : K) / n * lg ((a : K) / n))

/-- A sum that is NaN if a term is. -/
def sumO : List (Option K) → Option K
  | [] => some 0
  | x :: xs => x.bind fun a => (sumO xs).map fun b => a + b

/-- `getBaseEntropy`, trees/entropy.go:213-223. -/
def baseEntropy (lg : K → K) (s : GoMap String Nat) : Option K :=
  (sumO (s.map fun p => xlog lg p.2 (s.map Prod.snd).sum)).map fun x => -x

/-- The total of a distribution of distributions. -/
def totalOf (s : GoMap String (GoMap String Nat)) : Nat := (s.map fun p => (p.2.map Prod.snd).sum).sum

/-- `getSplitEntropy`, trees/entropy.go:190-209. -/
def splitEntropy (lg : K → K) (s : GoMap String (GoMap String Nat)) : Option K :=
  sumO (s.map fun p =>
    (sumO (p.2.map fun q => xlog lg q.2 (totalOf s))).bind fun x =>
      (xlog lg (p.2.map Prod.snd).sum (totalOf s)).map fun y => -x + y)

/-- One side of `getSplitEntropyFast`, trees/entropy.go:173-184: classes that do not occur are skipped, an empty side is NaN. -/
def sideEntropy (lg : K → K) (cls : List String) (s : String → Nat) (count : Nat) : Option K :=
  (sumO ((cls.filter fun c => decide (s c ≠ 0)).map fun c => xlog lg (s c) count)).bind fun x =>
    (xlog lg (cls.map s).sum count).map fun y => -x + y

/-- `getSplitEntropyFast`, trees/entropy.go:165-186. A slice with an entry for each class is a function on the class names. -/
def splitEntropyFast (lg : K → K) (cls : List String) (l r : String → Nat) : Option K :=
  sumO [sideEntropy lg cls l ((cls.map l).sum + (cls.map r).sum), sideEntropy lg cls r ((cls.map l).sum + (cls.map r).sum)]

/-! ## Numeric attributes -/

/-- `s[c]++`. -/
def bump (s : String → Nat) (c : String) : String → Nat := fun x => if x = c then s x + 1 else s x

/-- `s[c]--`. -/
def drop1 (s : String → Nat) (c : String) : String → Nat := fun x => if x = c then s x - 1 else s x

/-- The callback at trees/entropy.go:108-119: the value and class of each row, and the classes seen so far. The number the
code gives to a class is replaced by its name. -/
def refsCallback (fo : FloatOps) (g : Grid) (st : List (U64 × String) × List String) (vals : List Bytes) (row : Nat) :
    Res ((List (U64 × String) × List String) × Ctl) :=
  (getClass fo g row).bind fun c =>
    match vals with
    | [] => Res.panic
    | v :: _ => (unpackFloatBits v).bind fun u =>
      if row < st.1.length then
        Res.ok ((st.1.set row (u, c), if c ∈ st.2 then st.2 else st.2 ++ [c]), Ctl.cont)
      else Res.panic

/-- The loop at trees/entropy.go:135-156. `rest` is what is left of `refs` from `prevInd` on. The best entropy so far is
`none` while it is still infinite. Each turn either advances `i` or sets `prevVal` to a new value, so `2 * len(refs) + 1`
turns are enough if the value equals itself; if it is NaN the loop never ends, which is modelled as a panic. -/
def scanLoop (e : RuleEnv K) (cls : List String) (refs : List (U64 × String)) :
    Nat → Nat → Option U64 → List (U64 × String) → (String → Nat) → (String → Nat) → Option (K × U64) → Res (Option (K × U64))
  | 0, _, _, _, _, _, _ => Res.panic
  | fuel + 1, i, prev, rest, l, r, best =>
    match refs[i]?, refs[i + 1]? with
    | some a, some b =>
      let val := e.mid a.1 b.1
      if (match prev with | some p => e.feq val p | none => false) then
        scanLoop e cls refs fuel (i + 1) prev rest l r best
      else
        let moved := rest.takeWhile fun x => e.fo.gt val x.1
        let l' := moved.foldl (fun s x => bump s x.2) l
        let r' := moved.foldl (fun s x => drop1 s x.2) r
        let best' :=
          match splitEntropyFast e.lg cls l' r' with
          | none => best
          | some s =>
            match best with
            | none => some (s, val)
            | some p => if s < p.1 then some (s, val) else best
        scanLoop e cls refs fuel (i + moved.length) (some val) (rest.drop moved.length) l' r' best'
    | _, _ => Res.ok best

/-- The values with their classes in increasing order, and the classes: trees/entropy.go:97-121. -/
def numericRefs (fo : FloatOps) (sortRefs : List (U64 × String) → List (U64 × String)) (order : List Nat) (g : Grid)
    (a : Attr) : Res (List (U64 × String) × List String) :=
  (g.getAttribute a).orPanic.bind fun s =>
    let st0 := (List.replicate g.size.2 ((0 : U64), ""), ([] : List String))
    (keepState (g.mapOverRows [s] order (refsCallback fo g) st0) st0).map fun st => (sortRefs st.1, st.2)

/-- `getNumericAttributeEntropy`, trees/entropy.go:95-159; `none` is the answer `(+Inf, +Inf)`. -/
def numericEntropy (e : RuleEnv K) (g : Grid) (a : Attr) : Res (Option (K × U64)) :=
  (numericRefs e.fo e.sortRefs (e.order g) g a).bind fun st =>
      let refs := st.1
      scanLoop e st.2 refs (2 * refs.length + 1) 0 none refs (fun _ => 0) (refs.foldl (fun s x => bump s x.2) fun _ => 0) none

/-! ## Selection -/

/-- The loops that keep the first candidate with the greatest value, trees/entropy.go:69-73 and trees/gr.go:66-71. -/
def pickMax {V : Type} [LinearOrder V] : List (Attr × Option V × U64) → Option (V × Rule) → Option (V × Rule)
  | [], best => best
  | (a, v, x) :: rest, best =>
    match v, best with
    | none, _ => pickMax rest best
    | some v, none => pickMax rest (some (v, ⟨a, x⟩))
    | some v, some w => pickMax rest (if w.1 < v then some (v, ⟨a, x⟩) else some w)

/-- `+Inf`. -/
def posInf : U64 := 0x7FF0000000000000#64

/-- The entropy after splitting on an attribute and the threshold, trees/entropy.go:57-67; the threshold is zero if the
attribute is not numeric. An infinite entropy is `none`: the gain is then minus infinity, which is never selected. -/
def localEntropy (e : RuleEnv K) (g : Grid) (a : Attr) : Res (Option K × U64) :=
  if a.isFloat then
    (numericEntropy e g a).map fun o =>
      match o with
      | some p => (some p.1, p.2)
      | none => (none, posInf)
  else (distAfterSplit e.fo g a).map fun m => (splitEntropy e.lg m, 0)

/-- Subtraction, NaN if one side is. -/
def subO (x y : Option K) : Option K := x.bind fun a => y.map fun b => a - b

/-- `InformationGainRuleGenerator.GetSplitRuleFromSelection`, trees/entropy.go:36-78. -/
def infoGainFrom (e : RuleEnv K) (considered : List Attr) (g : Grid) : Res (Option Rule) :=
  match considered with
  | [] => Res.panic
  | _ :: _ =>
    (getClassDistribution e.fo g).bind fun d =>
      (mapRes (fun a => (localEntropy e g a).map fun p => (a, subO (baseEntropy e.lg d) p.1, p.2)) considered).map fun l =>
        (pickMax l none).map Prod.snd

/-- `InformationGainRuleGenerator.GenerateSplitRule`, trees/entropy.go:23-30. -/
def infoGain (e : RuleEnv K) (g : Grid) : Res (Option Rule) := infoGainFrom e (e.cands g.normalAttrs) g

/-- The gain over the entropy, trees/gr.go:64-66: division by zero gives infinity for a positive gain; NaN and minus infinity
are `none`. -/
def gainRatio (base loc : Option K) : Option (WithTop K) :=
  (subO base loc).bind fun x => loc.bind fun l =>
    if l = 0 then (if 0 < x then some ⊤ else none) else some ((x / l : K) : WithTop K)

/-- `InformationGainRatioRuleGenerator.GetSplitRuleFromSelection`, trees/gr.go:35-76. -/
def gainRatioFrom (e : RuleEnv K) (considered : List Attr) (g : Grid) : Res (Option Rule) :=
  match considered with
  | [] => Res.panic
  | _ :: _ =>
    (getClassDistribution e.fo g).bind fun d =>
      (mapRes (fun a => (localEntropy e g a).map fun p => (a, gainRatio (baseEntropy e.lg d) p.1, p.2)) considered).map fun l =>
        (pickMax l none).map Prod.snd

/-- `InformationGainRatioRuleGenerator.GenerateSplitRule`, trees/gr.go:22-29. -/
def gainRatioRule (e : RuleEnv K) (g : Grid) : Res (Option Rule) := gainRatioFrom e (e.cands g.normalAttrs) g

/-! ## Gini -/

/-- `computeGini`, trees/gini.go:72-88: `p` is read before anything is stored in it. -/
def computeGini (s : GoMap String Nat) : K :=
  let p : GoMap String K := s.foldl (fun p q =>
    if (GoMap.get? p q.1).getD 0 = 0 then p else p.set q.1 (1 / (GoMap.get? p q.1).getD 0)) []
  1 - (p.map fun q => q.2 * q.2).sum

/-- `computeAverageGiniIndex`, trees/gini.go:92-113. -/
def averageGini (s : GoMap String (GoMap String Nat)) : Option K :=
  sumO (s.map fun p =>
    if totalOf s = 0 then none
    else some ((((p.2.map Prod.snd).sum : Nat) : K) / (totalOf s : Nat) * computeGini p.2))

/-- The loop that keeps the first candidate with the smallest value, trees/gini.go:57-61. -/
def pickMin {V : Type} [LinearOrder V] : List (Attr × Option V × U64) → Option (V × Rule) → Option (V × Rule)
  | [], best => best
  | (a, v, x) :: rest, best =>
    match v, best with
    | none, _ => pickMin rest best
    | some v, none => pickMin rest (some (v, ⟨a, x⟩))
    | some v, some w => pickMin rest (if v < w.1 then some (v, ⟨a, x⟩) else some w)

/-- The average Gini index of an attribute and its threshold, trees/gini.go:48-56. -/
def localGini (e : RuleEnv K) (g : Grid) (a : Attr) : Res (Option K × U64) :=
  if a.isFloat then
    (numericEntropy e g a).bind fun o =>
      let val := match o with
        | some p => p.2
        | none => posInf
      (distAfterThreshold e.fo g a val).map fun m => (averageGini m, val)
  else (distAfterSplit e.fo g a).map fun m => (averageGini m, 0)

/-- `GiniCoefficientRuleGenerator.GetSplitRuleFromSelection`, trees/gini.go:35-65. -/
def giniFrom (e : RuleEnv K) (considered : List Attr) (g : Grid) : Res (Option Rule) :=
  match considered with
  | [] => Res.panic
  | _ :: _ =>
    (mapRes (fun a => (localGini e g a).map fun p => (a, p.1, p.2)) considered).map fun l =>
      (pickMin l none).map Prod.snd

/-- `GiniCoefficientRuleGenerator.GenerateSplitRule`, trees/gini.go:22-29. -/
def giniRule (e : RuleEnv K) (g : Grid) : Res (Option Rule) := giniFrom e (e.cands g.normalAttrs) g

/-! ## Random trees -/

/-- The loop at trees/random.go:26-44. `draw` is the sequence of results of `rand.Intn`, which panics for an empty
range. The fuel is the number of draws; running out of it is modelled as a panic. -/
def randomAttrs (all : List Attr) (want : Nat) : List Nat → List Attr → Res (List Attr)
  | draws, sel =>
    if want ≤ sel.length then Res.ok sel
    else
      match draws with
      | [] => Res.panic
      | k :: ks =>
        match all[k]? with
        | none => Res.panic
        | some a => randomAttrs all want ks (if sel.any fun b => b.equals a then sel else sel ++ [a])

/-- `RandomTreeRuleGenerator.GenerateSplitRule`, trees/random.go:17-47. -/
def randomRule (e : RuleEnv K) (want : Nat) (draws : List Nat) (g : Grid) : Res (Option Rule) :=
  (randomAttrs (e.cands g.normalAttrs) want draws []).bind fun sel => infoGainFrom e sel g

end

end Golearn
