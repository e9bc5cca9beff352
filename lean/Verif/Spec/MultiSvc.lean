import Verif.Model.MultiSvc
import Verif.Spec.Liblinear
import Verif.Spec.OneVsAll
import Verif.Spec.Labels

/-! # Specification vocabulary: linear support vector machines for several classes -/

namespace Golearn

section
variable {K : Type} [Field K] [LinearOrder K]

/-- What is asked of the parts that are not modelled: the library's order of attributes depends on positions only; rows and maps
are visited in an order that is allowed; the numbers 0 and 1 have their own bit patterns and are read back. -/
structure MultiEnv.Ok (e : MultiEnv K) : Prop where
  sort : PositionSort e.srt
  order0 : ∀ g : Grid, g.RowOrder (e.order0 g)
  order1 : ∀ g : Grid, g.RowOrder (e.order1 g)
  order2 : ∀ g : Grid, g.RowOrder (e.order2 g)
  orderP : ∀ g : Grid, g.RowOrder (e.orderP g)
  ordF : ∀ i l, (e.ordF i l).Perm l
  ordP : ∀ i l, (e.ordP i l).Perm l
  one : e.toInt (e.val f64One) = 1
  zero : e.toInt (e.val 0#64) = 0
  readsOne : e.num (e.enc 1) = some 1
  readsZero : e.num (e.enc 0) = some 0

/-- Data to train on: a table of `n` rows whose class column `c` has the values `vs`, with the label `lab r` in row `r`. -/
structure MultiData (fo : FloatOps) (g : Grid) (n : Nat) (c : Attr) (nm : String) (vs : List String) (lab : Nat → String) : Prop where
  rows : g.Presents n
  typed : g.typed n
  distinct : g.distinct
  classAttr : g.allClassAttributes = [c]
  classIn : c ∈ g.allAttributes
  body : c.body = .cat nm vs
  values : vs.Nodup
  few : vs.length < 2 ^ 64
  label : ∀ r, r < n → getClass fo g r = Res.ok (lab r)
  /-- No number column has the name of the class. -/
  noClash : ∀ a ∈ g.allAttributes, ∀ pr, a.body ≠ .float nm pr

/-- The weights of the rest and of the class `s`, when weights are configured: the sum of the weights of the other classes, and the
weight of the class, or 0 if it has none. -/
def sideWeights (ws : GoMap String K) (s : String) : List K :=
  [((ws.filter fun p => p.1 ≠ s).map Prod.snd).sum, (ws.get? s).getD 0]

/-- The weights that are used for a class: 1 for both sides if none are configured. -/
def MultiConf.weightsFor (conf : MultiConf K) (s : String) : List K :=
  match conf.weights with
  | none => [1, 1]
  | some ws => sideWeights ws s

/-- The model `m` was trained to tell the class `s` from the others: on every row of the data once, with the numbers of the columns
`fs` and the label 1 if the row is of the class and 0 if it is not. -/
def TellsClass (solve : Solver K) (val : U64 → K) (g : Grid) (n : Nat) (lab : Nat → String) (fs : List Attr) (param : LParam K)
    (weights : List K) (s : String) (m : LModel K) : Prop :=
  ∃ nds, nds.length = n ∧ (∀ r, r < n → ∃ nd, nds[r]? = some nd ∧ Represents nd (g.point val fs r)) ∧
    TrainedOn solve param weights (fs.length + 1) nds ((List.range n).map fun r => if lab r = s then 1 else 0) m

/-- Data that can be predicted: its attribute objects are those of the training data, or none of them is. It may have one number column more than
the training data, since liblinear keeps a place for one more. -/
structure MultiInput (g what : Grid) (k : Nat) (c cw : Attr) (nm' : String) (vs' : List String) : Prop where
  rows : what.Presents k
  typed : what.typed k
  distinct : what.distinct
  classAttr : what.allClassAttributes = [cw]
  classIn : cw ∈ what.allAttributes
  body : cw.body = .cat nm' vs'
  few : what.nonClassFloats.length ≤ g.nonClassFloats.length + 1
  source : (what.allAttributes = g.allAttributes ∧ cw = c) ∨ ∀ a ∈ what.allAttributes, a ∉ g.allAttributes

/-- Of `k` classes, `j` is the first that makes a claim, or the first of all if none does. -/
def FirstClaim (k : Nat) (claims : Nat → Prop) (j : Nat) : Prop :=
  j < k ∧ ((claims j ∧ ∀ i, i < j → ¬ claims i) ∨ (j = 0 ∧ ∀ i, i < k → ¬ claims i))

end

end Golearn
