import Verif.Spec.Forest
import Verif.Spec.Bagging
import Verif.Spec.Pipeline
import Verif.Model.ForestEval

/-! # Evaluating random forests -/

namespace Golearn

/-- The `size` trees were grown from the rows `known` of `g` and their labels: for each tree rows of `known` were drawn, as many as
there are, and the tree describes the rows drawn (see `FitsSample` for what happens at the root). It tests only the attributes
selected for it: `features` of them (all for zero), of those of `g` that are not the class attribute. -/
def GrownFrom (fo : FloatOps) (g : Grid) (cls : Attr) (lab : Nat → String) (features size : Nat) (known : List Nat)
    (t : Nat → Tree) : Prop :=
  ∀ i, i < size → ∃ (draw : Nat → Nat) (sel : List Attr), (∀ q, q < known.length → draw q < known.length) ∧
    (t i).FitsSample (fun rule q => g.branch fo rule (known.getD q 0)) (fun q => lab (known.getD q 0)) draw known.length ∧
    ((t i).AllRules fun rule => rule.attr ∈ sel) ∧ (sel.Pairwise fun a b => a.equals b = false) ∧
    (∀ a ∈ sel, a ∈ g.allAttributes ∧ a ≠ cls) ∧ (0 < features → sel.length = features) ∧
    (features = 0 → ∀ a ∈ g.allAttributes, a ≠ cls → a ∈ sel)

/-- The trees elect the class `c` for row `r`: each tree gives the row a class, and no class is given by more trees than `c`, which
is given by at least one. -/
def Elects (key : Rule → Nat → String) (size : Nat) (t : Nat → Tree) (r : Nat) (c : String) : Prop :=
  ∃ answer : Nat → String, (∀ i, i < size → (t i).Leads key r (answer i)) ∧ (∃ i, i < size ∧ answer i = c) ∧
    ∀ c', ((List.range size).countP fun i => decide (answer i = c')) ≤ (List.range size).countP fun i => decide (answer i = c)

/-- A forest run on tables whose numbers are exact on `S`: rows of the data are drawn, positions of attributes are drawn and `fuel`
rounds hit enough of them, maps are iterated over in some order, and the schedulers only choose goroutines that can move. -/
structure ForestRun.Ok {K : Type} [Field K] [LinearOrder K] (e : ForestRun K) (val : U64 → K) (S : U64 → Prop) (width features size : Nat) :
    Prop where
  env : ∀ v, (e.env v).Ok v.size.2 val S
  envFo : ∀ v, (e.env v).fo = e.fo
  positions : ∀ v i j, i < size → (e.env v).pick i j < width
  enough : ∀ v i, i < size → features ≤ ((List.range e.fuel).map ((e.env v).pick i)).dedup.length
  fitPick : ∀ v k attrs (s : FitState), (∃ t s', s.step attrs t = some s') → ∃ s', s.step attrs (e.fitPick v k s) = some s'
  pred : ∀ v i, (e.pred v i).Ok ∧ (e.pred v i).fo = e.fo
  sort : ∀ l, (e.srt l).Perm l
  cpus : 0 < e.cpus
  rowOrder : ∀ v j (g : Grid), g.RowOrder (e.ord v j g)
  pick : ∀ v k (p : Pipeline Grid (GoMap Nat (GoMap String Nat))) s, p.cpus = e.cpus → p.models = size →
    (∃ t s', p.step s t = some s') → ∃ s', p.step s (e.pick v k s) = some s'
  rowsOrder : ∀ v l, (e.ordRows v l).Perm l
  classOrder : ∀ v i l, (e.ords v i l).Perm l

end Golearn
