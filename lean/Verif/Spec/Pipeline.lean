import Verif.Spec.Knn
import Verif.Spec.NaiveBayes
import Verif.Spec.Tree
import Verif.Model.Eval

/-! # Training and evaluating on parts of one table -/

namespace Golearn

/-- `v` is a view of the part of the table `g` with the rows `rows`, in that order: all attributes with their values, and the one
class attribute `cls`. -/
structure Part (g : Grid) (cls : Attr) (v : Grid) (rows : List Nat) : Prop where
  presents : v.Presents rows.length
  attrs : v.allAttributes.Perm g.allAttributes
  classAttr : v.allClassAttributes = [cls]
  view : ∃ src specs rows' classes mask, v = .view src specs rows' classes mask
  width : v.size.1 = v.allAttributes.length
  cells : ∀ a ∈ g.allAttributes, ∀ i (h : i < rows.length), v.cell a i = g.cell a rows[i]

/-- A classifier, whose settings satisfy `I`, can be trained on any rows `tr` of `g` and asked about any other rows `te` of it for
which `ok tr te`; it answers every row `r` of `te` with a label allowed by `rule tr r`, and keeps `I`. -/
def AnswersBy {σ : Type} (fo : FloatOps) (K : ClassifierOps σ) (I : σ → Prop) (g : Grid) (n : Nat) (cls : Attr)
    (ok : List Nat → List Nat → Prop) (rule : List Nat → Nat → String → Prop) : Prop :=
  ∀ s train test tr te, I s → Part g cls train tr → Part g cls test te → (tr ++ te).Nodup → (∀ r ∈ tr ++ te, r < n) → ok tr te →
    ∃ s1 s2 gen, K.fit s train = Res.ok s1 ∧ K.predict s1 test = Res.ok (s2, gen) ∧ I s2 ∧ gen.size.2 = te.length ∧
      ∀ i (h : i < te.length), ∃ c, rule tr te[i] c ∧ getClass fo gen i = Res.ok c

/-- A classifier, whose settings satisfy `I`, can be trained on any rows `tr` of `g` and asked about any other rows `te` of it for
which `ok tr te`; training gives a model `m` with `good tr m`, every row `r` of `te` is answered with a label allowed by
`rule m r`, and `I` is kept. -/
def AnswersWith {σ μ : Type} (fo : FloatOps) (K : ClassifierOps σ) (I : σ → Prop) (g : Grid) (n : Nat) (cls : Attr)
    (ok : List Nat → List Nat → Prop) (good : List Nat → μ → Prop) (rule : μ → Nat → String → Prop) : Prop :=
  ∀ s train test tr te, I s → Part g cls train tr → Part g cls test te → (tr ++ te).Nodup → (∀ r ∈ tr ++ te, r < n) → ok tr te →
    ∃ s1 s2 gen m, K.fit s train = Res.ok s1 ∧ K.predict s1 test = Res.ok (s2, gen) ∧ I s2 ∧ gen.size.2 = te.length ∧ good tr m ∧
      ∀ i (h : i < te.length), ∃ c, rule m te[i] c ∧ getClass fo gen i = Res.ok c

/-- `near` are `k` of the rows `known`, each once, and no other of them is closer to row `r`. -/
structure KNearest {R : Type} [LinearOrder R] (dist : List R → List R → R) (pt : Nat → List R) (known : List Nat) (r k : Nat)
    (near : List Nat) : Prop where
  length : near.length = k
  distinct : near.Nodup
  within : ∀ q ∈ near, q ∈ known
  closest : ∀ q ∈ near, ∀ q' ∈ known, q' ∉ near → dist (pt r) (pt q) ≤ dist (pt r) (pt q')

/-- Among the rows `known`, the number of those labelled `c`. -/
def labelled (lab : Nat → String) (known : List Nat) (c : String) : Nat := known.countP fun q => decide (lab q = c)

/-- Among the rows `known`, the number of those labelled `c` that have feature `a`. -/
def labelledWith (g : Grid) (lab : Nat → String) (known : List Nat) (c : String) (a : Attr) : Nat :=
  known.countP fun q => decide (lab q = c) && g.hasFeature a q

/-- What naive Bayes takes for the probability that a row labelled `c` has, or has not, feature `a`, judging by the rows `known`:
one is added to both counts, and if all of these rows have the feature, the probability of not having it is one over the
number of rows plus one. -/
def featureProb {K : Type} [Field K] (g : Grid) (lab : Nat → String) (known : List Nat) (c : String) (a : Attr) (has : Bool) : K :=
  if has then ((labelledWith g lab known c a + 1 : Nat) : K) / ((labelled lab known c + 1 : Nat) : K)
  else if labelledWith g lab known c a = labelled lab known c then 1 / ((labelled lab known c + 1 : Nat) : K)
  else 1 - ((labelledWith g lab known c a + 1 : Nat) : K) / ((labelled lab known c + 1 : Nat) : K)

/-- The naive Bayes score of label `c` for row `r`, judging by the rows `known`: the share of the label times the probabilities of
the features as they are in the row. -/
def bayesScore {K : Type} [Field K] (g : Grid) (lab : Nat → String) (known : List Nat) (r : Nat) (c : String) : K :=
  (labelled lab known c : K) / (known.length : K) *
    (g.nonClass.map fun a => featureProb g lab known c a (g.hasFeature a r)).prod

/-- `c` is a label of the rows `known`, and no label of these rows has a larger score for row `r`. -/
def BestScore (K : Type) [Field K] [LinearOrder K] (g : Grid) (lab : Nat → String) (known : List Nat) (r : Nat) (c : String) : Prop :=
  (∃ q ∈ known, lab q = c) ∧ ∀ q ∈ known, (bayesScore g lab known r (lab q) : K) ≤ bayesScore g lab known r c

/-- The tree gives row `r` the class `c`: it is the class of the leaf reached by taking at each test the branch for the value of the
row if the tree has it, and any branch if it has not. -/
def Tree.Leads (key : Rule → Nat → String) (r : Nat) (c : String) : Tree → Prop
  | .leaf _ c' => c = c'
  | .split _ _ rule keys child =>
    if key rule r ∈ keys then (child (key rule r)).Leads key r c else ∃ k ∈ keys, (child k).Leads key r c

/-- The tree was built from the rows `known` of `g` and their labels: it fits them, and tests only attributes of `g` other than the
class attribute. -/
def Tree.BuiltFrom (fo : FloatOps) (g : Grid) (cls : Attr) (lab : Nat → String) (known : List Nat) (t : Tree) : Prop :=
  t.Fits (g.branch fo) lab known ∧ t.AllRules fun r => r.attr ∈ g.allAttributes ∧ r.attr ≠ cls

end Golearn
