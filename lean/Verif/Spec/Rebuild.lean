import Verif.Spec.Growth
import Verif.Spec.Repeat

/-! # Specification vocabulary: building a decision tree again -/

namespace Golearn

section
variable {K : Type} [Field K] [LinearOrder K]

/-- The values and labels of some rows. -/
def valuesAndLabels (key lab : Nat → String) (rows : List Nat) : List (String × String) := rows.map fun q => (key q, lab q)

/-- The entropy of the labels among equal values, averaged with the number of times the values occur. -/
def remaining (lg : K → K) (ps : List (String × String)) : K :=
  ((ps.map Prod.fst).dedup.map fun v =>
    ((ps.filter fun p => p.1 == v).length : K) / ps.length * entropyOf lg ((ps.filter fun p => p.1 == v).map Prod.snd)).sum

/-- Information gain for a list of values with their labels. -/
def infoGainOf (lg : K → K) (ps : List (String × String)) : K := entropyOf lg (ps.map Prod.snd) - remaining lg ps

/-- What the code calls the gain ratio: the gain over the entropy that is left, infinite if none is left. -/
def infoRatioOf (lg : K → K) (ps : List (String × String)) : WithTop K :=
  if remaining lg ps = 0 then ⊤ else ((infoGainOf lg ps / remaining lg ps : K) : WithTop K)

end

section
variable {V : Type} [LinearOrder V] (score : List (String × String) → V) (key : Rule → Nat → String) (lab : Nat → String)

/-- Every node that splits its rows has at least two attributes to choose from, and chooses one with the greatest score for
the rows that reach it. There are no thresholds. -/
def Tree.Greedy : Tree → List Attr → List Nat → Prop
  | .leaf _ _, _, _ => True
  | .split _ _ r keys child, as, rows =>
    2 ≤ as.length ∧ r.attr ∈ as ∧ r.val = 0 ∧
    (∀ a ∈ as, score (valuesAndLabels (key ⟨a, 0⟩) lab rows) ≤ score (valuesAndLabels (key r) lab rows)) ∧
    ∀ k ∈ keys, (child k).Greedy (as.filter fun a => a ≠ r.attr) (rows.filter fun q => key r q == k)

/-- There is no tie to be broken while a tree is built for the rows with the attributes: the rows have one label, or one label
occurs more often than any other one and either at most one attribute is left, or one attribute scores higher than any other
one and its groups have no ties either. -/
inductive NoTies : List Attr → List Nat → Prop
  | pure (as : List Attr) (rows : List Nat) : (∀ p ∈ rows, ∀ q ∈ rows, lab p = lab q) → NoTies as rows
  | last (as : List Attr) (rows : List Nat) (c : String) : as.length ≤ 1 → ClearWinner (rows.map lab) c → NoTies as rows
  | split (as : List Attr) (rows : List Nat) (c : String) (a : Attr) : ClearWinner (rows.map lab) c → a ∈ as →
      (∀ b ∈ as, b ≠ a →
        score (valuesAndLabels (key ⟨b, 0⟩) lab rows) < score (valuesAndLabels (key ⟨a, 0⟩) lab rows)) →
      (∀ k, NoTies (as.filter fun b => b ≠ a) (rows.filter fun q => key ⟨a, 0⟩ q == k)) → NoTies as rows

end

/-- The two trees are the same up to the order of maps. -/
def Tree.SameAs : Tree → Tree → Prop
  | .leaf d c, .leaf d' c' => (∀ x, d.get? x = d'.get? x) ∧ c = c'
  | .split d c r keys child, .split d' c' r' keys' child' =>
    (∀ x, d.get? x = d'.get? x) ∧ c = c' ∧ r = r' ∧ keys.Perm keys' ∧ ∀ k ∈ keys, (child k).SameAs (child' k)
  | _, _ => False

/-- A rule generator that chooses, for rows with different labels and without numeric attributes, an attribute with the
greatest score and no threshold. -/
def PicksBest {V : Type} [LE V] (fo : FloatOps) (score : List (String × String) → V) (gen : Grid → Res (Option Rule)) : Prop :=
  ∀ (g : Grid) n lab cls rule, TreeData fo g n lab cls → (∀ a ∈ g.allAttributes, a.isFloat = false) →
    (∃ p q, p < n ∧ q < n ∧ lab p ≠ lab q) → gen g = Res.ok (some rule) → rule.val = 0 ∧ ∀ a ∈ g.inputs cls,
      score (valuesAndLabels (g.branch fo ⟨a, 0⟩) lab (List.range n)) ≤ score (valuesAndLabels (g.branch fo rule) lab (List.range n))

/-- One run of building trees with a kind of rule generator: the orders of rows, classes and candidates are arbitrary, and may
differ from node to node. -/
structure TreeEnv.Builds {K : Type} [Field K] [LinearOrder K] (e : TreeEnv) (fo : FloatOps) (lg : K → K)
    (kind : RuleEnv K → Grid → Res (Option Rule)) : Prop where
  floats : e.fo = fo
  sort : ∀ l, (e.srt l).Perm l
  rowOrder : ∀ p (g : Grid), g.RowOrder (e.order p g)
  classOrder : ∀ p l, (e.classes p l).Perm l
  rule : ∀ p, ∃ r : RuleEnv K, r.Ok ∧ r.fo = fo ∧ r.lg = lg ∧ e.gen p = kind r

/-- The full claim, for information gain: training again on the same data and predicting again gives the same classes. -/
def TrainsAgain (K : Type) [Field K] [LinearOrder K] : Prop :=
  ∀ (e e' : TreeEnv) (fo : FloatOps) (lg : K → K) (g : Grid) (n : Nat) (lab : Nat → String) (cls : Attr) (p p' : PredEnv)
    (what : Grid) (m : Nat) (t t' : Tree) (d d' : Dense),
    e.Builds fo lg infoGain → e'.Builds fo lg infoGain → TreeData fo g n lab cls → (∀ a ∈ g.allAttributes, a.isFloat = false) →
    p.Ok → p'.Ok → p.fo = fo → p'.fo = fo → TreeInput fo what m g.allAttributes →
    inferID3 e g = Res.ok t → inferID3 e' g = Res.ok t' → treePredict p t what = Res.ok d → treePredict p' t' what = Res.ok d' →
    ∀ r, r < m → getClass fo (.dense d) r = getClass fo (.dense d') r

end Golearn
