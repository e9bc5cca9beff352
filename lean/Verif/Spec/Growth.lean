import Verif.Spec.Entropy

/-! # Specification vocabulary: where decision trees stop growing -/

namespace Golearn

/-- A numeric attribute that has the same number in all the rows. -/
def Dull {K : Type} (num : Attr → Nat → K) (rows : List Nat) (a : Attr) : Prop :=
  a.isFloat = true ∧ ∀ p ∈ rows, ∀ q ∈ rows, num a p = num a q

/-- The tree has been grown as far as its three excuses for stopping allow, for training rows and the attributes that can
still be tested: a leaf has rows with one label, or at most one attribute is left, or all that is left are numbers that are
the same in all its rows. -/
def Tree.GrownOut {K : Type} (key : Rule → Nat → String) (num : Attr → Nat → K) (lab : Nat → String) :
    Tree → List Attr → List Nat → Prop
  | .leaf _ _, as, rows =>
    (∀ p ∈ rows, ∀ q ∈ rows, lab p = lab q) ∨ as.length ≤ 1 ∨ ∀ a ∈ as, Dull num rows a
  | .split _ _ r keys child, as, rows =>
    ∀ k ∈ keys, (child k).GrownOut key num lab (as.filter fun a => a ≠ r.attr) (rows.filter fun q => key r q == k)

/-- A rule generator that, for rows with different labels, answers with no rule only if every attribute is a number that is
the same in all rows. -/
def GivesUpOnDull {K : Type} [Zero K] (fo : FloatOps) (val : U64 → K) (S : U64 → Prop) (gen : Grid → Res (Option Rule)) :
    Prop :=
  ∀ (g : Grid) n lab cls, TreeData fo g n lab cls → g.FloatsIn n S → (∃ p q, p < n ∧ q < n ∧ lab p ≠ lab q) →
    gen g = Res.ok none → ∀ a ∈ g.inputs cls, Dull (g.number val) (List.range n) a

end Golearn
