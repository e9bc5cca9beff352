import Verif.Spec.Tree
import Verif.Spec.Entropy
import Verif.Model.Forest

/-! # Specification vocabulary: random forests -/

namespace Golearn

/-- The tree that growing on a sample gives: row `q` of the sample is row `draw q` of the data. Every node describes the rows
drawn that reach it, and below the root they reach it by their own values. But the root sends row `q` of the sample to the
branch of row `q` of the data. -/
def Tree.FitsSample (key : Rule → Nat → String) (lab : Nat → String) (draw : Nat → Nat) (n : Nat) : Tree → Prop
  | .leaf d c => Describes lab ((List.range n).map draw) d c
  | .split d c r keys child =>
    Describes lab ((List.range n).map draw) d c ∧ (∃ p, p < n ∧ ∃ q, q < n ∧ lab (draw p) ≠ lab (draw q)) ∧ keys.Nodup ∧
    (∀ k, k ∈ keys ↔ ∃ q, q < n ∧ key r q = k) ∧
    ∀ k ∈ keys, (child k).Fits key lab (((List.range n).filter fun q => key r q == k).map draw)

/-- The conditions under which a forest is grown on data with `n` rows: sorting is a permutation, sets and maps are iterated
over in some order, rows of the data are drawn, and the numbers in `S` are exact. -/
structure ForestEnv.Ok {K : Type} [Field K] [LinearOrder K] (e : ForestEnv K) (n : Nat) (val : U64 → K) (S : U64 → Prop) :
    Prop where
  sort : ∀ l, (e.srt l).Perm l
  attrs : ∀ i l, (e.attrs i l).Perm l
  drawn : ∀ i r, r < n → e.rows i r < n
  rowOrder : ∀ i p (g : Grid), g.RowOrder (e.order i p g)
  classOrder : ∀ i p l, (e.classes i p l).Perm l
  rule : ∀ i p, (e.rule i p).Ok ∧ (e.rule i p).fo = e.fo ∧ ExactOn (e.rule i p) val S

end Golearn
