import Verif.Model.OneVsAll
import Verif.Spec.Labels

/-! # Specification vocabulary: one-vs-all -/

namespace Golearn

/-- `v` shows the `n` rows of `g`, with the class column replaced by numbers: `1.0` in the rows whose class is the
`i`-th of the values `vs`, `0.0` in the others. -/
structure MarksClass (g v : Grid) (n : Nat) (c : Attr) (i : Nat) : Prop where
  table : v.Presents n
  told : v.distinct
  marks : ∃ a, (∀ x, x ∈ v.allClassAttributes ↔ x = a) ∧ a.body = .float c.name 2 ∧
    (∀ x, x ∈ v.allAttributes ↔ x = a ∨ x ∈ g.allAttributes ∧ x ≠ c) ∧
    (∀ r, r < n → v.cell a r = packU64 (if g.cell c r = packU64 (BitVec.ofNat 64 i) then f64One else 0#64)) ∧
    ∀ x ∈ g.allAttributes, x ≠ c → ∀ r, r < n → v.cell x r = g.cell x r

/-- The model's classifiers all succeed on their versions of `what`; the output of classifier `i` for row `r` is
`y i r` (`none` if it is not a number). -/
def OneVsAll.Outputs {K : Type} (m : OneVsAll) (num : U64 → Option K) (ord : Nat → List FAttr → List FAttr) (what : Grid)
    (n : Nat) (y : Nat → Nat → Option K) : Prop :=
  ∀ i f c, m.filters[i]? = some f → m.classifiers[i]? = some c →
    ∃ out a, c (Grid.newFiltered what (f.filter (ord i))) = Res.ok out ∧ out.Presents n ∧ out.allClassAttributes = [a] ∧
      a ∈ out.allAttributes ∧ ∀ r, r < n → ∃ u, out.cell a r = packU64 u ∧ num u = y i r

/-- Of `k` classes with outputs `y 0, ..., y (k-1)`, class `j` is the first of those whose output is greatest if any output is
positive; it is the first class if none is. -/
structure MostConfident {K : Type} [LinearOrder K] [Zero K] (k : Nat) (y : Nat → Option K) (j : Nat) : Prop where
  known : j < k
  greatest : ∀ i x, i < k → y i = some x → 0 < x → ∃ b, y j = some b ∧ x ≤ b
  default : (∀ i x, i < k → y i = some x → x ≤ 0) → j = 0
  first : ∀ i x b, i < j → y i = some x → y j = some b → x < b

end Golearn
