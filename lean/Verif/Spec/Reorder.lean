import Verif.Spec.Rebuild
import Verif.Spec.NaiveBayes

/-! # Specification vocabulary: the same rows in another order -/

namespace Golearn

/-- `g'` is a table of the `n` rows of `g` in another order: its row `r` is row `σ r` of `g`, and every row of `g` occurs once. -/
structure Reordered (g g' : Grid) (n : Nat) (σ : Nat → Nat) : Prop where
  rows : ((List.range n).map σ).Perm (List.range n)
  table : g'.Presents n
  width : g'.size.1 = g.size.1
  attrs : g'.allAttributes = g.allAttributes
  classes : g'.allClassAttributes = g.allClassAttributes
  cells : ∀ a ∈ g.allAttributes, ∀ r, r < n → g'.cell a r = g.cell a (σ r)

/-- The full claim, for nearest neighbours: in one and the same environment, the rows to train on may be in any order. -/
def KnnAnyOrder : Prop :=
  ∀ (e : KnnEnv ℚ) (k nT nW : Nat) (train train' what : Grid) (σ : Nat → Nat) (lab lab' : Nat → String) (cls : Attr)
    (ord : Nat → List String → List String) (d d' : Dense) (r : Nat),
    KnnData e.fo train what nT nW lab cls → KnnData e.fo train' what nT nW lab' cls → train.distinct →
    Reordered train train' nT σ → PositionSort e.srt → (∀ r, SortsKeys (e.sortKeys r)) → what.RowOrder e.orderW →
    (∀ r, train.RowOrder (e.orderT r)) → (∀ r, train'.RowOrder (e.orderT r)) → (∀ r l, (ord r l).Perm l) →
    knnPredictLinear e k train what (fun r out m => vote e.fo train (ord r) m (out.map Prod.fst)) [] = Res.ok d →
    knnPredictLinear e k train' what (fun r out m => vote e.fo train' (ord r) m (out.map Prod.fst)) [] = Res.ok d' →
    r < nW → getClass e.fo (.dense d) r = getClass e.fo (.dense d') r

end Golearn
