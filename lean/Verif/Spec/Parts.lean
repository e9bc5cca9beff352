import Verif.Model.Parts
import Verif.Spec.Sharing
import Verif.Spec.Table

/-! # What a user expects of the parts of a split -/

namespace Golearn

/-- Two grids show the same: attributes, number of rows and values. -/
def ShowsSame (g h : Grid) : Prop :=
  g.allAttributes = h.allAttributes ∧ g.size.2 = h.size.2 ∧ ∀ a ∈ g.allAttributes, ∀ r, r < g.size.2 → g.cell a r = h.cell a r

/-- The parts of a split of a table stay what they were when the same table is split again. -/
def PartsKept : Prop :=
  ∀ (pg : Nat) (srt : List Spec → List Spec) (_ : ∀ l, (srt l).Perm l) (ops : List MOp) (w : World)
    (_ : World.run pg srt ops = Res.ok w) (i : Nat) (_ : i < w.tables.length)
    (draw coin draw' coin' : Nat → Nat) (_ : ∀ r, draw r ≤ r) (_ : ∀ r, draw' r ≤ r) (pct pct' : Int)
    (w1 w2 : World) (train test train' test' : HGrid),
    w.split pg srt draw coin pct (.table i) = Res.ok (w1, train, test) →
    w1.split pg srt draw' coin' pct' (.table i) = Res.ok (w2, train', test') →
    ShowsSame (w2.grid train) (w1.grid train) ∧ ShowsSame (w2.grid test) (w1.grid test)

/-- The step does nothing to table `i`, or it exchanges two of its `n` rows. -/
def MOp.atMostSwaps (held : List Held) (i n : Nat) (op : MOp) : Prop :=
  ¬ op.actsOn held i ∨ ∃ a b, op = .swap i a b ∧ a < n ∧ b < n

end Golearn
