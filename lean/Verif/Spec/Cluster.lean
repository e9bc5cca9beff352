import Mathlib.Logic.Relation
import Mathlib.Data.List.Basic

/-!
# What clustering means

`near p i` says that point `i` is within eps of point `p`; points are numbered below `rows`.
-/

namespace Golearn

section
variable (rows : Nat) (near : Nat → Nat → Bool) (minCount : Int)

/-- A core point has at least `minCount` points within eps. -/
def Core (p : Nat) : Prop := minCount ≤ (((List.range rows).countP (near p) : Nat) : Int)

/-- `x` can be reached from `p` by steps of at most eps, each but the last ending at a core point. -/
def Reach : Nat → Nat → Prop :=
  Relation.ReflTransGen fun a b => Core rows near minCount a ∧ near a b = true ∧ b < rows

/-- Two points that one core point reaches: the relation whose classes DBSCAN is to find. -/
def DensityConnected (p q : Nat) : Prop :=
  ∃ o, o < rows ∧ Core rows near minCount o ∧ Reach rows near minCount o p ∧ Reach rows near minCount o q

/-- The core point with the least number that reaches `x`. -/
def FirstCore (x s : Nat) : Prop :=
  s < rows ∧ Core rows near minCount s ∧ Reach rows near minCount s x ∧
    ∀ o < s, Core rows near minCount o → ¬ Reach rows near minCount o x

/-- A point that is not core and that no core point of a smaller number reaches. -/
def Early (q : Nat) : Prop := ¬ Core rows near minCount q ∧ ∀ o < q, Core rows near minCount o → ¬ Reach rows near minCount o q

/-- `x` is, or is within eps of, an early point numbered below `s`. -/
def Lost (x s : Nat) : Prop := ∃ q < s, Early rows near minCount q ∧ (q = x ∨ near q x = true)

end

/-- No point is in two clusters or twice in one. -/
def ValidClusters (m : List (Int × List Int)) : Prop := (m.flatMap Prod.snd).Nodup

/-- The clusters of `a` are those of `b` under other numbers. -/
def Relabelled (a b : List (Int × List Int)) : Prop :=
  ∃ f : Int → Int, (b.map fun p => f p.1).Perm (a.map Prod.fst) ∧ ∀ p ∈ b, ∃ q ∈ a, q.1 = f p.1 ∧ q.2.Perm p.2

end Golearn
