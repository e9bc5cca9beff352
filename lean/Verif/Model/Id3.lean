import Verif.Model.Tree

/-!
# The ID3 classifier (trees/id3.go)

`PruneSplit > 0.001` and `int(100*PruneSplit)` are given as `prune` and `pct`.
-/

namespace Golearn

/-- What fitting depends on besides the data: the split draws a shuffle and a number for each row. -/
structure Id3Env where
  tree : TreeEnv
  prune : PruneEnv
  srt : List Spec → List Spec
  draw : Nat → Nat
  coin : Nat → Nat

/-- `ID3DecisionTree.Fit`, trees/id3.go:538-547: the tree, and the data as the call leaves them. -/
def id3Fit (e : Id3Env) (prune : Bool) (pct : Int) (on : Grid) : Res (Tree × Grid) :=
  if prune then
    (trainTestSplit e.srt e.draw e.coin pct on).bind fun q =>
      (inferID3 e.tree q.1).bind fun root => (pruneTree e.prune root [] q.2.1).map fun t => (t, q.2.2)
  else (inferID3 e.tree on).map fun t => (t, on)

end Golearn
