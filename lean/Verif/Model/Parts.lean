import Verif.Model.Memory
import Verif.Model.Instances
import Verif.Model.SaveKnn

/-! # Splitting a table that is in use

`trainTestSplit` in `Model/Instances.lean` gives the two parts as values. Here the parts are what a client holds: views that refer to the
table. -/

namespace Golearn

namespace World

/-- `NewInstancesViewFromVisible`, base/view.go:78-93, on a grid as a client holds it. -/
def visible (w : World) (src : HGrid) (rows : List Nat) (specs : List Spec) : HGrid :=
  .view src (some specs) (some (Grid.rowsOfList rows))
    (Grid.classFromSrc (some specs) (w.grid src).allClassAttributes) true

/-- `Shuffle`, base/util_instances.go:413-424: a table exchanges its rows in place, `draw i` is the result of `rand.Intn(i+1)` in
round `i`; any other grid gets a view on top (`LazyShuffle`, base/util_instances.go:400-409). -/
def shuffle (pg : Nat) (srt : List Spec → List Spec) (draw : Nat → Nat) (w : World) : HGrid → Res (World × HGrid)
  | .table i => (runFrom pg srt w ((List.range (w.table i).size.2).map fun r => .swap i r (draw r))).map fun w' => (w', .table i)
  | g => Res.ok (w, .view g none
      (some ((List.range (w.grid g).size.2).foldl (fun m i => (m.set i (draw i)).set (draw i) i) []))
      (Grid.classFromSrc none (w.grid g).allClassAttributes) false)

/-- `InstancesTrainTestSplit`, base/util_instances.go:376-396: the training part and the test part. `coin i` is `rand.Intn(101)` for
row `i`, `pct` is `int(100*prop)`. -/
def split (pg : Nat) (srt : List Spec → List Spec) (draw coin : Nat → Nat) (pct : Int) (w : World) (g : HGrid) :
    Res (World × HGrid × HGrid) :=
  (w.shuffle pg srt draw g).bind fun p =>
    let rows := List.range (p.1.grid p.2).size.2
    let training := rows.filter fun i => decide ((coin i : Int) > pct)
    let testing := rows.filter fun i => !decide ((coin i : Int) > pct)
    ((p.1.grid p.2).resolve srt (p.1.grid p.2).allAttributes).map fun specs =>
      (p.1, p.1.visible p.2 training specs, p.1.visible p.2 testing specs)

/-- The nearest neighbours classifier that was fitted to the grid `g`, as it is now: `Fit`, knn/knn.go:46-49, keeps a reference to its
training data, not a copy. -/
def knn (w : World) (m : KnnModel) (g : HGrid) : KnnModel := { m with train := w.grid g }

end World

end Golearn
