import Verif.Model.Forest
import Verif.Model.Eval

/-! # A random forest as cross validation sees it (ensemble/randomforest.go, meta/bagging.go)

The scheduler of the Go runtime decides which goroutine moves next. Its decision is any function of the number of the move and of
the state of the goroutines.
-/

namespace Golearn

/-- Letting the goroutines of `Predict`, meta/bagging.go:100-162, move until the main one is past the last wait, a goroutine panics,
or the one that is chosen cannot move. There are never more than `fuel` moves. -/
def Pipeline.runBy {V σ : Type} (p : Pipeline V σ) (pick : Nat → PipeState V σ → Thread) : Nat → Nat → PipeState V σ → PipeState V σ
  | 0, _, s => s
  | fuel + 1, k, s =>
    if s.pos = .done then s
    else match p.step s (pick k s) with
      | some s' => p.runBy pick fuel (k + 1) s'
      | none => s

/-- Letting the goroutines of `Fit`, meta/bagging.go:82-94, move until the wait is over. -/
def FitState.runBy (attrs : Nat → List Attr) (pick : Nat → FitState → Option Nat) : Nat → Nat → FitState → FitState
  | 0, _, s => s
  | fuel + 1, k, s =>
    if s.over then s
    else match s.step attrs (pick k s) with
      | some s' => s'.runBy attrs pick fuel (k + 1)
      | none => s

/-- What training and asking a forest depends on besides the data: for the training data the choices made when the trees are grown
(`fuel` rounds are enough to select the attributes) and the scheduler of `Fit`; for the data to predict what each tree depends on,
the number of processors, the scheduler of `Predict` and the orders of iteration. -/
structure ForestRun (K : Type) where
  env : Grid → ForestEnv K
  fuel : Nat
  fitPick : Grid → Nat → FitState → Option Nat
  pred : Grid → Nat → PredEnv
  srt : List Spec → List Spec
  cpus : Nat
  ord : Grid → Nat → Grid → List Nat
  pick : Grid → Nat → PipeState Grid (GoMap Nat (GoMap String Nat)) → Thread
  fo : FloatOps
  parse : String → Option U64
  pg : Nat
  ordRows : Grid → List Nat → List Nat
  ords : Grid → Nat → List String → List String

section
variable {K : Type} [Field K] [LinearOrder K]

/-- `BaggedModel.Fit`, meta/bagging.go:82-95, for `size` trees: the trees and the selected attributes. If the goroutines are stuck the
runtime ends the program. Fitting a tree never returns an error. A selection of attributes that does not end in `fuel` rounds is
treated as a panic, too; the theorems exclude it. -/
def forestTrain (e : ForestRun K) (features size : Nat) (train : Grid) : Res (List Tree × GoMap Nat (List Attr)) :=
  (mapRes (fun i => ((forestTree (e.env train) features e.fuel train i).getD Res.panic).orPanic) (List.range size)).bind fun grown =>
    let s := (FitState.start size).runBy (fun i => (grown.map Prod.fst).getD i []) (e.fitPick train) (3 * size + 1) 0
    if s.over then Res.ok (grown.map Prod.snd, s.selected) else Res.panic

/-- `BaggedModel.Predict`, meta/bagging.go:102-180. -/
def forestAsk (e : ForestRun K) (trees : List Tree) (selected : GoMap Nat (List Attr)) (what : Grid) : Res Dense :=
  let b := treesBag (e.pred what) trees selected
  let p := b.pipeline e.fo e.srt e.cpus (e.ord what) what
  let s := p.runBy (e.pick what) (5 * trees.length + e.cpus + 4) 0 (p.start [])
  if s.pos = .done then Bagged.consensus e.fo e.parse e.pg (e.ordRows what) (e.ords what) what s.tally else Res.panic

/-- `RandomForest` as a `Classifier`: `Fit`, ensemble/randomforest.go:35-53, replaces the model, and `Predict`,
ensemble/randomforest.go:56-58, asks it. Before training the model is nil and cannot be asked. -/
def forestOps (e : ForestRun K) (features size : Nat) : ClassifierOps (Option (List Tree × GoMap Nat (List Attr))) where
  fit _ train := (forestFit train features size).bind fun q => (forestTrain e q.1 q.2 train).map some
  predict s what :=
    match s with
    | none => Res.panic
    | some (trees, selected) => (forestAsk e trees selected what).map fun d => (some (trees, selected), .dense d)

end

end Golearn
