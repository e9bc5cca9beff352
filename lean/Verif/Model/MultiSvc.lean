import Verif.Model.Liblinear
import Verif.Model.OneVsAll

/-! # Linear support vector machines for several classes (ensemble/multisvc.go) -/

namespace Golearn

section
variable {K : Type} [Field K] [LinearOrder K]

/-- `MultiLinearSVC` as it is made, ensemble/multisvc.go:13-17; `weights` is `none` for a nil map. -/
structure MultiConf (K : Type) where
  params : SvcParams K
  weights : Option (GoMap String K)

/-- `NewMultiLinearSVC`, ensemble/multisvc.go:25-41: an error of the parameters is a panic. -/
def newMultiSvc (loss penalty : String) (dual : Bool) (c eps : K) (weights : Option (GoMap String K)) : Res (MultiConf K) :=
  let r := SvcParams.setKind { solver := 0, weights := none, c := c, eps := eps, auto := false, dual := dual } loss penalty
  match r.2 with
  | some _ => Res.panic
  | none => Res.ok ⟨r.1, weights⟩

/-- The weights of the two sides for a class, ensemble/multisvc.go:49-57. The map is visited in the order of the list. -/
def multiWeights (cls : String) (ws : GoMap String K) : List K :=
  let s := ws.foldl (fun s p => if p.1 ≠ cls then (s.1 + p.2, s.2) else (s.1, p.2)) ((0, 0) : K × K)
  [s.1, s.2]

/-- The classifier for a class, ensemble/multisvc.go:46-64. -/
def MultiConf.svc (m : MultiConf K) (cls : String) : Svc K :=
  newSvcFromParams { m.params.copy with weights := m.weights.map (multiWeights cls) }

/-- What fitting and predicting depend on besides the data. -/
structure MultiEnv (K : Type) where
  solve : Solver K
  toInt : K → Int
  fo : FloatOps
  half : U64
  val : U64 → K
  enc : Int → U64
  num : U64 → Option K
  srt : List Spec → List Spec
  pg : Nat
  /-- The orders in which the passes over the rows visit them. -/
  order0 : Grid → List Nat
  order1 : Grid → List Nat
  order2 : Grid → List Nat
  orderP : Grid → List Nat
  /-- The orders of iteration over the maps of the filters, in `Fit` and in `Predict`. -/
  ordF : Nat → List FAttr → List FAttr
  ordP : Nat → List FAttr → List FAttr
  /-- The addresses of new attributes. -/
  fresh : Attr → Nat

/-- Making and fitting the classifier of a class, ensemble/multisvc.go:45-65 with linear_models/linearsvc.go:150-215. A
classifier that was not fitted has no model, and predicting with it crashes. -/
def MultiEnv.train (e : MultiEnv K) (conf : MultiConf K) (cls : String) : Option Grid → Res (Grid → Res Grid)
  | none => Res.ok fun _ => Res.panic
  | some v =>
    (svcFit e.solve e.toInt e.fo e.half e.val e.srt (e.order0 v) (e.order1 v) (e.order2 v) (conf.svc cls) v).map fun m w =>
      (svcPredict e.val e.enc e.srt e.pg (e.orderP w) m w).map Grid.dense

/-- `MultiLinearSVC.Fit`, ensemble/multisvc.go:70-73. -/
def multiFit (e : MultiEnv K) (conf : MultiConf K) (g : Grid) : Res OneVsAll := OneVsAll.fit (e.train conf) e.fresh e.ordF g

/-- `MultiLinearSVC.Predict`, ensemble/multisvc.go:80-82. -/
def multiPredict (e : MultiEnv K) (m : OneVsAll) (what : Grid) : Res Dense := m.predict e.num e.pg e.srt e.ordP what

end

end Golearn
