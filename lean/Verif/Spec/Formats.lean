import Verif.Model.SaveSvc
import Verif.Model.SaveKnn

/-! # The files of the classifiers that can be saved, and the methods that load them

`SavedBy k ar`: `ar` is a file that `Save` of a classifier of kind `k` has written. `LoadCtx.load k ar`: what `Load` of a classifier
of kind `k` makes of the file `ar`, up to the classifier that is loaded. -/

namespace Golearn

/-- The kinds of classifiers. A file of `id3` or `randomTree` can be loaded by both. -/
inductive Kind where
  | knn | bayes | id3 | randomTree | bagged | forest | svc | oneVsAll | multiSvc
  deriving DecidableEq, Repr

/-- What loading a classifier of some kind depends on besides the file. -/
structure LoadCtx (K μ ν : Type) where
  G : GridEnv
  viaFloat : Int → Int
  val : U64 → K
  tree : LoadEnv
  trees : Nat → LoadEnv
  /-- The number of classifiers, and loading one, of the bagged model that the file is loaded into. -/
  count : Nat
  member : Nat → Archive → String → Res μ
  E : SvcEnv K
  /-- The classifier function of the one-vs-all model that the file is loaded into. -/
  make : String → Res Unit
  ovaMember : String → Archive → String → Res ν
  fresh : Nat → Nat → Nat
  freshF : Attr → Nat
  ordF : Nat → List FAttr → List FAttr
  weights : Option (GoMap String K)

section
variable {K μ ν : Type} [Field K] [LinearOrder K]

/-- `Load` of a classifier of kind `k`. -/
def LoadCtx.load (c : LoadCtx K μ ν) (k : Kind) (ar : Archive) : Res Unit :=
  match k with
  | .knn => (loadKnnFile c.G c.viaFloat ar).map fun _ => ()
  | .bayes => (loadNBFile c.G c.viaFloat c.val ar).map fun _ => ()
  | .id3 => (loadTreeFile c.tree ar).map fun _ => ()
  | .randomTree => (loadTreeFile c.tree ar).map fun _ => ()
  | .bagged => (loadBagFile c.G c.viaFloat c.member c.count ar).map fun _ => ()
  | .forest => (loadForest c.G c.trees c.viaFloat c.count ar).map fun _ => ()
  | .svc => (loadSvcFile c.E ar).map fun _ => ()
  | .oneVsAll => (loadOvaFile c.G c.viaFloat c.make c.ovaMember c.fresh c.freshF c.ordF ar).map fun _ => ()
  | .multiSvc => (loadMultiFile c.G c.viaFloat c.E c.weights c.fresh c.freshF c.ordF ar).map fun _ => ()

/-- A method `SaveWithPrefix` that gives all the entries it writes names that begin with the prefix. -/
def KeepsPrefix {M : Type} (save : M → Writer → String → Res Writer) : Prop :=
  ∀ m w pre w', save m w pre = Res.ok w' →
    ∃ es : Archive, w'.entries = w.entries ++ es ∧ ∀ e ∈ es, pre.toList <+: e.1.toList
end

/-- `ar` is a file that `Save` of a classifier of kind `k` has written. -/
inductive SavedBy : Kind → Archive → Prop where
  | knn {G nilVals order m ar} (h : saveKnnFile G nilVals order m = Res.ok ar) : SavedBy .knn ar
  | bayes {K : Type} {G nilVals num fin} {nb : NB K} {fitOn ar} (h : saveNBFile G nilVals num fin nb fitOn = Res.ok ar) : SavedBy .bayes ar
  | id3 {S info t cls ar} (h : saveID3 S info t cls = Res.ok ar) : SavedBy .id3 ar
  | randomTree {S info t cls ar} (h : saveRandomTree S info t cls = Res.ok ar) : SavedBy .randomTree ar
  | bagged {M : Type} {G nilVals} {save : M → Writer → String → Res Writer} {features models fitOn sel ar} (hs : KeepsPrefix save)
      (h : saveBagFile G nilVals save features models fitOn sel = Res.ok ar) : SavedBy .bagged ar
  | forest {G S features trees fitOn sel ar} (h : saveForest G S features trees fitOn sel = Res.ok ar) : SavedBy .forest ar
  | svc {K : Type} [Field K] [LinearOrder K] {E : SvcEnv K} {m ar} (h : saveSvcFile E m = Res.ok ar) : SavedBy .svc ar
  | oneVsAll {M : Type} {G nilVals ord} {save : M → Writer → String → Res Writer} {m ar} (hs : KeepsPrefix save)
      (h : saveOvaFile G nilVals ord save m = Res.ok ar) : SavedBy .oneVsAll ar
  | multiSvc {K : Type} [Field K] [LinearOrder K] {G nilVals ord} {E : SvcEnv K} {m ar} (h : saveMultiFile G nilVals ord E m = Res.ok ar) :
      SavedBy .multiSvc ar

end Golearn
