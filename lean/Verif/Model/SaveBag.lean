import Verif.Model.Save
import Verif.Model.Bagging

/-! # Saving and loading ensembles (meta/bagging.go, ensemble/randomforest.go) -/

namespace Golearn

/-- What writing or reading a grid depends on: `srt` is the sort of `ResolveAttributes`; `cls` and `nrm` are the orders of the
class attributes and of the others, `pg` the page size, `fresh` the addresses of new attributes and `chunk` the lengths of the
reads. -/
structure GridEnv where
  srt : List Spec → List Spec
  cls : Grid → List Attr
  nrm : Grid → List Attr
  pg : Nat
  fresh : Nat → Nat
  chunk : Nat → Nat → Nat

/-- `WriteInstancesForKey`, base/serialize.go:370-373, of a structural copy: it has no rows, so that there is no data to leave
out. -/
def Writer.structure (w : Writer) (G : GridEnv) (nilVals : Bool) (key : String) (d : Dense) : Res Writer :=
  if w.closed then Res.err
  else (serializeInstances G.srt nilVals (G.cls (.dense d)) (G.nrm (.dense d)) [] (.dense d) key).map fun es =>
    { w with entries := w.entries ++ es }

/-- `GetInstancesForKey`, base/serialize.go:198-200. -/
def getInstancesForKey (G : GridEnv) (viaFloat : Int → Int) (ar : Archive) (key : String) : Res Dense :=
  deserializeInstances G.pg G.fresh viaFloat G.srt G.chunk ar key

/-- `ReplaceDeserializedAttributeWithVersionFromInstances`, base/serialize_attributes.go:115-122. -/
def replaceAttr (b : AttrBody) : List Attr → Res Attr
  | [] => Res.err
  | a :: as => if a.equals ⟨0, b⟩ then Res.ok a else replaceAttr b as

/-- The name of the entries of classifier `i`, meta/bagging.go:236-238 and 256. -/
def bagKey (pre : String) (i : Nat) : String := tarPrefix pre (tarPrefix "CLASSIFIERS" (Nat.repr i)) ++ "/"

/-- The loop over the classifiers, meta/bagging.go:255-261; `save c` is the method `SaveWithPrefix` of `c`. -/
def saveEach {M : Type} (save : M → Writer → String → Res Writer) (key : Nat → String) : List M → Nat → Writer → Res Writer
  | [], _, w => Res.ok w
  | c :: cs, i, w => (save c w (key i)).bind fun w => saveEach save key cs (i + 1) w

/-- The map of the selected attributes as JSON, meta/bagging.go:271-282: whole numbers are written as strings when they are keys,
and byte slices in base 64. -/
def selectedToJson (nilVals : Bool) (sel : GoMap Nat (List Attr)) : Json :=
  .obj (sel.map fun p => (Nat.repr p.1, .arr (p.2.map fun a => .base64 (attrToJson nilVals a.body))))

/-- `BaggedModel.SaveWithPrefix`, meta/bagging.go:232-289, also of `RandomForest` (ensemble/randomforest.go:85-87). -/
def saveBag {M : Type} (G : GridEnv) (nilVals : Bool) (save : M → Writer → String → Res Writer) (features : U64) (models : List M)
    (fitOn : Dense) (sel : GoMap Nat (List Attr)) (w : Writer) (pre : String) : Res Writer :=
  (w.write (tarPrefix pre "NUM_RANDOM_FEATURES") (.bytes (packU64 features))).bind fun w =>
    (w.write (tarPrefix pre "NUM_CLASSIFIERS") (.bytes (packU64 (BitVec.ofNat 64 models.length)))).bind fun w =>
      (saveEach save (bagKey pre) models 0 w).bind fun w =>
        (w.structure G nilVals (tarPrefix pre "REFERENCE_INSTANCES") fitOn).bind fun w =>
          w.write (tarPrefix pre "SELECTED_ATTRIBUTES") (.json (selectedToJson nilVals sel))

/-- A whole number used as a key of a JSON object. Signs are not modelled. -/
def natOfKey (s : String) : Option Nat :=
  if s.toList.all Char.isDigit && !s.toList.isEmpty then some (Nat.ofDigitChars 10 s.toList 0) else none

/-- Reading one attribute of the map of selected attributes, meta/bagging.go:337-345. -/
def selectedAttrOfJson (viaFloat : Int → Int) (fitOn : Dense) : Json → Res Attr
  | .base64 j => (deserializeAttr viaFloat j).bind fun b => replaceAttr b fitOn.allAttributes
  | _ => Res.err

/-- Reading one entry of the map of selected attributes, meta/bagging.go:335-348. -/
def selectedOfJson (viaFloat : Int → Int) (fitOn : Dense) (p : String × Json) : Res (Nat × List Attr) :=
  match natOfKey p.1, p.2 with
  | some k, .arr l => (mapRes (selectedAttrOfJson viaFloat fitOn) l).map fun as => (k, as)
  | some k, .null => Res.ok (k, [])
  | _, _ => Res.err

/-- A bagged model that has been loaded. -/
structure LoadedBag (μ : Type) where
  features : U64
  models : List μ
  fitOn : Dense
  selected : GoMap Nat (List Attr)

/-- `BaggedModel.LoadWithPrefix`, meta/bagging.go:292-350, into a bagged model with `count` classifiers; `load i` is the method
`LoadWithPrefix` of classifier `i`. The number of classifiers in the file is not looked at. -/
def loadBag {μ : Type} (G : GridEnv) (viaFloat : Int → Int) (load : Nat → Archive → String → Res μ) (count : Nat) (ar : Archive)
    (pre : String) : Res (LoadedBag μ) :=
  (getU64ForKey ar (tarPrefix pre "NUM_RANDOM_FEATURES")).bind fun features =>
    (mapRes (fun i => load i ar (bagKey pre i)) (List.range count)).bind fun ms =>
      (getInstancesForKey G viaFloat ar (tarPrefix pre "REFERENCE_INSTANCES")).bind fun fitOn =>
        (getNamedFile ar (tarPrefix pre "SELECTED_ATTRIBUTES")).bind fun
          | .json (.obj l) => (mapRes (selectedOfJson viaFloat fitOn) l).map fun sel => ⟨features, ms, fitOn, sel⟩
          | .json .null => Res.ok ⟨features, ms, fitOn, []⟩
          | _ => Res.err

/-- `BaggedModel.Save`, meta/bagging.go:204-212: the entries of the file. The error of `Close` is ignored. -/
def saveBagFile {M : Type} (G : GridEnv) (nilVals : Bool) (save : M → Writer → String → Res Writer) (features : U64) (models : List M)
    (fitOn : Dense) (sel : GoMap Nat (List Attr)) : Res Archive :=
  (saveBag G nilVals save features models fitOn sel (newWriter (metadataJson "BaggedModel" "1.0" .null)) "").map Writer.entries

/-- `BaggedModel.Load`, meta/bagging.go:214-223. -/
def loadBagFile {μ : Type} (G : GridEnv) (viaFloat : Int → Int) (load : Nat → Archive → String → Res μ) (count : Nat) (ar : Archive) :
    Res (LoadedBag μ) :=
  (readStub ar).bind fun ar => loadBag G viaFloat load count ar ""

/-- A tree of a random forest, with what is saved of it. -/
structure SavedTree where
  tree : Tree
  info : List String → LeafInfo
  cls : AttrBody

/-- `RandomForest.Save`, ensemble/randomforest.go:65-83: the entries of the file. -/
def saveForest (G : GridEnv) (S : SaveEnv) (features : U64) (trees : List SavedTree) (fitOn : Dense) (sel : GoMap Nat (List Attr)) :
    Res Archive :=
  (saveBag G S.nilVals (fun t => saveTree S t.info t.tree t.cls) features trees fitOn sel
    (newWriter (metadataJson "KNN" "1.0" .null)) "model").map Writer.entries

/-- `RandomForest.Load` and `LoadWithPrefix`, ensemble/randomforest.go:89-105, into a forest of size `count`. -/
def loadForest (G : GridEnv) (L : Nat → LoadEnv) (viaFloat : Int → Int) (count : Nat) (ar : Archive) :
    Res (LoadedBag (Tree × AttrBody)) :=
  (readStub ar).bind fun ar => loadBag G viaFloat (fun i => loadTree (L i)) count ar "model"

/-- A forest of trees as a bagged model; `e i` is what the predictions of tree `i` depend on. -/
def forestOf (e : Nat → PredEnv) (trees : List Tree) (sel : GoMap Nat (List Attr)) : Bagged :=
  ⟨trees.mapIdx fun i t g => (treePredict (e i) t g).map Grid.dense, sel⟩

end Golearn
