import Verif.Proofs.Formats
import Verif.Props.C98

/-!
# C113: a classifier is not loaded from the file of another kind of classifier
-/

namespace Golearn

section
variable {K μ ν : Type} [Field K] [LinearOrder K]

/-- The entry that `Load` of a kind of classifier looks for first (after the metadata). -/
private def firstKey : Kind → String
  | .knn => "METADATA"
  | .bayes | .oneVsAll => "INSTANCE_STRUCTUREMANIFEST"
  | .id3 | .randomTree => "tree"
  | .bagged => "NUM_RANDOM_FEATURES"
  | .forest => "model/NUM_RANDOM_FEATURES"
  | .svc => "PARAMETERS"
  | .multiSvc => "/params"

private theorem load_err (c : LoadCtx K μ ν) {k : Kind} {ar : Archive} (hs : readStub ar = Res.ok ar) (h : getNamedFile ar (firstKey k) = Res.err) :
    c.load k ar = Res.err := by
  have t0 : ∀ s, tarPrefix "" s = s := fun s => if_pos rfl
  have t1 : tarPrefix "model" "NUM_RANDOM_FEATURES" = "model/NUM_RANDOM_FEATURES" := by decide
  have t2 : ("" : String) ++ "/params" = "/params" := by decide
  have t3 : "INSTANCE_STRUCTURE" ++ "MANIFEST" = "INSTANCE_STRUCTUREMANIFEST" := by decide
  cases k <;> simp only [firstKey] at h <;>
    simp [LoadCtx.load, loadKnnFile, loadKnn, readMetadataAt, loadNBFile, loadNB, getInstancesForKey, deserializeInstances, loadTreeFile,
      loadTree, loadBagFile, loadBag, getU64ForKey, loadForest, loadSvcFile, loadSvc, getJsonForKey, loadOvaFile, loadOva, loadMultiFile,
      loadMulti, hs, t0, t1, t2, t3, h, Res.bind, Res.map]

/-- Both read the attributes of the training data first. -/
private theorem bayes_second (c : LoadCtx K μ ν) {ar : Archive} (hs : readStub ar = Res.ok ar)
    (h : getNamedFile ar "TRAINING_ATTRIBUTES/ATTR_COUNT" = Res.err) : c.load .bayes ar ≠ Res.ok () := by
  intro hl
  obtain ⟨x, hl, -⟩ := Res.map_eq_ok.1 hl
  rw [loadNBFile, hs, Res.bind_ok] at hl
  obtain ⟨d, -, hl⟩ := Res.bind_eq_ok.1 hl
  have t1 : tarPrefix (tarPrefix "" "TRAINING_ATTRIBUTES") "ATTR_COUNT" = "TRAINING_ATTRIBUTES/ATTR_COUNT" := by decide
  rw [getAttributesForKey, getU64ForKey, t1, h] at hl
  cases hl

private theorem ova_second (c : LoadCtx K μ ν) {ar : Archive} (hs : readStub ar = Res.ok ar)
    (h : getNamedFile ar "FILTER_COUNT" = Res.err) : c.load .oneVsAll ar ≠ Res.ok () := by
  intro hl
  obtain ⟨x, hl, -⟩ := Res.map_eq_ok.1 hl
  rw [loadOvaFile, hs, Res.bind_ok] at hl
  obtain ⟨d, -, hl⟩ := Res.bind_eq_ok.1 hl
  obtain ⟨f, -, hl⟩ := Res.bind_eq_ok.1 hl
  obtain ⟨e, -, hl⟩ := Res.bind_eq_ok.1 hl
  have t1 : tarPrefix "" "FILTER_COUNT" = "FILTER_COUNT" := by decide
  rw [getU64ForKey, t1, h] at hl
  cases hl

private theorem knn_name (c : LoadCtx K μ ν) {name version : String} {params : Json} {es : Archive} (h : name ≠ "KNN") :
    c.load .knn (classifierStub (metadataJson name version params) ++ es) = Res.err := by
  rw [LoadCtx.load, loadKnnFile, readStub_eq]
  simp [loadKnn, readMetadataAt, classifierStub, getNamedFile, tarPrefix, metadataJson,
    jsonStringField, Json.field, h, Res.bind, Res.map]

private theorem knn_null (c : LoadCtx K μ ν) {es : Archive} :
    c.load .knn (classifierStub (metadataJson "KNN" "1.0" .null) ++ es) = Res.panic := by
  rw [LoadCtx.load, loadKnnFile, readStub_eq]
  simp [loadKnn, readMetadataAt, classifierStub, getNamedFile, tarPrefix, metadataJson,
    jsonStringField, Json.field, assertString, Res.bind, Res.map]

/-- A k-nearest-neighbours classifier is the only one whose file names itself, and so do three others. -/
def kindsNamedKnn : List Kind := [.bayes, .randomTree, .forest]

/-- **C113 (partial: it can be a panic).** The file of a classifier is not loaded by a classifier of another kind. It is an error,
except that k nearest neighbours panics on the files of a naive Bayes classifier, a random tree and a random forest (`C113_panics`), and
that nothing is said of how a naive Bayes classifier and a one-vs-all model refuse each other's files. The two kinds of trees have one
format. -/
theorem C113_refused_partial (c : LoadCtx K μ ν) {k k' : Kind} {ar : Archive} (h : SavedBy k ar) (hk : k' ≠ k)
    (ht : ¬ (k ∈ [Kind.id3, .randomTree] ∧ k' ∈ [Kind.id3, .randomTree])) :
    c.load k' ar ≠ Res.ok () ∧
    (¬ (k' = .knn ∧ k ∈ kindsNamedKnn) → ¬ (k = .bayes ∧ k' = .oneVsAll) → ¬ (k = .oneVsAll ∧ k' = .bayes) → c.load k' ar = Res.err) := by
  obtain ⟨version, params, es, rfl, hc, hv⟩ := savedBy_layout h
  have hst := readStub_eq k.fileName version params es
  have key : (k' = .knn ∧ k ∈ kindsNamedKnn) ∨ (k = .bayes ∧ k' = .oneVsAll) ∨ (k = .oneVsAll ∧ k' = .bayes) ∨
      (k' = .knn ∧ k.fileName ≠ "KNN") ∨
      ((firstKey k' ≠ "CLS_MANIFEST" ∧ firstKey k' ≠ "METADATA") ∧ ∀ t ∈ k.names, ¬ t.toList <+: (firstKey k').toList) := by
    clear hst hc hv h
    cases k <;> cases k' <;> first
      | exact absurd rfl hk
      | exact absurd ⟨by decide, by decide⟩ ht
      | decide +kernel
  rcases key with ⟨rfl, hn⟩ | ⟨rfl, rfl⟩ | ⟨rfl, rfl⟩ | ⟨rfl, hn⟩ | hn
  · refine ⟨?_, fun h => absurd ⟨rfl, hn⟩ h⟩
    obtain ⟨rfl, rfl⟩ := hv hn
    have : k.fileName = "KNN" := by
      revert hn; cases k <;> decide
    rw [this, knn_null]
    simp
  · exact ⟨ova_second c hst (layout_absent hc (by decide +kernel)), fun _ h => absurd ⟨rfl, rfl⟩ h⟩
  · exact ⟨bayes_second c hst (layout_absent hc (by decide +kernel)), fun _ _ h => absurd ⟨rfl, rfl⟩ h⟩
  · have := knn_name c (version := version) (params := params) (es := es) hn
    exact ⟨by rw [this]; simp, fun _ _ _ => this⟩
  · have := load_err c hst (layout_absent hc hn)
    exact ⟨by rw [this]; simp, fun _ _ _ => this⟩

/-- k nearest neighbours panics on the files of a naive Bayes classifier, of a random tree and of a random forest: they are labelled as
files of k nearest neighbours, and have no parameters. -/
theorem C113_panics (c : LoadCtx K μ ν) {k : Kind} {ar : Archive} (h : SavedBy k ar) (hk : k = .bayes ∨ k = .randomTree ∨ k = .forest) :
    c.load .knn ar = Res.panic := by
  obtain ⟨version, params, es, rfl, hc, hv⟩ := savedBy_layout h
  obtain ⟨rfl, rfl⟩ := hv (by rcases hk with rfl | rfl | rfl <;> decide)
  have : k.fileName = "KNN" := by rcases hk with rfl | rfl | rfl <;> rfl
  rw [this]
  exact knn_null c

/-- An ID3 tree is loaded from the file of a random tree, and a random tree from the file of an ID3 tree: for the same tree the outcome
is the same as for its own file. -/
theorem C113_trees (S : SaveEnv) (L : LoadEnv) (info : List String → LeafInfo) (t : Tree) (cls : AttrBody) :
    (saveID3 S info t cls).bind (loadTreeFile L) = (saveRandomTree S info t cls).bind (loadTreeFile L) := by
  have key : ∀ name, ((saveTree S info t cls (newWriter (metadataJson name "1.0" .null)) "").map Writer.entries).bind (loadTreeFile L) =
      (treeToJson S info t []).bind fun j => loadTree L (treeEntries "" j S.nilVals cls) "" := by
    intro name
    unfold saveTree
    cases hj : treeToJson S info t [] with
    | err => rfl
    | panic => rfl
    | ok j =>
      have hm : tarPrefix "" "METADATA" ≠ tarPrefix "" "tree" := by decide
      have hm' : tarPrefix "" "METADATA" ≠ tarPrefix "" "treeClassAttr" := by decide
      have hc : ("CLS_MANIFEST" : String) ≠ tarPrefix "" "tree" := by decide
      have hc' : ("CLS_MANIFEST" : String) ≠ tarPrefix "" "treeClassAttr" := by decide
      have : (Res.ok (newWriter (metadataJson name "1.0" .null)).entries) = Res.ok (classifierStub (metadataJson name "1.0" .null)) := rfl
      simp only [Res.bind_ok, Writer.write, newWriter, writeForKey, Res.map_ok, Bool.false_eq_true, if_false]
      rw [List.append_assoc, loadTreeFile, readStub_eq, Res.bind_ok]
      simp [loadTree, treeEntries, classifierStub, getNamedFile, getAttributeForKey, hm, hm', hc, hc']
  rw [saveID3, saveRandomTree, key, key]
end

section Examples
private def aX : Attr := ⟨0, .float "x" 2⟩
private def aC : Attr := ⟨1, .cat "c" ["a", "b"]⟩
private def of (ops : List Op) : Dense :=
  match run 4096 ops with
  | .ok st => st.d
  | _ => Dense.new
private def dT : Dense := of [.add aX, .add aC, .addClass aC, .extend 2, .set 0 1 (packU64 5), .set 1 1 (packU64 1)]
private def dS : Dense := of [.add aX, .add aC, .addClass aC]
private def G0 : GridEnv := ⟨id, Grid.allClassAttributes, fun g => attrDifferenceRefs g.allAttributes g.allClassAttributes, 4096,
  fun i => 1000 + i, fun _ w => w⟩
private def S0 : SaveEnv := ⟨true, id, fun _ => true⟩
private def L0 : LoadEnv := ⟨id, fun _ => 0, fun p => 100 + p.length⟩
private def tree0 : Tree := .split [("a", 2), ("b", 3)] "b" ⟨aX, 5⟩ ["0", "1"] fun k => if k = "0" then .leaf [("a", 2)] "a" else .leaf [("b", 3)] "b"
private def info0 : List String → LeafInfo := fun _ => ⟨1, some none⟩
private def nb0 : NB Rat := ⟨[("a", [1])], [("a", 1)], 1, 1, [aX]⟩
private def E0 : SvcEnv Rat := ⟨fun x => BitVec.ofNat 64 x.num.toNat, fun u => u.toNat, fun _ => true, fun _ => [1#8], fun _ => Res.err, id⟩
private def svc0 : SvcModel Rat := ⟨some ⟨1, none, 1, 0, false, true⟩, some (1, ⟨1, 2, fun _ => 1, [1, 0], -1⟩)⟩
private def ova0 {M : Type} (ms : List M) : SavedOva M :=
  ⟨[⟨[(aX, aX), (aC, ⟨50, .float "c" 2⟩)], aC, 0#64⟩, ⟨[(aX, aX), (aC, ⟨51, .float "c" 2⟩)], aC, 1#64⟩], ms, ["a", "b"], dS⟩
private def st0 : SavedTree := ⟨tree0, info0, aC.body⟩
private def multi0 : MultiSvc Rat := ⟨svc0.params, some [("a", 2)], ova0 [svc0, svc0]⟩

/-- The file of each kind of classifier, for small classifiers. -/
private def file : Kind → Res Archive
  | .knn => saveKnnFile G0 true [0, 1] (KnnModel.new "euclidean" "linear" 1 (.dense dT))
  | .bayes => saveNBFile G0 true (fun _ => 1#64) (fun _ => true) nb0 dS
  | .id3 => saveID3 S0 info0 tree0 aC.body
  | .randomTree => saveRandomTree S0 info0 tree0 aC.body
  | .bagged => saveBagFile G0 true (fun t : SavedTree => saveTree S0 t.info t.tree t.cls) 3 [st0, st0] dS [(0, [aX, aC])]
  | .forest => saveForest G0 S0 3 [st0, st0] dS [(0, [aX, aC])]
  | .svc => saveSvcFile E0 svc0
  | .oneVsAll => saveOvaFile G0 true OvaFilter.attrs (saveSvc E0) (ova0 [svc0, svc0])
  | .multiSvc => saveMultiFile G0 true OvaFilter.attrs E0 multi0

private theorem file_saved {k : Kind} {ar : Archive} (h : file k = Res.ok ar) : SavedBy k ar := by
  cases k
  · exact .knn h
  · exact .bayes h
  · exact .id3 h
  · exact .randomTree h
  · exact .bagged (saveTree_keeps S0) h
  · exact .forest h
  · exact .svc h
  · exact .oneVsAll (saveSvc_keeps E0) h
  · exact .multiSvc h

/-- What everything is loaded with. -/
private def ctx0 : LoadCtx Rat (Tree × AttrBody) (SvcModel Rat) :=
  ⟨G0, id, fun _ => 1, L0, fun _ => L0, 2, fun _ => loadTree L0, { E0 with parse := fun _ => saveModelText 1 ⟨1, 2, fun _ => 1, [1, 0], -1⟩ },
    fun _ => Res.ok (), fun _ => loadSvc { E0 with parse := fun _ => saveModelText 1 ⟨1, 2, fun _ => 1, [1, 0], -1⟩ },
    fun i j => 2000 + 10 * i + j, fun _ => 60, fun _ l => l, none⟩

private def code : Res Unit → Nat
  | .ok _ => 0
  | .err => 1
  | .panic => 2

/-- There are files of all kinds, and each can be loaded by its own kind. The rows are the files (k nearest neighbours, naive Bayes, ID3,
random tree, bagged trees, random forest, linear SVC, one-vs-all, multi-class linear SVC), the columns what they are loaded into; 0 is
success, 1 an error and 2 a panic. -/
theorem C113_witness :
    (let ks := [Kind.knn, .bayes, .id3, .randomTree, .bagged, .forest, .svc, .oneVsAll, .multiSvc]
     ks.map fun k => ks.map fun k' => code ((file k).bind fun ar => ctx0.load k' ar)) =
    [[0, 1, 1, 1, 1, 1, 1, 1, 1],
     [2, 0, 1, 1, 1, 1, 1, 1, 1],
     [1, 1, 0, 0, 1, 1, 1, 1, 1],
     [2, 1, 0, 0, 1, 1, 1, 1, 1],
     [1, 1, 1, 1, 0, 1, 1, 1, 1],
     [2, 1, 1, 1, 1, 0, 1, 1, 1],
     [1, 1, 1, 1, 1, 1, 0, 1, 1],
     [1, 1, 1, 1, 1, 1, 1, 0, 1],
     [1, 1, 1, 1, 1, 1, 1, 1, 0]] ∧
    ∀ k, ∃ ar, SavedBy k ar := by
  refine ⟨by decide +kernel, fun k => ?_⟩
  have h : ∃ ar, file k = Res.ok ar := by
    have : (file k).isOk = true := by cases k <;> decide +kernel
    cases hf : file k with
    | ok ar => exact ⟨ar, rfl⟩
    | err => rw [hf] at this; cases this
    | panic => rw [hf] at this; cases this
  obtain ⟨ar, h⟩ := h
  exact ⟨ar, file_saved h⟩

/-- The full property: a file of another kind is an error. -/
def OtherKindsAreErrors : Prop :=
  ∀ (c : LoadCtx Rat (Tree × AttrBody) (SvcModel Rat)) (k k' : Kind) (ar : Archive), SavedBy k ar → k' ≠ k → c.load k' ar = Res.err

/-- It is false of the code: k nearest neighbours panics on the file of a random forest. -/
theorem C113_refuted : ¬ OtherKindsAreErrors := by
  intro h
  obtain ⟨ar, ha⟩ := C113_witness.2 .forest
  have h1 := h ctx0 .forest .knn ar ha (by decide)
  rw [C113_panics ctx0 ha (.inr (.inr rfl))] at h1
  cases h1
end Examples

end Golearn
