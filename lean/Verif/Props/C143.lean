import Verif.Spec.Reload
import Verif.Props.C140

/-! # C143: loading into a classifier that is in use -/

namespace Golearn

private theorem void_ok {α : Type} {r : Res α} : r.void = Res.ok () ↔ ∃ a, r = Res.ok a := by
  cases r <;> simp [Res.void, Res.map, Res.bind]

private theorem file_replaces {σ : Type} {reload : σ → Archive → After σ} (h : Replaces reload) : Replaces (reloadFile reload) := by
  intro old old' ar hr
  unfold reloadFile at hr ⊢
  cases hs : readStub ar with
  | ok a => rw [hs] at hr; exact h old old' a hr
  | err => rw [hs] at hr; exact absurd hr (by simp [Res.void, Res.map, Res.bind])
  | panic => rw [hs] at hr; exact absurd hr (by simp [Res.void, Res.map, Res.bind])

private theorem file_keeps {σ : Type} {reload : σ → Archive → After σ} (h : KeepsOnError reload) : KeepsOnError (reloadFile reload) := by
  intro old ar hr
  unfold reloadFile at hr ⊢
  cases hs : readStub ar with
  | ok a => rw [hs] at hr; exact h old a hr
  | err => rfl
  | panic => rfl

/-- A file that is not a model file at all leaves every classifier as it was. -/
theorem C143_not_a_model {σ : Type} (reload : σ → Archive → After σ) (old : σ) (ar : Archive) (h : ∀ a, readStub ar ≠ Res.ok a) :
    (reloadFile reload old ar).1 = old ∧ (reloadFile reload old ar).2 ≠ Res.ok () := by
  unfold reloadFile
  cases hs : readStub ar with
  | ok a => exact absurd hs (h a)
  | err => exact ⟨rfl, by simp [Res.void, Res.map, Res.bind]⟩
  | panic => exact ⟨rfl, by simp [Res.void, Res.map, Res.bind]⟩

/-! ## Naive Bayes classifiers -/

/-- Both hold: a naive Bayes classifier is replaced, or is as it was. -/
theorem C143_naive_bayes {K : Type} (G : GridEnv) (viaFloat : Int → Int) (val : U64 → K) :
    KeepsOnError (reloadFile (reloadNB G viaFloat val "")) ∧ Replaces (reloadFile (reloadNB G viaFloat val "")) ∧
      ∀ old ar, (reloadFile (reloadNB G viaFloat val "") old ar).2 = (loadNBFile G viaFloat val ar).void ∧
        ∀ m, loadNBFile G viaFloat val ar = Res.ok m → (reloadFile (reloadNB G viaFloat val "") old ar).1 = m := by
  refine ⟨file_keeps ?_, file_replaces ?_, ?_⟩
  · intro old ar h
    unfold reloadNB at h ⊢
    cases hl : loadNB G viaFloat val ar "" <;> simp [hl] at h ⊢
  · intro old old' ar h
    unfold reloadNB at h ⊢
    cases hl : loadNB G viaFloat val ar "" <;> simp [hl, Res.void, Res.map, Res.bind] at h ⊢
  · intro old ar
    unfold reloadFile loadNBFile reloadNB
    cases hs : readStub ar with
    | ok a => cases hl : loadNB G viaFloat val a "" <;> simp [hl, Res.void, Res.map, Res.bind]
    | err => simp [Res.void, Res.map, Res.bind]
    | panic => simp [Res.void, Res.map, Res.bind]

/-! ## Decision trees and random trees -/

/-- What loading gives: the outcome, and on success the tree, of the file; whatever was there before. -/
theorem C143_tree (L : LoadEnv) (junk : Json → Tree) : Replaces (reloadFile (reloadTree L junk "")) ∧
    ∀ old ar, (reloadFile (reloadTree L junk "") old ar).2 = (loadTreeFile L ar).void ∧
      ∀ m, loadTreeFile L ar = Res.ok m → (reloadFile (reloadTree L junk "") old ar).1 = some ⟨m.1, some m.2⟩ := by
  refine ⟨file_replaces fun _ _ _ _ => rfl, ?_⟩
  intro old ar
  unfold reloadFile loadTreeFile reloadTree loadTree
  cases hs : readStub ar with
  | err => simp [Res.void, Res.map, Res.bind]
  | panic => simp [Res.void, Res.map, Res.bind]
  | ok a =>
    simp only [Res.bind_ok]
    cases hf : getNamedFile a (tarPrefix "" "tree") with
    | err => simp [Res.void, Res.map, Res.bind]
    | panic => simp [Res.void, Res.map, Res.bind]
    | ok p =>
      cases p with
      | bytes b => simp [Res.void, Res.map, Res.bind]
      | json j =>
        simp only [Res.bind_ok]
        cases ht : treeOfJson L (j.depth + 1) [] j with
        | err => simp [Res.void, Res.map, Res.bind]
        | panic => simp [Res.void, Res.map, Res.bind]
        | ok t =>
          simp only [Res.bind_ok]
          cases ha : getAttributeForKey L.viaFloat a (tarPrefix "" "treeClassAttr") <;> simp [Res.void, Res.map, Res.bind]

/-- A failure forgets the tree that was there, whatever it was, as soon as the file is a model file. -/
theorem C143_tree_forgets (L : LoadEnv) (junk : Json → Tree) (old old' : Option RootNode) (ar ar' : Archive) (h : readStub ar = Res.ok ar') :
    reloadFile (reloadTree L junk "") old ar = reloadFile (reloadTree L junk "") old' ar := by
  unfold reloadFile
  rw [h]
  rfl

/-- For instance when the file is that of a nearest neighbours classifier: loading is an error, and from then on the tree says the empty text for every
row of every table. -/
theorem C143_tree_wrong_file (L : LoadEnv) (junk : Json → Tree) (G : GridEnv) (nilVals : Bool) (order : List Nat) (m : KnnModel)
    (full : Archive) (hs : saveKnnFile G nilVals order m = Res.ok full) (old : Option RootNode) :
    (reloadFile (reloadTree L junk "") old full).2 = Res.err ∧
      ∃ t, (reloadFile (reloadTree L junk "") old full).1 = some ⟨t, none⟩ ∧
        ∀ fo g ord row, treeClass fo g ord row t = Res.ok "" := by
  obtain ⟨w, hw, rfl⟩ := Res.map_eq_ok.1 hs
  obtain ⟨es, he, hp⟩ : ∃ es, w.entries = classifierStub (metadataJson "KNN" "1.0" (knnParams m)) ++ es ∧ ∀ e ∈ es, e.1 ≠ "tree" := by
    unfold saveKnn at hw
    split at hw
    · cases hw
    · obtain ⟨es, h1, h2⟩ := Res.bind_eq_ok.1 hw
      unfold Writer.close at h2
      split at h2
      · cases h2
      · cases h2
        refine ⟨es, rfl, fun x hx e => ?_⟩
        obtain ⟨s, _, e'⟩ := (serialize_entries h1).1 x hx
        rw [e, show tarPrefix "" "TrainingInstances" = "TrainingInstances" from rfl] at e'
        have := congrArg (fun s : String => s.toList.take 4) e'
        rw [tag_append _ _ _ (by decide)] at this
        exact absurd this (by decide)
  have hstub : readStub w.entries = Res.ok w.entries := by rw [he]; exact readStub_eq _ _ _ _
  have htree : getNamedFile w.entries "tree" = Res.err := by
    apply named_err
    rw [he]
    intro e hx
    rcases List.mem_append.1 hx with hx | hx
    · simp only [classifierStub, List.mem_cons, List.not_mem_nil, or_false] at hx
      rcases hx with rfl | rfl
      · show "CLS_MANIFEST" ≠ "tree"; decide
      · show "METADATA" ≠ "tree"; decide
    · exact hp e hx
  unfold reloadFile
  rw [hstub]
  unfold reloadTree
  simp only [show tarPrefix "" "tree" = "tree" from rfl, htree]
  exact ⟨rfl, _, rfl, fun _ _ _ _ => rfl⟩

/-- So an error does not leave the tree as it was. -/
theorem C143_tree_not_kept (L : LoadEnv) (junk : Json → Tree) : ¬ KeepsOnError (reloadFile (reloadTree L junk "")) := by
  intro h
  have hs : readStub (classifierStub (metadataJson "ID3" "1.0" .null)) = Res.ok (classifierStub (metadataJson "ID3" "1.0" .null)) := by
    have := readStub_eq "ID3" "1.0" .null []
    simpa using this
  have h1 := h none (classifierStub (metadataJson "ID3" "1.0" .null))
  unfold reloadFile at h1
  rw [hs] at h1
  have ht : getNamedFile (classifierStub (metadataJson "ID3" "1.0" .null)) (tarPrefix "" "tree") = Res.err := by
    simp [classifierStub, getNamedFile, tarPrefix]
  unfold reloadTree at h1
  dsimp only at h1
  rw [ht] at h1
  have := h1 (by simp [Res.void, Res.map, Res.bind])
  cases this

/-! ## Nearest neighbours classifiers -/

private theorem assign_spec (viaFloat : Int → Int) (param : String → Option Json) (s : KnnHolder) :
    (knnAssign viaFloat param s).2 = ((assertString (param "distance_func")).bind fun _ => (assertString (param "algorithm")).bind fun _ =>
      (assertBool (param "weighted")).bind fun _ => (assertBool (param "allow_optimizations")).bind fun _ =>
        (assertInt viaFloat (param "neighbours")).void) ∧
    ∀ a b c d e, assertString (param "distance_func") = Res.ok a → assertString (param "algorithm") = Res.ok b →
      assertBool (param "weighted") = Res.ok c → assertBool (param "allow_optimizations") = Res.ok d →
      assertInt viaFloat (param "neighbours") = Res.ok e → (knnAssign viaFloat param s).1 = ⟨a, b, e, c, d, s.train⟩ := by
  constructor
  · unfold knnAssign
    cases h1 : assertString (param "distance_func") <;> simp [Res.void, Res.map, Res.bind]
    cases h2 : assertString (param "algorithm") <;> simp
    cases h3 : assertBool (param "weighted") <;> simp
    cases h4 : assertBool (param "allow_optimizations") <;> simp
    cases h5 : assertInt viaFloat (param "neighbours") <;> simp
  · intro a b c d e h1 h2 h3 h4 h5
    unfold knnAssign
    simp only [h1, h2, h3, h4, h5]

/-- What loading gives: the outcome, and on success the classifier, of the file; whatever was there before. -/
theorem C143_knn (G : GridEnv) (viaFloat : Int → Int) : Replaces (reloadFile (reloadKnn G viaFloat "")) ∧
    ∀ old ar, (reloadFile (reloadKnn G viaFloat "") old ar).2 = (loadKnnFile G viaFloat ar).void ∧
      ∀ m, loadKnnFile G viaFloat ar = Res.ok m → (reloadFile (reloadKnn G viaFloat "") old ar).1 = m.holder := by
  have key : ∀ old ar, (reloadFile (reloadKnn G viaFloat "") old ar).2 = (loadKnnFile G viaFloat ar).void ∧
      ∀ m, loadKnnFile G viaFloat ar = Res.ok m → (reloadFile (reloadKnn G viaFloat "") old ar).1 = m.holder := by
    intro old ar
    unfold reloadFile loadKnnFile
    cases hs : readStub ar with
    | err => simp [Res.void, Res.map, Res.bind]
    | panic => simp [Res.void, Res.map, Res.bind]
    | ok a =>
      simp only [Res.bind_ok]
      unfold reloadKnn loadKnn
      cases hj : readMetadataAt a "" with
      | err => simp [Res.void, Res.map, Res.bind]
      | panic => simp [Res.void, Res.map, Res.bind]
      | ok j =>
        simp only [Res.bind_ok]
        cases hn : jsonStringField j "classifier" with
        | err => simp [Res.void, Res.map, Res.bind]
        | panic => simp [Res.void, Res.map, Res.bind]
        | ok name =>
          simp only [Res.bind_ok]
          cases hv : jsonStringField j "ClassifierVersion" with
          | err => simp [Res.void, Res.map, Res.bind]
          | panic => simp [Res.void, Res.map, Res.bind]
          | ok version =>
            simp only [Res.bind_ok]
            by_cases h1 : name ≠ "KNN"
            · rw [if_pos h1, if_pos h1]; simp [Res.void, Res.map, Res.bind]
            rw [if_neg h1, if_neg h1]
            by_cases h2 : version ≠ "1.0"
            · rw [if_pos h2, if_pos h2]; simp [Res.void, Res.map, Res.bind]
            rw [if_neg h2, if_neg h2]
            simp only
            obtain ⟨s1, s2⟩ := assign_spec viaFloat (fun k => (j.field "classifier_metadata").bind fun p => p.field k) old
            generalize knnAssign viaFloat (fun k => (j.field "classifier_metadata").bind fun p => p.field k) old = r at s1 s2 ⊢
            obtain ⟨st, out⟩ := r
            simp only at s1 s2 ⊢
            cases e1 : assertString ((j.field "classifier_metadata").bind fun p => p.field "distance_func") with
            | err => rw [e1] at s1; subst s1; simp [Res.void, Res.map, Res.bind]
            | panic => rw [e1] at s1; subst s1; simp [Res.void, Res.map, Res.bind]
            | ok x1 =>
            rw [e1, Res.bind_ok] at s1
            cases e2 : assertString ((j.field "classifier_metadata").bind fun p => p.field "algorithm") with
            | err => rw [e2] at s1; subst s1; simp [Res.void, Res.map, Res.bind]
            | panic => rw [e2] at s1; subst s1; simp [Res.void, Res.map, Res.bind]
            | ok x2 =>
            rw [e2, Res.bind_ok] at s1
            cases e3 : assertBool ((j.field "classifier_metadata").bind fun p => p.field "weighted") with
            | err => rw [e3] at s1; subst s1; simp [Res.void, Res.map, Res.bind]
            | panic => rw [e3] at s1; subst s1; simp [Res.void, Res.map, Res.bind]
            | ok x3 =>
            rw [e3, Res.bind_ok] at s1
            cases e4 : assertBool ((j.field "classifier_metadata").bind fun p => p.field "allow_optimizations") with
            | err => rw [e4] at s1; subst s1; simp [Res.void, Res.map, Res.bind]
            | panic => rw [e4] at s1; subst s1; simp [Res.void, Res.map, Res.bind]
            | ok x4 =>
            rw [e4, Res.bind_ok] at s1
            cases e5 : assertInt viaFloat ((j.field "classifier_metadata").bind fun p => p.field "neighbours") with
            | err => rw [e5] at s1; subst s1; simp [Res.void, Res.map, Res.bind]
            | panic => rw [e5] at s1; subst s1; simp [Res.void, Res.map, Res.bind]
            | ok x5 =>
            rw [e5] at s1
            have s3 := s2 _ _ _ _ _ e1 e2 e3 e4 e5
            subst s1 s3
            simp only [Res.bind_ok, Res.void, Res.map_ok]
            cases hd : getInstancesForKey G viaFloat a (tarPrefix "" "TrainingInstances") with
            | err => simp [Res.map, Res.bind]
            | panic => simp [Res.map, Res.bind]
            | ok d =>
              simp only [Res.map_ok, true_and, Res.ok.injEq]
              rintro _ rfl
              rfl
  refine ⟨?_, key⟩
  intro old old' ar h
  obtain ⟨m, hm⟩ := void_ok.1 ((key old ar).1 ▸ h)
  refine Prod.ext ?_ ?_
  · rw [(key old ar).2 m hm, (key old' ar).2 m hm]
  · rw [(key old ar).1, (key old' ar).1]

private theorem knn_meta (params : Json) (rest : Archive) :
    ((readMetadataAt (classifierStub (metadataJson "KNN" "1.0" params) ++ rest) "").bind fun j =>
      (jsonStringField j "classifier").bind fun name => (jsonStringField j "ClassifierVersion").bind fun version =>
        if name ≠ "KNN" then Res.err else if version ≠ "1.0" then Res.err else Res.ok j) = Res.ok (metadataJson "KNN" "1.0" params) := by
  simp [readMetadataAt, classifierStub, getNamedFile, tarPrefix, metadataJson, jsonStringField, Json.field]

private theorem field_meta (params : Json) : (metadataJson "KNN" "1.0" params).field "classifier_metadata" = some params := by
  simp [metadataJson, Json.field]

/-- If the parameters can be read but not the training data, as when the file ends early, loading is an error, the parameters are those of the file
and the training data is gone, whatever the classifier was. -/
theorem C143_knn_lost (G : GridEnv) (viaFloat : Int → Int) (m : KnnModel) (rest : Archive)
    (h : getInstancesForKey G viaFloat (classifierStub (metadataJson "KNN" "1.0" (knnParams m)) ++ rest) "TrainingInstances" = Res.err)
    (old : KnnHolder) :
    reloadFile (reloadKnn G viaFloat "") old (classifierStub (metadataJson "KNN" "1.0" (knnParams m)) ++ rest) =
      (⟨m.distance, m.algorithm, (viaFloat m.neighbours).toNat, m.weighted, m.allowOpt, none⟩, Res.err) := by
  unfold reloadFile
  rw [readStub_eq]
  unfold reloadKnn
  simp only [knn_meta, show tarPrefix "" "TrainingInstances" = "TrainingInstances" from rfl, h, field_meta]
  rfl

/-- The file of a random tree, a random forest or a naive Bayes classifier says that it is that of a nearest neighbours classifier, without parameters.
Loading it is a panic, not an error. -/
theorem C143_knn_wrong_file (G : GridEnv) (viaFloat : Int → Int) (rest : Archive) (old : KnnHolder) :
    reloadFile (reloadKnn G viaFloat "") old (classifierStub (metadataJson "KNN" "1.0" .null) ++ rest) = (old, Res.panic) := by
  unfold reloadFile
  rw [readStub_eq]
  unfold reloadKnn
  simp only [knn_meta, field_meta]
  rfl

/-- In particular after saving one of those. -/
theorem C143_knn_other_models {K : Type} (G G' : GridEnv) (viaFloat : Int → Int) (S : SaveEnv) (old : KnnHolder) (full : Archive)
    (h : (∃ info t cls, saveRandomTree S info t cls = Res.ok full) ∨
      (∃ features trees fitOn sel, saveForest G' S features trees fitOn sel = Res.ok full) ∨
      ∃ nilVals num fin, ∃ nb : NB K, ∃ fitOn, saveNBFile G' nilVals num fin nb fitOn = Res.ok full) :
    reloadFile (reloadKnn G viaFloat "") old full = (old, Res.panic) := by
  suffices ∃ rest, full = classifierStub (metadataJson "KNN" "1.0" .null) ++ rest by
    obtain ⟨rest, rfl⟩ := this
    exact C143_knn_wrong_file G viaFloat rest old
  rcases h with ⟨info, t, cls, h⟩ | ⟨features, trees, fitOn, sel, h⟩ | ⟨nilVals, num, fin, nb, fitOn, h⟩
  · obtain ⟨w, hw, rfl⟩ := Res.map_eq_ok.1 h
    obtain ⟨es, he, _⟩ := appends_tree (P := fun _ => True) S info t cls "" (fun _ => trivial) _ _ hw
    exact ⟨es, he⟩
  · obtain ⟨w, hw, rfl⟩ := Res.map_eq_ok.1 h
    obtain ⟨es, he, _⟩ := appends_bag (P := fun _ => True) G' S.nilVals (fun t => saveTree S t.info t.tree t.cls) features trees fitOn sel "model"
      (fun _ => trivial) (fun m _ i => appends_tree (P := fun _ => True) S m.info m.tree m.cls _ fun _ => trivial) _ _ hw
    exact ⟨es, he⟩
  · obtain ⟨w, hw, rfl⟩ := Res.map_eq_ok.1 h
    obtain ⟨es, he, _⟩ := appends_nb (P := fun _ => True) G' nilVals num fin nb fitOn "" (fun _ => trivial) _ _ hw
    exact ⟨es, he⟩

/-- So an error does not leave the classifier as it was. -/
theorem C143_knn_not_kept (G : GridEnv) (viaFloat : Int → Int) : ¬ KeepsOnError (reloadFile (reloadKnn G viaFloat "")) := by
  intro h
  have hl := fun old => C143_knn_lost G viaFloat (KnnModel.new "euclidean" "linear" 1 (.dense Dense.new)) [] (by
    unfold getInstancesForKey deserializeInstances
    rw [named_err]
    · rfl
    · intro e he
      simp only [classifierStub, List.append_nil, List.mem_cons, List.not_mem_nil, or_false] at he
      rcases he with rfl | rfl
      · show "CLS_MANIFEST" ≠ "TrainingInstances" ++ "MANIFEST"; decide
      · show "METADATA" ≠ "TrainingInstances" ++ "MANIFEST"; decide) old
  have h1 := h ⟨"", "", 0, false, false, none⟩ _ (by rw [hl]; simp)
  rw [hl] at h1
  exact absurd (congrArg KnnHolder.distance h1) (by show "euclidean" ≠ ""; decide)

/-! ## Linear support vector classifiers -/

section
variable {K : Type} [Field K] [LinearOrder K]

/-- What loading gives: the outcome, and on success the classifier, of the file; whatever was there before. -/
theorem C143_svc (E : SvcEnv K) (junk : Option (SvcParams K) → Json → Option (SvcParams K)) : Replaces (reloadFile (reloadSvc E junk "")) ∧
    ∀ old ar, (reloadFile (reloadSvc E junk "") old ar).2 = (loadSvcFile E ar).void ∧
      ∀ m, loadSvcFile E ar = Res.ok m → (reloadFile (reloadSvc E junk "") old ar).1 = m := by
  have key : ∀ old ar, (reloadFile (reloadSvc E junk "") old ar).2 = (loadSvcFile E ar).void ∧
      ∀ m, loadSvcFile E ar = Res.ok m → (reloadFile (reloadSvc E junk "") old ar).1 = m := by
    intro old ar
    unfold reloadFile loadSvcFile
    cases hs : readStub ar with
    | err => simp [Res.void, Res.map, Res.bind]
    | panic => simp [Res.void, Res.map, Res.bind]
    | ok a =>
      simp only [Res.bind_ok]
      unfold reloadSvc loadSvc
      cases hj : getJsonForKey a (tarPrefix "" "PARAMETERS") with
      | err => simp [Res.void, Res.map, Res.bind]
      | panic => simp [Res.void, Res.map, Res.bind]
      | ok j =>
        simp only [Res.bind_ok]
        cases hp : svcParamsOfJson E j with
        | err => simp [Res.void, Res.map, Res.bind]
        | panic => simp [Res.void, Res.map, Res.bind]
        | ok ps =>
          simp only [Res.bind_ok]
          cases hn : getNamedFile a (tarPrefix "" "MODEL") with
          | err => simp [Res.void, Res.map, Res.bind]
          | panic => simp [Res.void, Res.map, Res.bind]
          | ok p =>
            cases p with
            | json j => simp [Res.void, Res.map, Res.bind]
            | bytes b =>
              simp only [Res.bind_ok]
              cases ht : E.parse b with
              | err => simp [Res.void, Res.map, Res.bind]
              | panic => simp [Res.void, Res.map, Res.bind]
              | ok ts =>
                simp only [Res.bind_ok]
                cases hl : loadModelText E.rnd ts <;> simp [Res.void, Res.map, Res.bind]
  refine ⟨?_, key⟩
  intro old old' ar h
  obtain ⟨m, hm⟩ := void_ok.1 ((key old ar).1 ▸ h)
  refine Prod.ext ?_ ?_
  · rw [(key old ar).2 m hm, (key old' ar).2 m hm]
  · rw [(key old ar).1, (key old' ar).1]

/-- If the parameters can be read and there is no model in the file, loading is an error, and the classifier has the parameters of the file and
its old model. -/
theorem C143_svc_mixed (E : SvcEnv K) (junk : Option (SvcParams K) → Json → Option (SvcParams K)) (old : SvcModel K) (ar : Archive) (j : Json)
    (params : Option (SvcParams K)) (hs : readStub ar = Res.ok ar) (hj : getJsonForKey ar "PARAMETERS" = Res.ok j)
    (hp : svcParamsOfJson E j = Res.ok params) (hm : ∀ e ∈ ar, e.1 ≠ "MODEL") :
    reloadFile (reloadSvc E junk "") old ar = (⟨params, old.model⟩, Res.err) := by
  unfold reloadFile
  rw [hs]
  unfold reloadSvc
  simp only [show tarPrefix "" "PARAMETERS" = "PARAMETERS" from rfl, show tarPrefix "" "MODEL" = "MODEL" from rfl, hj, hp, named_err hm]
  rfl

/-- If there is something for a model that cannot be read, the old model is gone as well. -/
theorem C143_svc_lost (E : SvcEnv K) (junk : Option (SvcParams K) → Json → Option (SvcParams K)) (old : SvcModel K) (ar : Archive) (j : Json)
    (params : Option (SvcParams K)) (b : List Nat) (hs : readStub ar = Res.ok ar) (hj : getJsonForKey ar "PARAMETERS" = Res.ok j)
    (hp : svcParamsOfJson E j = Res.ok params) (hm : getNamedFile ar "MODEL" = Res.ok (.bytes b))
    (ht : (E.parse b).bind (loadModelText E.rnd) = Res.err) :
    reloadFile (reloadSvc E junk "") old ar = (⟨params, none⟩, Res.err) := by
  unfold reloadFile
  rw [hs]
  unfold reloadSvc
  simp only [show tarPrefix "" "PARAMETERS" = "PARAMETERS" from rfl, show tarPrefix "" "MODEL" = "MODEL" from rfl, hj, hp, hm, ht]
  rfl

/-- So an error does not leave the classifier as it was. -/
theorem C143_svc_not_kept (E : SvcEnv K) (junk : Option (SvcParams K) → Json → Option (SvcParams K)) :
    ¬ KeepsOnError (reloadFile (reloadSvc E junk "")) := by
  intro h
  have hm := fun old : SvcModel K => C143_svc_mixed E junk old
    (classifierStub (metadataJson "LinearSVC" "1.0" .null) ++ [("PARAMETERS", .json .null)]) .null none (readStub_eq _ _ _ _)
    (by simp [getJsonForKey, getNamedFile, classifierStub, tarPrefix]) rfl (by
      intro e he
      simp only [classifierStub, List.cons_append, List.nil_append, List.mem_cons, List.not_mem_nil, or_false] at he
      rcases he with rfl | rfl | rfl
      · show "CLS_MANIFEST" ≠ "MODEL"; decide
      · show "METADATA" ≠ "MODEL"; decide
      · show "PARAMETERS" ≠ "MODEL"; decide)
  have h1 := h ⟨some ⟨0, none, 0, 0, false, false⟩, none⟩ _ (by rw [hm]; simp)
  rw [hm] at h1
  exact absurd (congrArg SvcModel.params h1) (by simp)

end

/-! ## Bagged models and random forests -/

private theorem each_mixed {μ : Type} (reload : Nat → μ → After μ) (before after : List μ) (m : μ) (k : Nat)
    (hb : ∀ i m', before[i]? = some m' → (reload (k + i) m').2 = Res.ok ()) (he : (reload (k + before.length) m).2 ≠ Res.ok ()) :
    reloadEach reload k (before ++ m :: after) =
      (((before.zipIdx k).map fun p => (reload p.2 p.1).1) ++ (reload (k + before.length) m).1 :: after, (reload (k + before.length) m).2) := by
  induction before generalizing k with
  | nil =>
    simp only [List.nil_append, List.length_nil, Nat.add_zero, List.zipIdx_nil, List.map_nil] at he ⊢
    rw [reloadEach]
    rcases hr : reload k m with ⟨m', r⟩
    rw [hr] at he
    cases r with
    | ok u => exact absurd rfl he
    | err => rfl
    | panic => rfl
  | cons x xs ih =>
    have h0 := hb 0 x rfl
    have ih := ih (k + 1) (fun i m' h => by have := hb (i + 1) m' (by simpa using h); rwa [show k + 1 + i = k + (i + 1) by omega])
      (by rw [show k + 1 + xs.length = k + (x :: xs).length by simp; omega]; exact he)
    rw [List.cons_append, reloadEach]
    rcases hr : reload k x with ⟨m', r⟩
    rw [Nat.add_zero, hr] at h0
    simp only at h0
    subst h0
    simp only [ih, List.zipIdx_cons, List.map_cons, hr, List.cons_append]
    rw [show k + 1 + xs.length = k + (x :: xs).length by simp; omega]

private theorem each_load {μ : Type} (reload : Nat → μ → After μ) (load : Nat → Res μ)
    (hl : ∀ i m, (reload i m).2 = (load i).void ∧ ∀ m', load i = Res.ok m' → (reload i m).1 = m') (ms : List μ) (k : Nat) :
    (reloadEach reload k ms).2 = (mapRes load (List.range' k ms.length)).void ∧
      ∀ out, mapRes load (List.range' k ms.length) = Res.ok out → (reloadEach reload k ms).1 = out := by
  induction ms generalizing k with
  | nil => simp [reloadEach, mapRes, Res.void]
  | cons m ms ih =>
    obtain ⟨i1, i2⟩ := ih (k + 1)
    obtain ⟨l1, l2⟩ := hl k m
    rw [List.length_cons, List.range'_succ, mapRes, reloadEach]
    rcases hr : reload k m with ⟨m', r⟩
    rw [hr] at l1 l2
    simp only at l1 l2
    subst l1
    cases hk : load k with
    | err => simp [Res.void, Res.map, Res.bind]
    | panic => simp [Res.void, Res.map, Res.bind]
    | ok m'' =>
      have := l2 m'' hk
      subst this
      simp only [Res.void, Res.map_ok, Res.bind_ok] at i1 ⊢
      rw [i1]
      cases ho : mapRes load (List.range' (k + 1) ms.length) with
      | err => simp [Res.map, Res.bind]
      | panic => simp [Res.map, Res.bind]
      | ok out => simp [i2 out ho]

/-- If classifier `i` cannot be loaded, loading gives its error. The classifiers before it are those of the file, those after it the old ones, and
the attributes selected for them are the old ones. -/
theorem C143_bag_mixed {μ : Type} (G : GridEnv) (viaFloat : Int → Int) (reload : Nat → String → μ → Archive → After μ)
    (partly : GoMap Nat (List Attr)) (pre : String) (old : BagHolder μ) (ar : Archive) (features : U64)
    (hf : getU64ForKey ar (tarPrefix pre "NUM_RANDOM_FEATURES") = Res.ok features) (before after : List μ) (m : μ)
    (hm : old.models = before ++ m :: after)
    (hb : ∀ i m', before[i]? = some m' → (reload i (bagKey pre i) m' ar).2 = Res.ok ())
    (he : (reload before.length (bagKey pre before.length) m ar).2 ≠ Res.ok ()) :
    reloadBag G viaFloat reload partly pre old ar =
      ({ old with
          features := features
          models := (before.zipIdx.map fun p => (reload p.2 (bagKey pre p.2) p.1 ar).1) ++
            (reload before.length (bagKey pre before.length) m ar).1 :: after },
        (reload before.length (bagKey pre before.length) m ar).2) := by
  have key := each_mixed (fun i m => reload i (bagKey pre i) m ar) before after m 0 (by simpa using hb) (by simpa using he)
  simp only [Nat.zero_add] at key
  unfold reloadBag
  rw [hf, hm]
  simp only [key]
  cases hr : (reload before.length (bagKey pre before.length) m ar).2 with
  | ok u => exact absurd hr he
  | err => rfl
  | panic => rfl

/-- On success a bagged model is that of the file, if loading each classifier in place gives that of the file. -/
theorem C143_bag {μ : Type} (G : GridEnv) (viaFloat : Int → Int) (reload : Nat → String → μ → Archive → After μ)
    (load : Nat → Archive → String → Res μ) (partly : GoMap Nat (List Attr))
    (hl : ∀ i key m ar, (reload i key m ar).2 = (load i ar key).void ∧ ∀ m', load i ar key = Res.ok m' → (reload i key m ar).1 = m')
    (old : BagHolder μ) (ar : Archive) :
    (reloadFile (reloadBag G viaFloat reload partly "") old ar).2 = (loadBagFile G viaFloat load old.models.length ar).void ∧
      ∀ b, loadBagFile G viaFloat load old.models.length ar = Res.ok b →
        (reloadFile (reloadBag G viaFloat reload partly "") old ar).1 = ⟨b.features, b.models, some b.fitOn, b.selected⟩ := by
  unfold reloadFile loadBagFile
  cases hs : readStub ar with
  | err => simp [Res.void, Res.map, Res.bind]
  | panic => simp [Res.void, Res.map, Res.bind]
  | ok a =>
    simp only [Res.bind_ok]
    unfold reloadBag loadBag
    cases hf : getU64ForKey a (tarPrefix "" "NUM_RANDOM_FEATURES") with
    | err => simp [Res.void, Res.map, Res.bind]
    | panic => simp [Res.void, Res.map, Res.bind]
    | ok features =>
      simp only [Res.bind_ok]
      have key := each_load (fun i m => reload i (bagKey "" i) m a) (fun i => load i a (bagKey "" i)) (fun i m => hl i _ m a) old.models 0
      simp only [List.range'_eq_map_range, Nat.zero_add, List.map_id'] at key
      obtain ⟨k1, k2⟩ := key
      cases hms : mapRes (fun i => load i a (bagKey "" i)) (List.range old.models.length) with
      | err => simp [k1, hms, Res.void, Res.map, Res.bind]
      | panic => simp [k1, hms, Res.void, Res.map, Res.bind]
      | ok ms =>
        simp only [k1, k2 ms hms, hms, Res.bind_ok, Res.void, Res.map_ok]
        cases hd : getInstancesForKey G viaFloat a (tarPrefix "" "REFERENCE_INSTANCES") with
        | err => simp [Res.map, Res.bind]
        | panic => simp [Res.map, Res.bind]
        | ok d =>
          simp only [Res.bind_ok]
          cases hn : getNamedFile a (tarPrefix "" "SELECTED_ATTRIBUTES") with
          | err => simp [Res.map, Res.bind]
          | panic => simp [Res.map, Res.bind]
          | ok p =>
            simp only [Res.bind_ok]
            cases p with
            | bytes b => simp [Res.map, Res.bind]
            | json j =>
              cases j with
              | obj l => cases hsel : mapRes (selectedOfJson viaFloat d) l <;> simp [Res.map, Res.bind, hsel]
              | _ => simp [Res.map, Res.bind]

/-! ## Nodes of trees -/

/-- `DecisionTreeNode.Load` into a new node gives the tree of the file. -/
theorem C143_node_new (L : LoadEnv) (l : List (String × Json)) (ch : Option (List (String × Json)))
    (hc : (Json.obj l).field "children" = some (ch.elim .null .obj)) (dist : List (String × Json))
    (hd : (Json.obj l).field "class_dist" = some (.obj dist)) (hn : (dist.map Prod.fst).Nodup) :
    nodeInto L (.leaf [] "") (.obj l) = treeOfJson L ((Json.obj l).depth + 1) [] (.obj l) := by
  have h1 : distInto (Tree.leaf [] "").dist ((Json.obj l).field "class_dist") = distOfJson ((Json.obj l).field "class_dist") := by
    rw [hd]
    unfold distInto distOfJson
    simp only [Tree.dist]
    cases hm : mapRes countOfJson dist with
    | err => rfl
    | panic => rfl
    | ok ps =>
      have hk : ps.map Prod.fst = dist.map Prod.fst := by
        have := (mapRes_eq_ok _ _ _).1 hm
        clear hm hn hd
        induction this with
        | nil => rfl
        | @cons a b _ _ hab _ ih =>
          rw [List.map_cons, List.map_cons, ih]
          congr 1
          unfold countOfJson at hab
          split at hab
          · split at hab
            · cases hab; rfl
            · cases hab
          · cases hab
      rw [Res.map_ok, foldl_set_pairs ps [] (by rw [hk]; exact hn) (by simp)]
      rfl
  rw [treeOfJson]
  unfold nodeInto
  simp only [h1, hc, List.nil_append]
  cases ch with
  | none => rfl
  | some ch =>
    simp only [Option.elim_some, childrenInto]

/-- Into a node in use, the children that the file does not have stay as they were. -/
theorem C143_node_mixed (L : LoadEnv) (dist : GoMap String Nat) (cls : String) (rule : Rule) (keys : List String) (child : String → Tree)
    (l ch : List (String × Json)) (hc : (Json.obj l).field "children" = some (.obj ch)) (t : Tree)
    (ht : nodeInto L (.split dist cls rule keys child) (.obj l) = Res.ok t) (k : String) (hk : k ∈ keys) (hn : ∀ p ∈ ch, p.1 ≠ k) :
    ∃ dist' cls' rule' keys' child', t = .split dist' cls' rule' keys' child' ∧ k ∈ keys' ∧ child' k = child k ∧
      ruleOfJson L (L.fresh []) ((Json.obj l).field "decision_tree_rule") = Res.ok (some rule') := by
  unfold nodeInto at ht
  obtain ⟨c, _, ht⟩ := Res.bind_eq_ok.1 ht
  obtain ⟨d, _, ht⟩ := Res.bind_eq_ok.1 ht
  obtain ⟨r, hr, ht⟩ := Res.bind_eq_ok.1 ht
  rw [hc] at ht
  obtain ⟨ts, hts, ht⟩ := Res.bind_eq_ok.1 ht
  have hnk : k ∉ ts.map Prod.fst := by
    intro hm
    obtain ⟨q, hq, rfl⟩ := List.mem_map.1 hm
    have h2 := (mapRes_eq_ok _ _ _).1 hts
    obtain ⟨i, hi, e⟩ := List.mem_iff_getElem.1 hq
    have h3 := h2.get (by rw [h2.length_eq]; exact hi) hi
    obtain ⟨x, _, e2⟩ := Res.map_eq_ok.1 h3
    refine hn _ (List.get_mem ch ⟨i, by rw [h2.length_eq]; exact hi⟩) ?_
    have : ts.get ⟨i, hi⟩ = q := e
    rw [this] at e2
    rw [← e2]
  unfold nodeOf at ht
  cases r with
  | none => cases ht
  | some r =>
    cases ht
    refine ⟨_, _, _, _, _, rfl, ?_, ?_, hr⟩
    · simp only [childrenInto, List.map_append, List.map_map, List.mem_append]
      right
      refine List.mem_map.2 ⟨k, List.mem_filter.2 ⟨hk, by simpa using hnk⟩, rfl⟩
    · have h4 : ∀ (as bs : List (String × Tree)), k ∉ as.map Prod.fst → GoMap.get? (as ++ bs) k = GoMap.get? bs k := by
        intro as bs h
        induction as with
        | nil => rfl
        | cons a as ih =>
          simp only [List.map_cons, List.mem_cons, not_or] at h
          obtain ⟨x, y⟩ := a
          rw [List.cons_append, GoMap.get?, if_neg (fun e => h.1 e.symm), ih h.2]
      have h5 : ∀ ks : List String, k ∈ ks → GoMap.get? (ks.map fun k => (k, child k)) k = some (child k) := by
        intro ks h
        induction ks with
        | nil => cases h
        | cons a ks ih =>
          rw [List.map_cons, GoMap.get?]
          split
          · next e => rw [e]
          · next e => exact ih ((List.mem_cons.1 h).resolve_left fun e' => e e'.symm)
      simp only [childrenInto]
      rw [h4 _ _ hnk, h5 _ (List.mem_filter.2 ⟨hk, by simpa using hnk⟩), Option.getD_some]

/-- The class counts of the node afterwards: those of the file, and for classes the file does not name the old ones. A file with `null` for them
leaves none. -/
theorem C143_node_counts (L : LoadEnv) (old t : Tree) (l : List (String × Json)) (ht : nodeInto L old (.obj l) = Res.ok t) :
    ((Json.obj l).field "class_dist" = some .null → t.dist = []) ∧
    ∀ dist, (Json.obj l).field "class_dist" = some (.obj dist) → (dist.map Prod.fst).Nodup →
      (∀ k n, (k, Json.num n) ∈ dist → t.dist.get? k = some n.toNat) ∧
      ∀ k, k ∉ dist.map Prod.fst → t.dist.get? k = old.dist.get? k := by
  unfold nodeInto at ht
  obtain ⟨c, _, ht⟩ := Res.bind_eq_ok.1 ht
  obtain ⟨d, hd, ht⟩ := Res.bind_eq_ok.1 ht
  obtain ⟨r, _, ht⟩ := Res.bind_eq_ok.1 ht
  have hD : t.dist = d := by
    split at ht
    · cases ht; rfl
    · obtain ⟨ts, _, ht⟩ := Res.bind_eq_ok.1 ht
      unfold nodeOf at ht
      split at ht
      · cases ht; rfl
      · cases ht
    · cases ht
  rw [hD]
  refine ⟨fun h => ?_, fun dist h hn => ?_⟩
  · rw [h] at hd
    cases hd
    rfl
  · rw [h] at hd
    obtain ⟨ps, hps, rfl⟩ := Res.map_eq_ok.1 hd
    have F := (mapRes_eq_ok _ _ _).1 hps
    generalize old.dist = m
    clear * - F hn
    induction F generalizing m with
    | nil => simp
    | @cons a b as bs hab _ ih =>
      simp only [List.map_cons, List.nodup_cons] at hn
      obtain ⟨i1, i2⟩ := ih hn.2 (m.set b.1 b.2)
      have hb : b.1 = a.1 ∧ ∀ n, a.2 = Json.num n → b.2 = n.toNat := by
        unfold countOfJson at hab
        split at hab
        · next h =>
          split at hab
          · cases hab; exact ⟨rfl, fun n e => by rw [h] at e; cases e; rfl⟩
          · cases hab
        · cases hab
      constructor
      · intro k n hk
        rcases List.mem_cons.1 hk with e | hk
        · subst e
          rw [List.foldl_cons, i2 k hn.1, GoMap.get?_set, if_pos hb.1, hb.2 n rfl]
        · exact i1 k n hk
      · intro k hk
        simp only [List.map_cons, List.mem_cons, not_or] at hk
        rw [List.foldl_cons, i2 k hk.2, GoMap.get?_set, if_neg (fun e => hk.1 (by rw [← e, hb.1]))]

/-- So a row that reads such a value is answered by the old child. -/
theorem C143_node_answer (L : LoadEnv) (dist : GoMap String Nat) (cls : String) (rule : Rule) (keys : List String) (child : String → Tree)
    (l ch : List (String × Json)) (hc : (Json.obj l).field "children" = some (.obj ch)) (t : Tree)
    (ht : nodeInto L (.split dist cls rule keys child) (.obj l) = Res.ok t) (k : String) (hk : k ∈ keys) (hn : ∀ p ∈ ch, p.1 ≠ k)
    (rule' : Rule) (hr : ruleOfJson L (L.fresh []) ((Json.obj l).field "decision_tree_rule") = Res.ok (some rule'))
    (fo : FloatOps) (g : Grid) (ord : List String → List String) (row : Nat) (s : Spec) (v : Bytes) (hs : g.getAttribute rule'.attr = Res.ok s)
    (hv : g.get s row = Res.ok v) (hf : s.attr.isFloat = false) (hg : s.attr.getString fo v = Res.ok k) :
    treeClass fo g ord row t = treeClass fo g ord row (child k) := by
  obtain ⟨d', c', r', ks', ch', rfl, h1, h2, h3⟩ := C143_node_mixed L dist cls rule keys child l ch hc t ht k hk hn
  rw [hr] at h3
  cases h3
  conv_lhs => rw [treeClass]
  simp [hs, hv, hf, hg, Res.orPanic, h1, h2]

/-! ## The class weights of a `MultiLinearSVC` -/

section
variable {K : Type} [Field K] [LinearOrder K]

private theorem set_all (ps : List (String × K)) (k : String) :
    ∃ o : Option K, ∀ base : GoMap String K, (ps.foldl (fun m p => m.set p.1 p.2) base).get? k = o.or (base.get? k) := by
  induction ps with
  | nil => exact ⟨none, fun base => rfl⟩
  | cons p ps ih =>
    obtain ⟨o, h⟩ := ih
    by_cases e : p.1 = k
    · refine ⟨o.or (some p.2), fun base => ?_⟩
      rw [List.foldl_cons, h, GoMap.get?_set, if_pos e, Option.or_assoc]
      rfl
    · refine ⟨o, fun base => ?_⟩
      rw [List.foldl_cons, h, GoMap.get?_set, if_neg e]

/-- Loading into a model with weights: its parameters and classifiers are those of the file, the weights that the file has replace the old ones,
and the others stay, to be used when the model is fitted again. -/
theorem C143_weights_mixed (G : GridEnv) (viaFloat : Int → Int) (E : SvcEnv K) (fresh : Nat → Nat → Nat)
    (freshF : Attr → Nat) (ordF : Nat → List FAttr → List FAttr) (ar : Archive) (m : LoadedMulti K)
    (hl : loadMultiFile G viaFloat E none fresh freshF ordF ar = Res.ok m) (old : GoMap String K) :
    ∃ m', loadMultiFile G viaFloat E (some old) fresh freshF ordF ar = Res.ok m' ∧ m'.params = m.params ∧ m'.ova = m.ova ∧
      (m.weights = none → m'.weights = none) ∧
      ∀ w, m.weights = some w → ∃ w', m'.weights = some w' ∧ ∀ k, w'.get? k = (w.get? k).or (old.get? k) := by
  obtain ⟨a, ha, h0⟩ := Res.bind_eq_ok.1 hl
  obtain ⟨jp, h1, h0⟩ := Res.bind_eq_ok.1 h0
  obtain ⟨ps, h2, h0⟩ := Res.bind_eq_ok.1 h0
  obtain ⟨jw, h3, h0⟩ := Res.bind_eq_ok.1 h0
  obtain ⟨ws, h4, h0⟩ := Res.bind_eq_ok.1 h0
  obtain ⟨ova, h5, rfl⟩ := Res.map_eq_ok.1 h0
  have key : ∃ ws', classWeightsOfJson E (some old) jw = Res.ok ws' ∧ (ws = none → ws' = none) ∧
      ∀ w, ws = some w → ∃ w', ws' = some w' ∧ ∀ k, w'.get? k = (w.get? k).or (old.get? k) := by
    unfold classWeightsOfJson at h4 ⊢
    cases jw with
    | null => cases h4; exact ⟨none, rfl, fun _ => rfl, by simp⟩
    | obj l =>
      obtain ⟨qs, hqs, rfl⟩ := Res.map_eq_ok.1 h4
      simp only [hqs, Res.map_ok]
      refine ⟨_, rfl, by simp, ?_⟩
      intro w hw
      cases hw
      refine ⟨_, rfl, fun k => ?_⟩
      obtain ⟨o, ho⟩ := set_all qs k
      rw [ho, ho]
      simp [GoMap.get?]
    | _ => cases h4
  obtain ⟨ws', k1, k2, k3⟩ := key
  refine ⟨⟨ps, ws', ova⟩, ?_, rfl, rfl, k2, k3⟩
  unfold loadMultiFile
  rw [ha, Res.bind_ok]
  unfold loadMulti
  rw [h1, Res.bind_ok, h2, Res.bind_ok, h3, Res.bind_ok, k1, Res.bind_ok, h5, Res.map_ok]

end

section Examples
private def S0 : SaveEnv := ⟨true, id, fun _ => true⟩
private def L0 : LoadEnv := ⟨id, fun n => BitVec.ofInt 64 n, fun _ => 7⟩
private def aX : Attr := ⟨0, .float "x" 2⟩
private def aC : Attr := ⟨1, .cat "c" ["a", "b"]⟩
private def aD : Attr := ⟨2, .cat "d" ["u", "v"]⟩
private def G0 : GridEnv := ⟨id, Grid.allClassAttributes,
  fun g => attrDifferenceRefs g.allAttributes g.allClassAttributes, 4096, fun i => 1000 + i, fun _ w => w⟩
private def d0 : Dense :=
  match (run 4096 [.add aX, .add aC, .addClass aC, .extend 2, .set 0 0 (packU64 3), .set 0 1 (packU64 9), .set 1 1 (packU64 1)]).map St.d with
  | .ok d => d
  | _ => Dense.new
private def t0 : Tree := .split [("a", 1), ("b", 1)] "a" ⟨aD, 5⟩ ["u"] fun _ => .leaf [("a", 1)] "a"
private def t1 : Tree := .split [("a", 1), ("b", 1)] "b" ⟨aD, 5⟩ ["v"] fun _ => .leaf [("b", 1)] "b"
private def info0 (_ : List String) : LeafInfo := ⟨1, none⟩

/-- Loading the file of a nearest neighbours classifier, and the parts of it, into another one: the outcome, the distance function afterwards and
whether there is training data. -/
example : ((saveKnnFile G0 true [0, 1] ⟨"euclidean", "linear", 1, false, false, .dense d0⟩).map fun full =>
    (List.range 8).map fun k =>
      let r := reloadFile (reloadKnn G0 id "") ⟨"manhattan", "kdtree", 3, true, true, some (.dense d0)⟩ (full.take k)
      (r.2.isOk, r.1.distance, r.1.train.isSome)) =
    Res.ok [(false, "manhattan", true), (false, "manhattan", true), (false, "euclidean", false), (false, "euclidean", false),
      (false, "euclidean", false), (false, "euclidean", false), (false, "euclidean", false), (true, "euclidean", true)] := by decide +kernel

/-- The hypothesis of `C143_tree_wrong_file` holds for this file. -/
example : (saveKnnFile G0 true [0, 1] ⟨"euclidean", "linear", 1, false, false, .dense d0⟩).isOk = true := by decide +kernel

/-- Loading a file that ends early into a forest of two trees: the classes at the roots before and after. -/
example : ((saveForest G0 S0 1 [⟨t1, info0, aC.body⟩, ⟨t1, info0, aC.body⟩] (match run 4096 [.add aX, .add aC, .addClass aC] with
        | .ok st => st.d
        | _ => Dense.new) [(0, [aX, aC]), (1, [aX, aC])]).map fun full =>
      [2, 5, 6, 8, 10, 14].map fun k =>
        let r := reloadBag G0 id (fun _ key => reloadTree L0 (fun _ => t0) key) [] "model"
          ⟨0, [some ⟨t0, some aC.body⟩, some ⟨t0, some aC.body⟩], none, []⟩ (full.take k)
        (r.2.isOk, r.1.models.map fun n => n.elim "" fun n => n.tree.cls)) =
    Res.ok [(false, ["a", "a"]), (false, ["b", "a"]), (false, ["b", ""]), (false, ["b", "b"]), (false, ["b", "b"]), (true, ["b", "b"])] := by
  decide +kernel

/-- Loading the document of a tree into a node that counted another class: the counts afterwards. -/
example : ((treeToJson S0 info0 t1 []).bind fun j => (nodeInto L0 (.leaf [("z", 9), ("a", 5)] "z") j).map Tree.dist) =
    Res.ok [("z", 9), ("a", 1), ("b", 1)] := by decide +kernel

/-- Loading the document of a tree into a node with a child that it does not have: the children of the node afterwards. -/
example : ((treeToJson S0 info0 t1 []).bind fun j => (nodeInto L0 t0 j).map fun t =>
    match t with
    | .split _ c _ keys child => (c, keys.map fun k => (k, (child k).cls))
    | .leaf _ c => (c, [])) = Res.ok ("b", [("v", "b"), ("u", "a")]) := by decide +kernel

/-- Into a new node. -/
example : ((treeToJson S0 info0 t1 []).bind fun j => (nodeInto L0 (.leaf [] "") j).map fun t =>
    match t with
    | .split _ c _ keys child => (c, keys.map fun k => (k, (child k).cls))
    | .leaf _ c => (c, [])) = Res.ok ("b", [("v", "b")]) := by decide +kernel
end Examples

end Golearn
