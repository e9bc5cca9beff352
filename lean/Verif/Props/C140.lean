import Verif.Proofs.CrashSave
import Verif.Props.C98
import Verif.Props.C99
import Verif.Props.C100
import Verif.Props.C101
import Verif.Props.C103

/-! # C140: model files whose writing was interrupted -/

namespace Golearn

/-! ## An interrupted file loads as the complete file, or not at all -/

/-- Decision trees and random trees. -/
theorem C140_tree (L : LoadEnv) (cut full : Archive) (h : CutShort cut full) : SameOrError (loadTreeFile L cut) (loadTreeFile L full) :=
  same_stub h _ (same_tree h L "")

/-- Nearest neighbours classifiers. -/
theorem C140_knn (G : GridEnv) (viaFloat : Int → Int) (cut full : Archive) (h : CutShort cut full) :
    SameOrError (loadKnnFile G viaFloat cut) (loadKnnFile G viaFloat full) :=
  same_stub h _ (same_knn h G viaFloat "")

/-- Naive Bayes classifiers. -/
theorem C140_naive_bayes {K : Type} (G : GridEnv) (viaFloat : Int → Int) (val : U64 → K) (cut full : Archive) (h : CutShort cut full) :
    SameOrError (loadNBFile G viaFloat val cut) (loadNBFile G viaFloat val full) :=
  same_stub h _ (same_nb h G viaFloat val "")

/-- Linear support vector classifiers. -/
theorem C140_svc {K : Type} [Field K] [LinearOrder K] (E : SvcEnv K) (cut full : Archive) (h : CutShort cut full) :
    SameOrError (loadSvcFile E cut) (loadSvcFile E full) :=
  same_stub h _ (same_svc h E "")

/-- Bagged models of whatever classifiers that have the property. -/
theorem C140_bagging {μ : Type} (G : GridEnv) (viaFloat : Int → Int) (load : Nat → Archive → String → Res μ) (count : Nat)
    (cut full : Archive) (h : CutShort cut full) (hl : ∀ i pre, SameOrError (load i cut pre) (load i full pre)) :
    SameOrError (loadBagFile G viaFloat load count cut) (loadBagFile G viaFloat load count full) :=
  same_stub h _ (same_bag h G viaFloat load hl count "")

/-- Random forests. -/
theorem C140_forest (G : GridEnv) (L : Nat → LoadEnv) (viaFloat : Int → Int) (count : Nat) (cut full : Archive) (h : CutShort cut full) :
    SameOrError (loadForest G L viaFloat count cut) (loadForest G L viaFloat count full) :=
  same_stub h _ (same_bag h G viaFloat _ (fun i pre => same_tree h (L i) pre) count "model")

/-- One-vs-all models of whatever classifiers that have the property. -/
theorem C140_one_vs_all {μ : Type} (G : GridEnv) (viaFloat : Int → Int) (mk : String → Res Unit) (load : String → Archive → String → Res μ)
    (fresh : Nat → Nat → Nat) (freshF : Attr → Nat) (ordF : Nat → List FAttr → List FAttr) (cut full : Archive) (h : CutShort cut full)
    (hl : ∀ s pre, SameOrError (load s cut pre) (load s full pre)) :
    SameOrError (loadOvaFile G viaFloat mk load fresh freshF ordF cut) (loadOvaFile G viaFloat mk load fresh freshF ordF full) :=
  same_stub h _ (same_ova h G viaFloat mk load hl fresh freshF ordF "")

/-- Linear support vector classifiers for several classes. -/
theorem C140_multi {K : Type} [Field K] [LinearOrder K] (G : GridEnv) (viaFloat : Int → Int) (E : SvcEnv K) (old : Option (GoMap String K))
    (fresh : Nat → Nat → Nat) (freshF : Attr → Nat) (ordF : Nat → List FAttr → List FAttr) (cut full : Archive) (h : CutShort cut full) :
    SameOrError (loadMultiFile G viaFloat E old fresh freshF ordF cut) (loadMultiFile G viaFloat E old fresh freshF ordF full) :=
  same_stub h _ (same_multi h G viaFloat E old fresh freshF ordF "")

/-- Tables. -/
theorem C140_table (pg : Nat) (fresh : Nat → Nat) (viaFloat : Int → Int) (srt : List Spec → List Spec) (chunk : Nat → Nat → Nat)
    (pre : String) (cut full : Archive) (h : CutShort cut full) :
    SameOrError (deserializeInstances pg fresh viaFloat srt chunk cut pre) (deserializeInstances pg fresh viaFloat srt chunk full pre) :=
  same_table _ _ _ _ _ _ _ _ (fun _ _ => same_named h _) (Or.inl (same_named h _))

/-- Tables whose cells were being written: the entry with the cells ends early. -/
theorem C140_table_cells (pg : Nat) (fresh : Nat → Nat) (viaFloat : Int → Int) (srt : List Spec → List Spec) (chunk : Nat → Nat → Nat)
    (pre : String) (before after : Archive) (part missing : Bytes) :
    SameOrError (deserializeInstances pg fresh viaFloat srt chunk (before ++ [(pre ++ "DATA", .bytes part)]) pre)
      (deserializeInstances pg fresh viaFloat srt chunk (before ++ (pre ++ "DATA", .bytes (part ++ missing)) :: after) pre) := by
  have hn : ∀ s, s ≠ "DATA" → pre ++ "DATA" ≠ pre ++ s := by
    intro s hs e
    apply hs
    rw [String.ext_iff, String.toList_append, String.toList_append] at e
    exact (String.ext_iff.2 (List.append_cancel_left e)).symm
  apply same_table
  · intro s hs
    induction before with
    | nil => exact Or.inl (by simp [getNamedFile, hn s hs])
    | cons e before ih =>
      simp only [List.cons_append, getNamedFile]
      split
      · exact same_refl _
      · exact ih
  · induction before with
    | nil => exact Or.inr ⟨part, missing, by simp [getNamedFile], by simp [getNamedFile]⟩
    | cons e before ih =>
      simp only [List.cons_append, getNamedFile]
      split
      · exact Or.inl (same_refl _)
      · exact ih

/-! ## Saving only appends -/

/-- Every way of saving a classifier only appends entries to the file. So whenever it is interrupted, the file is the complete one cut
short. -/
theorem C140_appends :
    (∀ (S : SaveEnv) (info : List String → LeafInfo) (t : Tree) (cls : AttrBody) (pre : String),
      Appends (fun _ => True) fun w => saveTree S info t cls w pre) ∧
    (∀ (G : GridEnv) (nilVals : Bool) (order : List Nat) (m : KnnModel) (pre : String),
      Appends (fun _ => True) fun w => saveKnn G nilVals order m w pre) ∧
    (∀ (K : Type) (G : GridEnv) (nilVals : Bool) (num : K → U64) (fin : U64 → Bool) (nb : NB K) (fitOn : Dense) (pre : String),
      Appends (fun _ => True) fun w => saveNB G nilVals num fin nb fitOn w pre) ∧
    (∀ (M : Type) (G : GridEnv) (nilVals : Bool) (save : M → Writer → String → Res Writer) (features : U64) (models : List M) (fitOn : Dense)
      (sel : GoMap Nat (List Attr)) (pre : String), (∀ m ∈ models, ∀ pre, Appends (fun _ => True) fun w => save m w pre) →
      Appends (fun _ => True) fun w => saveBag G nilVals save features models fitOn sel w pre) ∧
    (∀ (M : Type) (G : GridEnv) (nilVals : Bool) (ord : OvaFilter → GoMap Attr Attr) (save : M → Writer → String → Res Writer)
      (m : SavedOva M) (pre : String), (∀ c ∈ m.models, ∀ pre, Appends (fun _ => True) fun w => save c w pre) →
      Appends (fun _ => True) fun w => saveOva G nilVals ord save m w pre) ∧
    (∀ (K : Type) [Field K] [LinearOrder K] (E : SvcEnv K) (m : SvcModel K) (pre : String),
      Appends (fun _ => True) fun w => saveSvc E m w pre) ∧
    (∀ (K : Type) [Field K] [LinearOrder K] (G : GridEnv) (nilVals : Bool) (ord : OvaFilter → GoMap Attr Attr) (E : SvcEnv K)
      (m : MultiSvc K) (pre : String), Appends (fun _ => True) fun w => saveMulti G nilVals ord E m w pre) :=
  ⟨fun _ _ _ _ _ => appends_tree _ _ _ _ _ fun _ => trivial, fun _ _ _ _ _ => appends_knn _ _ _ _ _ fun _ => trivial,
    fun _ _ _ _ _ _ _ _ => appends_nb _ _ _ _ _ _ _ fun _ => trivial,
    fun _ _ _ _ _ _ _ _ _ h => appends_bag _ _ _ _ _ _ _ _ (fun _ => trivial) fun m hm _ => h m hm _,
    fun _ _ _ _ _ _ _ h => appends_ova _ _ _ _ _ _ (fun _ => trivial) fun c hc _ => h c hc _,
    fun _ _ _ _ _ _ => appends_svc _ _ _ fun _ => trivial, fun _ _ _ _ _ _ _ _ _ => appends_multi _ _ _ _ _ _⟩

/-- The file is empty at first, and an empty file cannot be loaded: the model that was in the file before is lost as soon as another is
saved under the same name. -/
theorem C140_old_model_lost (full : Archive) : CutShort [] full ∧ (∀ L, loadTreeFile L [] = Res.err) ∧
    (∀ G v, loadKnnFile G v [] = Res.err) ∧ ∀ G L v n, loadForest G L v n [] = Res.err :=
  ⟨⟨full, rfl⟩, fun _ => rfl, fun _ _ => rfl, fun _ _ _ _ => rfl⟩

/-! ## An interrupted file is an error -/

private theorem stub_names (j : Json) {k : String} (h1 : k ≠ "CLS_MANIFEST") (h2 : k ≠ "METADATA") : ∀ e ∈ classifierStub j, e.1 ≠ k := by
  intro e he
  simp only [classifierStub, List.mem_cons, List.not_mem_nil, or_false] at he
  rcases he with rfl | rfl
  · exact h1.symm
  · exact h2.symm

private theorem lost_saved {α : Type} {load : Archive → Res α} {step : Writer → Res Writer} {j : Json} {full cut : Archive} {k : String} {m : α}
    (hw : LastWrite (fun n => n ≠ k) k step) (h1 : k ≠ "CLS_MANIFEST") (h2 : k ≠ "METADATA")
    (hs : (step (newWriter j)).map Writer.entries = Res.ok full) (hl : (readStub full).bind load = Res.ok m) (hc : CutShort cut full)
    (hne : cut ≠ full) (hm : SameOrError (load cut) (load full)) (hn : ∀ r, load cut = Res.ok r → getNamedFile cut k ≠ Res.err) :
    (readStub cut).bind load = Res.err := by
  obtain ⟨w, h3, rfl⟩ := Res.map_eq_ok.1 hs
  obtain ⟨es, p, e, hes⟩ := hw _ _ h3
  rw [← List.append_assoc] at e
  rw [e] at hl hc hne hm
  refine lost_file hc hne ?_ hm hl hn
  intro x hx
  rcases List.mem_append.1 hx with hx | hx
  · exact stub_names j h1 h2 x hx
  · exact hes x hx

/-- A decision tree, or random tree, was saved and can be loaded. If any entry of the file is missing because writing it was interrupted,
loading is an error. -/
theorem C140_tree_lost (S : SaveEnv) (L : LoadEnv) (info : List String → LeafInfo) (t : Tree) (cls : AttrBody)
    (save : SaveEnv → (List String → LeafInfo) → Tree → AttrBody → Res Archive) (hsave : save = saveID3 ∨ save = saveRandomTree)
    (full cut : Archive) (hs : save S info t cls = Res.ok full) (m : Tree × AttrBody) (hl : loadTreeFile L full = Res.ok m)
    (hc : CutShort cut full) (hne : cut ≠ full) : loadTreeFile L cut = Res.err := by
  have hw : LastWrite (fun n => n ≠ "treeClassAttr") "treeClassAttr" fun w => saveTree S info t cls w "" :=
    last_first _ fun _ => last_bind (appends_write _ _ (by decide)) (last_write _)
  have hn : ∀ r, loadTree L cut "" = Res.ok r → getNamedFile cut "treeClassAttr" ≠ Res.err := by
    intro r h e
    obtain ⟨p, _, h⟩ := Res.bind_eq_ok.1 h
    cases p with
    | bytes _ => cases h
    | json j =>
      obtain ⟨t, _, h⟩ := Res.bind_eq_ok.1 h
      obtain ⟨a, h, _⟩ := Res.map_eq_ok.1 h
      rw [getAttributeForKey, show tarPrefix "" "treeClassAttr" = "treeClassAttr" from rfl, e] at h
      cases h
  rcases hsave with rfl | rfl
  · exact lost_saved hw (by decide) (by decide) hs hl hc hne (same_tree hc L "") hn
  · exact lost_saved hw (by decide) (by decide) hs hl hc hne (same_tree hc L "") hn

/-- The same for a nearest neighbours classifier. -/
theorem C140_knn_lost (G : GridEnv) (nilVals : Bool) (viaFloat : Int → Int) (order : List Nat) (m m' : KnnModel) (full cut : Archive)
    (hs : saveKnnFile G nilVals order m = Res.ok full) (hl : loadKnnFile G viaFloat full = Res.ok m') (hc : CutShort cut full)
    (hne : cut ≠ full) : loadKnnFile G viaFloat cut = Res.err := by
  have hw : LastWrite (fun n => n ≠ "TrainingInstancesDATA") "TrainingInstancesDATA" fun w => saveKnn G nilVals order m w "" := by
    intro w w' e
    unfold saveKnn at e
    dsimp only at e
    split at e
    · cases e
    · obtain ⟨es, h1, h2⟩ := Res.bind_eq_ok.1 e
      unfold Writer.close at h2
      split at h2
      · cases h2
      · cases h2
        obtain ⟨init, p, rfl, h3⟩ := serialize_last h1
        exact ⟨init, p, rfl, h3⟩
  refine lost_saved hw (by decide) (by decide) hs hl hc hne (same_knn hc G viaFloat "") ?_
  intro r h
  obtain ⟨j, _, h⟩ := Res.bind_eq_ok.1 h
  obtain ⟨_, _, h⟩ := Res.bind_eq_ok.1 h
  obtain ⟨_, _, h⟩ := Res.bind_eq_ok.1 h
  split at h
  · cases h
  split at h
  · cases h
  obtain ⟨_, _, h⟩ := Res.bind_eq_ok.1 h
  obtain ⟨_, _, h⟩ := Res.bind_eq_ok.1 h
  obtain ⟨_, _, h⟩ := Res.bind_eq_ok.1 h
  obtain ⟨_, _, h⟩ := Res.bind_eq_ok.1 h
  obtain ⟨_, _, h⟩ := Res.bind_eq_ok.1 h
  obtain ⟨d, h, _⟩ := Res.map_eq_ok.1 h
  exact table_needs h

/-- The same for a naive Bayes classifier. -/
theorem C140_naive_bayes_lost {K : Type} (G : GridEnv) (nilVals : Bool) (viaFloat : Int → Int) (num : K → U64) (val : U64 → K)
    (fin : U64 → Bool) (nb : NB K) (fitOn : Dense) (m : NB K × Dense) (full cut : Archive)
    (hs : saveNBFile G nilVals num fin nb fitOn = Res.ok full) (hl : loadNBFile G viaFloat val full = Res.ok m) (hc : CutShort cut full)
    (hne : cut ≠ full) : loadNBFile G viaFloat val cut = Res.err := by
  have ht : ∀ (x y : String), 4 ≤ x.toList.length → x.toList.take 4 ≠ "COND".toList → x ++ y ≠ "COND_MAP" := by
    intro x y h4 hx e
    apply hx
    have := congrArg (fun s : String => s.toList.take 4) e
    rw [tag_append _ _ _ h4] at this
    rw [this]; decide
  have hw : LastWrite (fun n => n ≠ "COND_MAP") "COND_MAP" fun w => saveNB G nilVals num fin nb fitOn w "" := by
    refine last_bind (appends_structure _ _ _ _ fun s _ => ht _ _ (by decide) (by decide)) (last_bind (appends_attributes _ _ _ fun s => ?_)
      (last_bind (appends_write _ _ (by decide)) (last_bind (appends_write _ _ (by decide)) (last_bind (appends_write _ _ (by decide))
        (last_first _ fun _ => last_write _)))))
    rw [tarPrefix_of_ne (by decide), String.append_assoc]
    exact ht _ _ (by decide) (by decide)
  refine lost_saved hw (by decide) (by decide) hs hl hc hne (same_nb hc G viaFloat val "") ?_
  intro r h e
  obtain ⟨_, _, h⟩ := Res.bind_eq_ok.1 h
  obtain ⟨_, _, h⟩ := Res.bind_eq_ok.1 h
  obtain ⟨_, _, h⟩ := Res.bind_eq_ok.1 h
  obtain ⟨_, _, h⟩ := Res.bind_eq_ok.1 h
  obtain ⟨_, _, h⟩ := Res.bind_eq_ok.1 h
  obtain ⟨_, _, h⟩ := Res.bind_eq_ok.1 h
  obtain ⟨_, _, h⟩ := Res.bind_eq_ok.1 h
  obtain ⟨_, h, _⟩ := Res.bind_eq_ok.1 h
  rw [getJsonForKey, show tarPrefix "" "COND_MAP" = "COND_MAP" from rfl, e] at h
  cases h

/-- The same for a linear support vector classifier. -/
theorem C140_svc_lost {K : Type} [Field K] [LinearOrder K] (E : SvcEnv K) (m m' : SvcModel K) (full cut : Archive)
    (hs : saveSvcFile E m = Res.ok full) (hl : loadSvcFile E full = Res.ok m') (hc : CutShort cut full) (hne : cut ≠ full) :
    loadSvcFile E cut = Res.err := by
  have hw : LastWrite (fun n => n ≠ "MODEL") "MODEL" fun w => saveSvc E m w "" := by
    refine last_first _ fun j => last_first _ fun ts => ?_
    intro w w' e
    obtain ⟨w1, h1, h2⟩ := Res.map_eq_ok.1 e
    unfold Writer.write at h1 h2
    split at h1
    · cases h1
    · rename_i hcl
      cases h1
      dsimp only at h2
      rw [if_neg hcl] at h2
      subst h2
      refine ⟨[("PARAMETERS", .json j)], .bytes (E.text ts), ?_, ?_⟩
      · simp only [writeForKey, List.append_assoc, List.cons_append, List.nil_append]
        rfl
      · intro x hx
        simp only [List.mem_singleton] at hx
        subst hx
        show "PARAMETERS" ≠ "MODEL"
        decide
  obtain ⟨j, _, hs⟩ := Res.bind_eq_ok.1 hs
  refine lost_saved hw (by decide) (by decide) hs hl hc hne (same_svc hc E "") ?_
  intro r h e
  obtain ⟨_, _, h⟩ := Res.bind_eq_ok.1 h
  obtain ⟨_, _, h⟩ := Res.bind_eq_ok.1 h
  rw [show tarPrefix "" "MODEL" = "MODEL" from rfl, e] at h
  cases h

/-- The same for a random forest. -/
theorem C140_forest_lost (G : GridEnv) (S : SaveEnv) (L : Nat → LoadEnv) (viaFloat : Int → Int) (features : U64) (trees : List SavedTree)
    (fitOn : Dense) (sel : GoMap Nat (List Attr)) (count : Nat) (m : LoadedBag (Tree × AttrBody)) (full cut : Archive)
    (hs : saveForest G S features trees fitOn sel = Res.ok full) (hl : loadForest G L viaFloat count full = Res.ok m)
    (hc : CutShort cut full) (hne : cut ≠ full) : loadForest G L viaFloat count cut = Res.err := by
  have ht : ∀ {x : String}, x.toList.take 4 ≠ "SELE".toList → tarPrefix "model" x ≠ tarPrefix "model" "SELECTED_ATTRIBUTES" := by
    intro x hx
    exact tag_ne "model" (n := 4) hx
  have hw : LastWrite (fun n => n ≠ tarPrefix "model" "SELECTED_ATTRIBUTES") (tarPrefix "model" "SELECTED_ATTRIBUTES")
      fun w => saveBag G S.nilVals (fun t => saveTree S t.info t.tree t.cls) features trees fitOn sel w "model" := by
    refine last_bind (appends_write _ _ (ht (by decide))) (last_bind (appends_write _ _ (ht (by decide))) (last_bind
      (appends_each _ _ _ (fun t _ i => appends_tree _ _ _ _ _ fun s => ?_) 0) (last_bind (appends_structure _ _ _ _ fun s _ => ?_)
        (last_write _))))
    · rw [bagKey_entry]
      refine ht ?_
      rw [String.append_assoc, String.append_assoc, tag_append _ _ _ (by decide)]
      decide
    · rw [← tarPrefix_append]
      refine ht ?_
      rw [tag_append _ _ _ (by decide)]
      decide
  refine lost_saved hw (by decide) (by decide) hs hl hc hne (same_bag hc G viaFloat _ (fun i pre => same_tree hc (L i) pre) count "model") ?_
  intro r h e
  obtain ⟨_, _, h⟩ := Res.bind_eq_ok.1 h
  obtain ⟨_, _, h⟩ := Res.bind_eq_ok.1 h
  obtain ⟨_, _, h⟩ := Res.bind_eq_ok.1 h
  obtain ⟨_, h, _⟩ := Res.bind_eq_ok.1 h
  rw [e] at h
  cases h

/-- The same for a table. -/
theorem C140_table_lost (srt : List Spec → List Spec) (nilVals : Bool) (cls nrm : List Attr) (order : List Nat) (g : Grid) (pre : String)
    (pg : Nat) (fresh : Nat → Nat) (viaFloat : Int → Int) (srt' : List Spec → List Spec) (chunk : Nat → Nat → Nat) (full cut : Archive)
    (d : Dense) (hs : serializeInstances srt nilVals cls nrm order g pre = Res.ok full)
    (hl : deserializeInstances pg fresh viaFloat srt' chunk full pre = Res.ok d) (hc : CutShort cut full) (hne : cut ≠ full) :
    deserializeInstances pg fresh viaFloat srt' chunk cut pre = Res.err := by
  obtain ⟨init, p, rfl, h3⟩ := serialize_last hs
  rcases C140_table pg fresh viaFloat srt' chunk pre _ _ hc with h | h
  · exact h
  · rw [hl] at h
    exact absurd (lost_last hc hne h3) (table_needs h)

/-- Together with C98: a tree was saved. However long the part of the file that reached the disk, loading it gives a tree that predicts the
same, and this if and only if nothing is missing; otherwise loading is an error. -/
theorem C140_tree_crash (S : SaveEnv) (L : LoadEnv) (hL : L.viaFloat = S.viaFloat) (info : List String → LeafInfo)
    (hi : ∀ p r, (info p).rule = some (some r) → RuleKept S r) (t : Tree) (hk : t.Keyed)
    (hr : t.AllRules (RuleKept S)) (cls : AttrBody) (hc : AttrKept S.nilVals S.viaFloat cls)
    (save : SaveEnv → (List String → LeafInfo) → Tree → AttrBody → Res Archive) (hsave : save = saveID3 ∨ save = saveRandomTree) :
    ∃ full, save S info t cls = Res.ok full ∧ ∀ cut, CutShort cut full →
      (cut ≠ full ∧ loadTreeFile L cut = Res.err) ∨
      (cut = full ∧ ∃ t', loadTreeFile L cut = Res.ok (t', cls) ∧
        ∀ (e : PredEnv) (what : Grid), what.Unfiltered → treePredict e t' what = treePredict e t what) := by
  obtain ⟨full, t', h1, h2, _, h4⟩ := C98_tree_file_partial S L hL info hi t hk hr cls hc save hsave
  refine ⟨full, h1, fun cut hcut => ?_⟩
  by_cases he : cut = full
  · exact Or.inr ⟨he, t', he ▸ h2, fun e what hu => (h4 e what hu).1⟩
  · exact Or.inl ⟨he, C140_tree_lost S L info t cls save hsave full cut h1 _ h2 hcut he⟩

section Examples
private def S0 : SaveEnv := ⟨true, id, fun _ => true⟩
private def L0 : LoadEnv := ⟨id, fun n => BitVec.ofInt 64 n, fun _ => 7⟩
private def t0 : Tree := .split [("a", 1), ("b", 1)] "a" ⟨⟨0, .float "x" 2⟩, 5⟩ ["0", "1"] fun k =>
  if k = "0" then .leaf [("a", 1)] "a" else .leaf [("b", 1)] "b"
private def info0 (_ : List String) : LeafInfo := ⟨1, none⟩

/-- The hypotheses of `C140_tree_crash` hold for a tree with a test, and those of `C140_tree_lost` for its file and each of its parts. -/
example : L0.viaFloat = S0.viaFloat ∧ (∀ p r, (info0 p).rule = some (some r) → RuleKept S0 r) ∧ t0.Keyed ∧
    t0.AllRules (RuleKept S0) ∧ AttrKept S0.nilVals S0.viaFloat (.cat "c" ["a", "b"]) :=
  ⟨rfl, by simp [info0], by simp [t0, Tree.Keyed], by simp [t0, Tree.AllRules, RuleKept, AttrKept, S0], by simp [AttrKept, S0]⟩

/-- The outcomes for the five parts of this file. -/
example : ((saveID3 S0 info0 t0 (.cat "c" ["a", "b"])).map fun full => (List.range 5).map fun k =>
    (loadTreeFile L0 (full.take k)).isOk) = Res.ok [false, false, false, false, true] := by decide +kernel

private def aX : Attr := ⟨0, .float "x" 2⟩
private def aC : Attr := ⟨1, .cat "c" ["a", "b"]⟩
private def G0 : GridEnv := ⟨id, Grid.allClassAttributes,
  fun g => attrDifferenceRefs g.allAttributes g.allClassAttributes, 4096, fun i => 1000 + i, fun _ w => w⟩
private def data0 : Res Dense :=
  (run 4096 [.add aX, .add aC, .addClass aC, .extend 2, .set 0 0 (packU64 3), .set 0 1 (packU64 9), .set 1 1 (packU64 1)]).map St.d
private def d0 : Dense :=
  match data0 with
  | .ok d => d
  | _ => Dense.new

/-- A nearest neighbours classifier: the outcomes for the eight parts of its file. -/
example : ((saveKnnFile G0 true [0, 1] ⟨"euclidean", "linear", 1, false, false, .dense d0⟩).map fun full =>
    (List.range 8).map fun k => (loadKnnFile G0 id (full.take k)).isOk) =
      Res.ok [false, false, false, false, false, false, false, true] := by decide +kernel

/-- A table: the outcomes for the six parts of its file, and for the file with 31 and with 32 bytes of its cells. -/
example : ((serializeInstances id true [aC] [aX] [0, 1] (.dense d0) "T").map fun full =>
      ((List.range 6).map fun k => (deserializeInstances 4096 (1000 + ·) id id (fun _ w => w) (full.take k) "T").isOk,
        [31, 32].map fun k => (deserializeInstances 4096 (1000 + ·) id id (fun _ w => w) (full.take 4 ++ full.drop 4 |>.map fun e =>
          match e with
          | (n, .bytes b) => if n = "TDATA" then (n, .bytes (b.take k)) else (n, .bytes b)
          | e => e) "T").isOk)) =
      Res.ok ([false, false, false, false, false, true], [false, true]) := by decide +kernel

/-- A forest of two trees: the outcomes for the parts of its file. -/
example : ((saveForest G0 S0 1 [⟨t0, info0, aC.body⟩, ⟨t0, info0, aC.body⟩] (match run 4096 [.add aX, .add aC, .addClass aC] with
        | .ok st => st.d
        | _ => Dense.new) [(0, [aX, aC]), (1, [aX, aC])]).map fun full =>
      (full.length, (List.range 15).map fun k => (loadForest G0 (fun _ => L0) id 2 (full.take k)).isOk)) =
    Res.ok (14, List.replicate 14 false ++ [true]) := by decide +kernel
end Examples

end Golearn
