import Verif.Proofs.SaveBag
import Verif.Proofs.StructCopy
import Verif.Props.C98

/-! # C99: an ensemble that is saved and loaded predicts the same -/

namespace Golearn

/-- Bagged models whose classifiers can be saved and loaded at a prefix, without closing the file: saving the ensemble at any prefix
of any file succeeds, and loading it into an ensemble with the same number of classifiers succeeds and restores every classifier, the
number of features, the attributes and class attributes of the grid, and the attributes selected for each classifier. -/
theorem C99_bagging_partial {M μ : Type} (G : GridEnv) (hG : G.Ok) (nilVals : Bool) (viaFloat : Int → Int)
    (save : M → Writer → String → Res Writer) (load : Nat → Archive → String → Res μ) (good : Nat → μ → Prop)
    (features : U64) (models : List M)
    (hm : ∀ i m, models[i]? = some m → Restores (save m) (load i) (good i) false)
    (fitOn : Dense) (sel : GoMap Nat (List Attr)) (hb : BagKept nilVals viaFloat fitOn sel) :
    Restores (saveBag G nilVals save features models fitOn sel) (loadBag G viaFloat load models.length)
      (fun b => b.features = features ∧ b.models.length = models.length ∧ (∀ i m, b.models[i]? = some m → good i m) ∧
        SameStructure (.dense fitOn) (.dense b.fitOn) ∧ SameSelected sel b.selected) false := by
  intro pre
  obtain ⟨es, h1, h2, h3⟩ := bag_entries G hG nilVals viaFloat save load good features models hm fitOn sel hb pre
  refine ⟨es, fun e he => ⟨_, (h1 e he).1.choose_spec.1⟩, h2, fun ar ha => ?_⟩
  obtain ⟨b, q1, q2, q3, q4, q5, _, q6, _⟩ := h3 ar ha models.length (Nat.le_refl _)
  exact ⟨b, q1, q2, q3, q4, q5, q6⟩

/-- The same for a whole file. -/
theorem C99_bagging_file_partial {M μ : Type} (G : GridEnv) (hG : G.Ok) (nilVals : Bool) (viaFloat : Int → Int)
    (save : M → Writer → String → Res Writer) (load : Nat → Archive → String → Res μ) (good : Nat → μ → Prop)
    (features : U64) (models : List M)
    (hm : ∀ i m, models[i]? = some m → Restores (save m) (load i) (good i) false)
    (fitOn : Dense) (sel : GoMap Nat (List Attr)) (hb : BagKept nilVals viaFloat fitOn sel) :
    ∃ ar b, saveBagFile G nilVals save features models fitOn sel = Res.ok ar ∧
      loadBagFile G viaFloat load models.length ar = Res.ok b ∧ b.features = features ∧ b.models.length = models.length ∧
      (∀ i m, b.models[i]? = some m → good i m) ∧ SameStructure (.dense fitOn) (.dense b.fitOn) ∧ SameSelected sel b.selected := by
  obtain ⟨es, h1, h2, h3⟩ := bag_entries G hG nilVals viaFloat save load good features models hm fitOn sel hb ""
  have hd : ∀ p ∈ classifierStub (metadataJson "BaggedModel" "1.0" .null), ∀ q ∈ es, p.1 ≠ q.1 := by
    intro p hp q hq e
    obtain ⟨s, hs, ht⟩ := (h1 q hq).1
    rw [hs] at e
    simp only [classifierStub, List.mem_cons, List.not_mem_nil, or_false] at hp
    have e' : p.1 = s := by rw [e, tarPrefix, if_pos rfl]
    rw [← e'] at ht
    rcases hp with rfl | rfl
    · exact absurd ht (by decide)
    · change (tarPrefix "" "METADATA").toList.take 5 ∈ bagTags at ht
      exact absurd ht (by decide)
  obtain ⟨b, q1, q2, q3, q4, q5, _, q6, _⟩ := h3 _ (agrees_self _ es hd) models.length (Nat.le_refl _)
  refine ⟨classifierStub (metadataJson "BaggedModel" "1.0" .null) ++ es, b, ?_, ?_, q2, q3, q4, q5, q6⟩
  · rw [saveBagFile, h2 _ rfl, Res.map_ok]; rfl
  · rw [loadBagFile, readStub_eq, Res.bind_ok]
    exact q1

theorem stub_disjoint_model (name : String) (es : Archive) (h : ∀ e ∈ es, ∃ s, e.1 = tarPrefix "model" s) :
    ∀ p ∈ classifierStub (metadataJson name "1.0" .null), ∀ q ∈ es, p.1 ≠ q.1 := by
  intro p hp q hq e
  obtain ⟨s, hs⟩ := h q hq
  rw [hs] at e
  simp only [classifierStub, List.mem_cons, List.not_mem_nil, or_false] at hp
  have : ("model" : String).toList.take 1 = (tarPrefix "model" s).toList.take 1 := by
    rw [tarPrefix, if_neg (by decide), String.append_assoc, tag_append _ _ _ (by decide)]
  rcases hp with rfl | rfl
  · rw [← e] at this
    exact absurd this (by decide)
  · rw [← e] at this
    change ("model" : String).toList.take 1 = (tarPrefix "" "METADATA").toList.take 1 at this
    exact absurd this (by decide)

/-- What has to be true of a tree of a forest for it to be saved. -/
def SavedTree.Kept (S : SaveEnv) (t : SavedTree) : Prop :=
  (∀ p r, (t.info p).rule = some (some r) → RuleKept S r) ∧ t.tree.Keyed ∧ t.tree.AllRules (RuleKept S) ∧
    AttrKept S.nilVals S.viaFloat t.cls

theorem forest_file (G : GridEnv) (hG : G.Ok) (S : SaveEnv) (L : Nat → LoadEnv) (hL : ∀ i, (L i).viaFloat = S.viaFloat)
    (features : U64) (trees : List SavedTree) (ht : ∀ t ∈ trees, t.Kept S) (fitOn : Dense) (sel : GoMap Nat (List Attr))
    (hb : BagKept S.nilVals S.viaFloat fitOn sel) :
    ∃ ar, saveForest G S features trees fitOn sel = Res.ok ar ∧
      (∀ i, trees.length ≤ i → ∀ s, getNamedFile ar (tarPrefix (bagKey "model" i) s) = Res.err) ∧
      ∀ count, count ≤ trees.length → ∃ b, loadForest G L S.viaFloat count ar = Res.ok b ∧ b.features = features ∧
        b.models.length = count ∧
        (∀ (i : Nat) (m : Tree × AttrBody), b.models[i]? = some m →
          ∃ t : SavedTree, trees[i]? = some t ∧ t.tree.Same m.1 ∧ m.2 = t.cls) ∧
        SameStructure (.dense fitOn) (.dense b.fitOn) ∧ SameSelected sel b.selected := by
  obtain ⟨es, h1, h2, h3⟩ := bag_entries G hG S.nilVals S.viaFloat (fun t : SavedTree => saveTree S t.info t.tree t.cls)
    (fun i => loadTree (L i)) (fun i (m : Tree × AttrBody) => ∃ t : SavedTree, trees[i]? = some t ∧ t.tree.Same m.1 ∧ m.2 = t.cls) features trees
    (by
      intro i t hi
      obtain ⟨k1, k2, k3, k4⟩ := ht t (List.mem_of_getElem? hi)
      intro pre
      obtain ⟨E, e1, e2, e3⟩ := tree_restores S (L i) (hL i) t.info k1 t.tree k2 k3 t.cls k4 pre
      refine ⟨E, e1, e2, fun ar ha => ?_⟩
      obtain ⟨m, m1, m2, m3⟩ := e3 ar ha
      exact ⟨m, m1, t, hi, m2, m3⟩) fitOn sel hb "model"
  refine ⟨classifierStub (metadataJson "KNN" "1.0" .null) ++ es, ?_, ?_, ?_⟩
  · rw [saveForest, h2 _ rfl, Res.map_ok]; rfl
  · intro i hi s
    have hd : ∀ p ∈ classifierStub (metadataJson "KNN" "1.0" .null), p.1 ≠ tarPrefix (bagKey "model" i) s := by
      intro p hp
      exact stub_disjoint_model "KNN" [(tarPrefix (bagKey "model" i) s, .json .null)]
        (by
          intro e he
          simp only [List.mem_singleton] at he
          subst he
          exact ⟨_, bagKey_entry "model" i s⟩) p hp (tarPrefix (bagKey "model" i) s, .json .null) (by simp)
    rw [getNamedFile_append_right hd]
    have : ∀ l : Archive, (∀ e ∈ l, e.1 ≠ tarPrefix (bagKey "model" i) s) → getNamedFile l (tarPrefix (bagKey "model" i) s) = Res.err := by
      intro l
      induction l with
      | nil => intro _; rfl
      | cons e l ih =>
        intro h
        obtain ⟨k, v⟩ := e
        rw [getNamedFile, if_neg (h (k, v) (by simp))]
        exact ih fun q hq => h q (by simp [hq])
    exact this es fun e he => (h1 e he).2 i hi s
  · intro count hc
    obtain ⟨b, q1, q2, q3, q4, q5, _, q6, _⟩ := h3 _
      (agrees_self _ es (stub_disjoint_model "KNN" es fun e he => ⟨_, (h1 e he).1.choose_spec.1⟩)) count hc
    refine ⟨b, ?_, q2, q3, q4, q5, q6⟩
    rw [loadForest, readStub_eq, Res.bind_ok]
    exact q1

/-- Every random forest whose trees can be saved (see C98), saved and loaded into a forest of the same size: both calls succeed. The
loaded forest has the same number of features, and, for every grid that is not filtered lazily, whatever the number of processors and
the orders of the maps, it predicts by running exactly the same pipeline of goroutines on the same votes, so that it predicts the same
under every schedule. -/
theorem C99_forest_partial (G : GridEnv) (hG : G.Ok) (S : SaveEnv) (L : Nat → LoadEnv) (hL : ∀ i, (L i).viaFloat = S.viaFloat)
    (features : U64) (trees : List SavedTree) (ht : ∀ t ∈ trees, t.Kept S) (fitOn : Dense) (sel : GoMap Nat (List Attr))
    (hb : BagKept S.nilVals S.viaFloat fitOn sel) :
    ∃ ar b, saveForest G S features trees fitOn sel = Res.ok ar ∧ loadForest G L S.viaFloat trees.length ar = Res.ok b ∧
      b.features = features ∧ b.models.map Prod.snd = trees.map SavedTree.cls ∧ SameStructure (.dense fitOn) (.dense b.fitOn) ∧
      ∀ (e : Nat → PredEnv) (fo : FloatOps) (srt : List Spec → List Spec) (cpus : Nat) (ord : Nat → Grid → List Nat) (g : Grid),
        g.Unfiltered → (forestOf e (b.models.map Prod.fst) b.selected).pipeline fo srt cpus ord g =
          (forestOf e (trees.map SavedTree.tree) sel).pipeline fo srt cpus ord g := by
  obtain ⟨ar, h1, _, h2⟩ := forest_file G hG S L hL features trees ht fitOn sel hb
  obtain ⟨b, q1, q2, q3, q4, q5, q6⟩ := h2 trees.length (Nat.le_refl _)
  have hget : ∀ i (hi : i < trees.length) (hi' : i < b.models.length),
      trees[i].tree.Same b.models[i].1 ∧ b.models[i].2 = trees[i].cls := by
    intro i hi hi'
    obtain ⟨t, t1, t2, t3⟩ := q4 i b.models[i] (by simp [hi'])
    rw [List.getElem?_eq_getElem hi, Option.some.injEq] at t1
    subst t1
    exact ⟨t2, t3⟩
  refine ⟨ar, b, h1, q1, q2, ?_, q5, ?_⟩
  · apply List.ext_getElem (by simp [q3])
    intro i hi hi'
    simp only [List.getElem_map]
    exact (hget i (by simpa using hi') (by simpa using hi)).2
  · intro e fo srt cpus ord g hu
    apply forest_pipeline e _ _ _ _ _ q6 fo srt cpus ord g hu
    rw [List.forall₂_iff_get]
    refine ⟨by simp [q3], ?_⟩
    intro i hi hi'
    simp only [List.get_eq_getElem, List.getElem_map]
    exact (hget i (by simpa using hi) (by simpa using hi')).1

/-- The size of the forest is not read from the file. Loading into a smaller forest succeeds and keeps the first trees only; loading
into a larger one is an error. -/
theorem C99_forest_size (G : GridEnv) (hG : G.Ok) (S : SaveEnv) (L : Nat → LoadEnv) (hL : ∀ i, (L i).viaFloat = S.viaFloat)
    (features : U64) (trees : List SavedTree) (ht : ∀ t ∈ trees, t.Kept S) (fitOn : Dense) (sel : GoMap Nat (List Attr))
    (hb : BagKept S.nilVals S.viaFloat fitOn sel) (count : Nat) :
    ∃ ar, saveForest G S features trees fitOn sel = Res.ok ar ∧
      (count ≤ trees.length → ∃ b, loadForest G L S.viaFloat count ar = Res.ok b ∧ b.models.length = count) ∧
      (trees.length < count → loadForest G L S.viaFloat count ar = Res.err) := by
  obtain ⟨ar, h1, h0, h2⟩ := forest_file G hG S L hL features trees ht fitOn sel hb
  refine ⟨ar, h1, ?_, ?_⟩
  · intro hc
    obtain ⟨b, q1, _, q3, _⟩ := h2 count hc
    exact ⟨b, q1, q3⟩
  · intro hc
    obtain ⟨b, q1, _, q3, _⟩ := h2 trees.length (Nat.le_refl _)
    unfold loadForest loadBag at q1 ⊢
    obtain ⟨ar', r1, q5⟩ := Res.bind_eq_ok.1 q1
    have har : ar' = ar := by
      unfold readStub at r1
      obtain ⟨_, _, r1⟩ := Res.bind_eq_ok.1 r1
      split at r1
      · cases r1
      · split at r1
        · cases r1
        · obtain ⟨_, _, r1⟩ := Res.bind_eq_ok.1 r1
          split at r1
          · cases r1; rfl
          · cases r1
    subst har
    obtain ⟨f, f1, q6⟩ := Res.bind_eq_ok.1 q5
    obtain ⟨ms, m1, _⟩ := Res.bind_eq_ok.1 q6
    rw [r1, Res.bind_ok, f1, Res.bind_ok]
    have : mapRes (fun i => loadTree (L i) ar' (bagKey "model" i)) (List.range count) = Res.err := by
      have hsplit : List.range count = List.range trees.length ++ trees.length :: (List.range (count - trees.length - 1)).map
          (fun i => trees.length + 1 + i) := by
        have : count = trees.length + (1 + (count - trees.length - 1)) := by omega
        conv_lhs => rw [this]
        rw [List.range_add, List.range_add]
        simp [List.range_one, Nat.add_assoc]
      rw [hsplit]
      have happ : ∀ (f : Nat → Res (Tree × AttrBody)) (l l' : List Nat) (v : List (Tree × AttrBody)), mapRes f l = Res.ok v →
          mapRes f (l ++ l') = (mapRes f l').map (v ++ ·) := by
        intro f l l'
        induction l with
        | nil =>
          intro v hv
          cases hv
          cases h : mapRes f l' <;> simp [h] <;> rfl
        | cons x xs ih =>
          intro v hv
          rw [mapRes] at hv
          obtain ⟨y, hy, hv⟩ := Res.bind_eq_ok.1 hv
          obtain ⟨ys, hys, hv⟩ := Res.bind_eq_ok.1 hv
          cases hv
          rw [List.cons_append, mapRes, hy, Res.bind_ok, ih ys hys]
          cases h : mapRes f l' <;> simp <;> rfl
      rw [happ _ _ _ _ m1, mapRes]
      have : loadTree (L trees.length) ar' (bagKey "model" trees.length) = Res.err := by
        rw [loadTree, h0 _ (Nat.le_refl _)]; rfl
      dsimp only
      rw [this]; rfl
    dsimp only
    rw [this]; rfl

/-- The grid a model keeps when it is trained (`NewStructuralCopy` of the training data) meets the requirements if the attributes of
the training data survive being written and the selected attributes are among them. -/
theorem C99_fitted (nilVals : Bool) (viaFloat : Int → Int) (pg : Nat) (g : Grid) (n : Nat) (K : GridKept nilVals viaFloat g n)
    (classes : List Attr) (hc : classes.Perm g.allClassAttributes) (sel : GoMap Nat (List Attr))
    (hs : ∀ p ∈ sel, ∀ a ∈ p.2, a ∈ g.allAttributes) :
    ∃ fitOn s1 s2, copyStructure pg g classes = Res.ok (fitOn, s1, s2) ∧ BagKept nilVals viaFloat fitOn sel := by
  obtain ⟨d, s1, s2, h1, h2, h3, h4, _⟩ := structural_copy_kept pg g n K classes hc
  exact ⟨d, s1, s2, h1, h2, h3, fun p hp a ha => h4.symm.subset (hs p hp a ha)⟩

section Examples
private def fo0 : FloatOps := ⟨fun _ u => if u = 1 then "one" else "other", fun u v => v.toNat < u.toNat⟩
private def aX : Attr := ⟨0, .float "x" 2⟩
private def aY : Attr := ⟨1, .cat "y" ["red", "green", "blue"]⟩
private def aC : Attr := ⟨2, .cat "c" ["a", "b"]⟩
private def ops : List Op := [.add aX, .add aY, .add aC, .addClass aC]
private def S0 : SaveEnv := ⟨true, id, fun u => u != 0x7ff0000000000000#64⟩
private def L0 (i : Nat) : LoadEnv := ⟨id, fun _ => 0, fun p => 100 * (i + 1) + p.length⟩
private def G0 : GridEnv := ⟨id, Grid.allClassAttributes, fun g => attrDifferenceRefs g.allAttributes g.allClassAttributes, 4096,
  fun i => 1000 + i, fun _ w => w⟩
private def pred0 : PredEnv := ⟨fo0, fun _ => none, 4096, id, id, someOrder, fun _ l => l⟩
private def stump (x y : String) : SavedTree :=
  ⟨.split [("a", 2), ("b", 3)] "b" ⟨aX, 5⟩ ["0", "1"] fun k => if k = "0" then .leaf [("a", 1)] x else .leaf [("b", 1)] y,
    fun _ => ⟨1, some none⟩, aC.body⟩
private def trees0 : List SavedTree := [stump "a" "b", stump "b" "a", stump "b" "a"]
private def sel0 : GoMap Nat (List Attr) := [(1, [aX, aC]), (0, [aX, aY, aC]), (2, [aC, aX])]
private def d0 : Dense :=
  match run 4096 ops with
  | .ok st => st.d
  | _ => Dense.new

private theorem hG0 : G0.Ok :=
  ⟨⟨List.range, fun _ => List.Perm.refl _, fun l => (filterMap_range l).symm⟩, fun _ => List.Perm.refl _, fun _ => List.Perm.refl _⟩

private theorem hB0 : BagKept S0.nilVals S0.viaFloat d0 sel0 := by
  obtain ⟨st, hst⟩ : ∃ st, run 4096 ops = Res.ok st := ⟨_, rfl⟩
  have hd : d0 = st.d := by unfold d0; rw [hst]
  have D : DenseOK 0 d0 := by
    rw [hd]
    exact denseOK_run (by decide) hst (by decide)
  refine ⟨⟨D.presents, D.1, D.typed, rfl, by decide +kernel, by decide, by decide +kernel, by decide +kernel, ?_⟩, by decide +kernel,
    by decide +kernel⟩
  have : (Grid.dense d0).allAttributes = [aX, aY, aC] := by decide +kernel
  rw [this]
  simp [AttrKept, aX, aY, aC, S0]

private theorem hT0 : ∀ t ∈ trees0, t.Kept S0 := by
  have : ∀ x y, (stump x y).Kept S0 := by
    intro x y
    refine ⟨by simp [stump], by simp [stump, Tree.Keyed], ?_, ?_⟩
    · simp [stump, Tree.AllRules, RuleKept, AttrKept, aX, S0]
    · simp [stump, AttrKept, aC, S0]
  intro t ht
  simp only [trees0, List.mem_cons, List.not_mem_nil, or_false] at ht
  rcases ht with rfl | rfl | rfl <;> exact this _ _

/-- The hypotheses hold for a forest of three trees with different attributes selected. -/
example : G0.Ok ∧ (∀ i, (L0 i).viaFloat = S0.viaFloat) ∧ (∀ t ∈ trees0, t.Kept S0) ∧ BagKept S0.nilVals S0.viaFloat d0 sel0 :=
  ⟨hG0, fun _ => rfl, hT0, hB0⟩

private def auto {V σ : Type} (p : Pipeline V σ) : Nat → PipeState V σ → PipeState V σ
  | 0, s => s
  | n + 1, s =>
    match [Thread.main, .worker 0, .worker 1, .collector].filterMap (p.step s) with
    | s' :: _ => auto p n s'
    | [] => s

private def classesOf (b : Bagged) (g : Grid) : Res (List String) :=
  let p := b.pipeline fo0 id 2 (fun _ v => List.range v.size.2) g
  let s := auto p 60 (p.start [])
  if s.pos = .done ∧ s.crashed = false then
    (Bagged.consensus fo0 (fun _ => none) 4096 id (fun _ l => l) g s.tally).bind fun d => mapRes (getClass fo0 (.dense d)) [0, 1]
  else Res.err

private def data0 : Res Dense :=
  (run 4096 (ops ++ [.extend 2, .set 0 0 (packU64 1), .set 0 1 (packU64 9)])).map St.d

private def loadedClasses (count : Nat) : Res (List String) :=
  (saveForest G0 S0 2 trees0 d0 sel0).bind fun ar => (loadForest G0 L0 S0.viaFloat count ar).bind fun b =>
    data0.bind fun d => classesOf (forestOf (fun _ => pred0) (b.models.map Prod.fst) b.selected) (.dense d)

/-- The forest before it is saved, loaded into a forest of the same size, and loaded into a forest with one tree. -/
example : (data0.bind fun d => classesOf (forestOf (fun _ => pred0) (trees0.map SavedTree.tree) sel0) (.dense d)) = Res.ok ["b", "a"] ∧
    loadedClasses 3 = Res.ok ["b", "a"] ∧ loadedClasses 1 = Res.ok ["a", "b"] ∧ loadedClasses 4 = Res.err := by
  refine ⟨?_, ?_, ?_, ?_⟩ <;> decide +kernel

/-- The full property: a forest that has been loaded has all its trees. -/
def LoadedForestsAreWhole : Prop :=
  ∀ (G : GridEnv) (S : SaveEnv) (L : Nat → LoadEnv) (features : U64) (trees : List SavedTree) (fitOn : Dense)
    (sel : GoMap Nat (List Attr)) (ar : Archive) (count : Nat) (b : LoadedBag (Tree × AttrBody)),
    saveForest G S features trees fitOn sel = Res.ok ar → loadForest G L S.viaFloat count ar = Res.ok b →
    b.models.length = trees.length

/-- It is false of the code: the number of trees comes from the forest that is loaded into. -/
theorem C99_whole_forest_fails : ¬ LoadedForestsAreWhole := by
  intro H
  obtain ⟨ar, h1, h2, _⟩ := C99_forest_size G0 hG0 S0 L0 (fun _ => rfl) 2 trees0 hT0 d0 sel0 hB0 1
  obtain ⟨b, h3, h4⟩ := h2 (by decide)
  have := H G0 S0 L0 2 trees0 d0 sel0 ar 1 b h1 h3
  rw [h4] at this
  exact absurd this (by decide)
end Examples

end Golearn
