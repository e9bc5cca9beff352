import Verif.Props.C99
import Verif.Props.C100
import Verif.Props.C101

/-! # C102: classifiers that can be saved can be saved as members of an ensemble -/

namespace Golearn

/-! ## Classifiers that leave the file open -/

/-- Bagged models can be members of bagged models: if the classifiers of every member are restored and leave the file open, saving the
whole to a file and loading it restores every classifier of every member. -/
theorem C102_nested_partial {M μ : Type} (G : GridEnv) (hG : G.Ok) (nilVals : Bool) (viaFloat : Int → Int)
    (save : M → Writer → String → Res Writer) (load : Nat → Nat → Archive → String → Res μ) (good : Nat → Nat → μ → Prop)
    (features : U64) (bags : List (U64 × List M × Dense × GoMap Nat (List Attr)))
    (hm : ∀ i b, bags[i]? = some b → BagKept nilVals viaFloat b.2.2.1 b.2.2.2 ∧
      ∀ j m, b.2.1[j]? = some m → Restores (save m) (load i j) (good i j) false)
    (fitOn : Dense) (sel : GoMap Nat (List Attr)) (hb : BagKept nilVals viaFloat fitOn sel) :
    ∃ ar r, saveBagFile G nilVals (fun b => saveBag G nilVals save b.1 b.2.1 b.2.2.1 b.2.2.2) features bags fitOn sel = Res.ok ar ∧
      loadBagFile G viaFloat (fun i => loadBag G viaFloat (load i) ((bags[i]?.map fun b => b.2.1.length).getD 0)) bags.length ar = Res.ok r ∧
      r.features = features ∧ r.models.length = bags.length ∧ SameSelected sel r.selected ∧
      ∀ i q, r.models[i]? = some q → ∃ b, bags[i]? = some b ∧ q.features = b.1 ∧ q.models.length = b.2.1.length ∧
        SameSelected b.2.2.2 q.selected ∧ ∀ j m, q.models[j]? = some m → good i j m := by
  obtain ⟨ar, r, h1, h2, h3, h4, h5, _, h6⟩ := C99_bagging_file_partial G hG nilVals viaFloat
    (fun b : U64 × List M × Dense × GoMap Nat (List Attr) => saveBag G nilVals save b.1 b.2.1 b.2.2.1 b.2.2.2)
    (fun i => loadBag G viaFloat (load i) ((bags[i]?.map fun b => b.2.1.length).getD 0))
    (fun i q => ∃ b, bags[i]? = some b ∧ q.features = b.1 ∧ q.models.length = b.2.1.length ∧
        SameSelected b.2.2.2 q.selected ∧ ∀ j m, q.models[j]? = some m → good i j m) features bags
    (by
      intro i b hi
      obtain ⟨k1, k2⟩ := hm i b hi
      have := C99_bagging_partial G hG nilVals viaFloat save (load i) (good i) b.1 b.2.1 k2 b.2.2.1 b.2.2.2 k1
      rw [hi, Option.map_some, Option.getD_some]
      intro pre
      obtain ⟨es, e1, e2, e3⟩ := this pre
      refine ⟨es, e1, e2, fun ar ha => ?_⟩
      obtain ⟨q, q1, q2, q3, q4, _, q6⟩ := e3 ar ha
      exact ⟨q, q1, b, rfl, q2, q3, q6, q4⟩) fitOn sel hb
  exact ⟨ar, r, h1, h2, h3, h4, h6, h5⟩

/-- Bagged naive Bayes classifiers: saving and loading restores every one of them. -/
theorem C102_bagged_bayes_partial {K : Type} (G : GridEnv) (hG : G.Ok) (nilVals : Bool) (viaFloat : Int → Int) (num : K → U64) (val : U64 → K)
    (fin : U64 → Bool) (features : U64) (models : List (NB K × Dense)) (hm : ∀ m ∈ models, m.1.Kept nilVals viaFloat num val fin m.2)
    (fitOn : Dense) (sel : GoMap Nat (List Attr)) (hb : BagKept nilVals viaFloat fitOn sel) :
    ∃ ar r, saveBagFile G nilVals (fun m : NB K × Dense => saveNB G nilVals num fin m.1 m.2) features models fitOn sel = Res.ok ar ∧
      loadBagFile G viaFloat (fun _ => loadNB G viaFloat val) models.length ar = Res.ok r ∧ r.features = features ∧
      r.models.length = models.length ∧ SameSelected sel r.selected ∧
      ∀ (i : Nat) (q : NB K × Dense), r.models[i]? = some q → ∃ m, models[i]? = some m ∧ m.1.Same q.1 := by
  obtain ⟨ar, r, h1, h2, h3, h4, h5, _, h6⟩ := C99_bagging_file_partial G hG nilVals viaFloat
    (fun m : NB K × Dense => saveNB G nilVals num fin m.1 m.2) (fun _ => loadNB G viaFloat val)
    (fun i (q : NB K × Dense) => ∃ m, models[i]? = some m ∧ m.1.Same q.1) features models
    (by
      intro i m hi pre
      obtain ⟨es, e1, e2, e3⟩ := C100_restores_partial G hG nilVals viaFloat num val fin m.1 m.2 (hm m (List.mem_of_getElem? hi)) pre
      refine ⟨es, e1, e2, fun ar ha => ?_⟩
      obtain ⟨q, q1, q2, _⟩ := e3 ar ha
      exact ⟨q, q1, m, hi, q2⟩) fitOn sel hb
  exact ⟨ar, r, h1, h2, h3, h4, h6, h5⟩

/-! ## Classifiers that close the file -/

private theorem saveEach_closed {M : Type} (save : M → Writer → String → Res Writer) (key : Nat → String)
    (hc : ∀ m w pre w', save m w pre = Res.ok w' → w'.closed = true) :
    ∀ (ms : List M) (i : Nat) (w w' : Writer), ms ≠ [] → saveEach save key ms i w = Res.ok w' → w'.closed = true := by
  intro ms
  induction ms with
  | nil => intro i w w' h; exact absurd rfl h
  | cons m ms ih =>
    intro i w w' _ h
    rw [saveEach] at h
    obtain ⟨w1, h1, h2⟩ := Res.bind_eq_ok.1 h
    by_cases hm : ms = []
    · subst hm
      rw [saveEach, Res.ok.injEq] at h2
      rw [← h2]
      exact hc m w _ w1 h1
    · exact ih _ _ _ hm h2

/-- If saving a classifier closes the file it is saved to, then no bagged model of such classifiers can be saved, whatever the classifiers,
the training data, the selected attributes and the file. -/
theorem C102_closing_never_saved {M : Type} (save : M → Writer → String → Res Writer)
    (hc : ∀ m w pre w', save m w pre = Res.ok w' → w'.closed = true)
    (G : GridEnv) (nilVals : Bool) (features : U64) (models : List M) (hm : models ≠ []) (fitOn : Dense) (sel : GoMap Nat (List Attr))
    (w w' : Writer) (pre : String) : saveBag G nilVals save features models fitOn sel w pre ≠ Res.ok w' := by
  intro h
  unfold saveBag at h
  obtain ⟨w1, _, h⟩ := Res.bind_eq_ok.1 h
  obtain ⟨w2, _, h⟩ := Res.bind_eq_ok.1 h
  obtain ⟨w3, h3, h⟩ := Res.bind_eq_ok.1 h
  obtain ⟨w4, h4, _⟩ := Res.bind_eq_ok.1 h
  rw [Writer.structure, if_pos (saveEach_closed save _ hc models 0 w2 w3 hm h3)] at h4
  cases h4

theorem saveKnn_closes (G : GridEnv) (nilVals : Bool) (order : List Nat) (m : KnnModel) (w : Writer) (pre : String) (w' : Writer)
    (h : saveKnn G nilVals order m w pre = Res.ok w') : w'.closed = true := by
  unfold saveKnn at h
  split at h
  · cases h
  · obtain ⟨es, _, h⟩ := Res.bind_eq_ok.1 h
    unfold Writer.close at h
    split at h
    · cases h
    · rw [Res.ok.injEq] at h
      rw [← h]

/-- Bagged nearest neighbours classifiers can never be saved: whatever their training data, if it survives being written, each of them can
be saved to a file of its own, and saving them together is an error. -/
theorem C102_bagged_knn_fails (G : GridEnv) (hG : G.Ok) (nilVals : Bool) (viaFloat : Int → Int) (features : U64)
    (models : List (List Nat × KnnModel)) (hm : models ≠ [])
    (hk : ∀ m ∈ models, ∃ n, GridKept nilVals viaFloat m.2.train n ∧ viaFloat m.2.neighbours = m.2.neighbours ∧
      m.2.train.RowOrder m.1 ∧ (n = 0 ∨ ReadsSuffice G.chunk m.2.train))
    (fitOn : Dense) (sel : GoMap Nat (List Attr)) :
    (∀ m ∈ models, ∃ ar m', saveKnnFile G nilVals m.1 m.2 = Res.ok ar ∧ loadKnnFile G viaFloat ar = Res.ok m' ∧
      ∃ n, m.2.Restored m.1 n m') ∧
    saveBagFile G nilVals (fun m : List Nat × KnnModel => saveKnn G nilVals m.1 m.2) features models fitOn sel = Res.err := by
  refine ⟨?_, ?_⟩
  · intro m hmm
    obtain ⟨n, k1, k2, k3, k4⟩ := hk m hmm
    obtain ⟨ar, m', h1, h2, h3⟩ := C101_file_partial G hG nilVals viaFloat m.2 n k1 k2 m.1 k3 k4
    exact ⟨ar, m', h1, h2, n, h3⟩
  · have step : ∀ (ms : List (List Nat × KnnModel)) (i : Nat) (w : Writer), (∀ m ∈ ms, m ∈ models) →
        saveEach (fun m : List Nat × KnnModel => saveKnn G nilVals m.1 m.2) (bagKey "") ms i w ≠ Res.panic := by
      intro ms
      induction ms with
      | nil => intro i w _ h; cases h
      | cons m ms ih =>
        intro i w hsub h
        rw [saveEach] at h
        obtain ⟨n, k1, k2, k3, k4⟩ := hk m (hsub m (List.mem_cons_self ..))
        obtain ⟨es, g1, _⟩ := grid_entries G hG nilVals viaFloat m.2.train n k1 m.1 k3 k4 (tarPrefix (bagKey "" i) "TrainingInstances")
        have hs : saveKnn G nilVals m.1 m.2 w (bagKey "" i) = if w.closed then Res.err else Res.ok ⟨w.entries ++ es, true⟩ := by
          obtain ⟨we, wc⟩ := w
          cases wc <;> simp [saveKnn, g1, Writer.close]
        rw [hs] at h
        split at h
        · cases h
        · exact ih _ _ (fun m' h' => hsub m' (List.mem_cons_of_mem _ h')) h
    have hnok := C102_closing_never_saved (fun m : List Nat × KnnModel => saveKnn G nilVals m.1 m.2)
      (fun m => saveKnn_closes G nilVals m.1 m.2) G nilVals features models hm fitOn sel
      (newWriter (metadataJson "BaggedModel" "1.0" .null))
    rw [saveBagFile]
    cases hb : saveBag G nilVals (fun m : List Nat × KnnModel => saveKnn G nilVals m.1 m.2) features models fitOn sel
      (newWriter (metadataJson "BaggedModel" "1.0" .null)) "" with
    | ok w' => exact absurd hb (hnok w' "")
    | err => rfl
    | panic =>
      exfalso
      unfold saveBag at hb
      simp only [newWriter, Writer.write, Bool.false_eq_true, if_false, Res.bind_ok] at hb
      generalize hw : (⟨_, false⟩ : Writer) = w at hb
      cases hs : saveEach (fun m : List Nat × KnnModel => saveKnn G nilVals m.1 m.2) (bagKey "") models 0 w with
      | ok w3 =>
        rw [hs, Res.bind_ok, Writer.structure, if_pos (saveEach_closed _ _ (fun m => saveKnn_closes G nilVals m.1 m.2) models 0 w w3 hm hs)] at hb
        cases hb
      | err => rw [hs] at hb; cases hb
      | panic => exact step models 0 w (fun _ h => h) hs

private theorem getNamedFile_none {ar : Archive} {k : String} (h : ∀ e ∈ ar, e.1 ≠ k) : getNamedFile ar k = Res.err := by
  induction ar with
  | nil => rfl
  | cons e es ih =>
    obtain ⟨n, b⟩ := e
    rw [getNamedFile, if_neg (h (n, b) (List.mem_cons_self ..))]
    exact ih fun e he => h e (List.mem_cons_of_mem _ he)

/-- Nor could one be loaded from a place inside a file: a nearest neighbours classifier that was saved under a prefix cannot be loaded
from there, because its parameters are only written at the start of a file. -/
theorem C102_knn_prefix_fails (G : GridEnv) (hG : G.Ok) (nilVals : Bool) (viaFloat : Int → Int) (m : KnnModel) (n : Nat)
    (hg : GridKept nilVals viaFloat m.train n) (order : List Nat) (ho : m.train.RowOrder order)
    (hread : n = 0 ∨ ReadsSuffice G.chunk m.train) (name version : String) (params : Json) (pre : String) (hp : pre ≠ "") :
    ∃ w, saveKnn G nilVals order m (newWriter (metadataJson name version params)) pre = Res.ok w ∧
      loadKnn G viaFloat w.entries pre = Res.err := by
  obtain ⟨es, g1, g2, _⟩ := grid_entries G hG nilVals viaFloat m.train n hg order ho hread (tarPrefix pre "TrainingInstances")
  refine ⟨⟨classifierStub (metadataJson name version params) ++ es, true⟩, ?_, ?_⟩
  · rw [saveKnn, if_neg (by simp [newWriter]), g1]
    rfl
  · rw [loadKnn, readMetadataAt, getNamedFile_none]
    · rfl
    · intro e he h
      rw [tarPrefix, if_neg hp] at h
      rcases List.mem_append.1 he with he | he
      · simp only [classifierStub, List.mem_cons, List.not_mem_nil, or_false] at he
        have hrev : (pre ++ "/" ++ "METADATA").toList.reverse.take 9 = "/METADATA".toList.reverse := by
          simp
        rcases he with rfl | rfl
        · rw [← h] at hrev
          exact absurd hrev (by decide)
        · rw [← h] at hrev
          change (tarPrefix "" "METADATA").toList.reverse.take 9 = _ at hrev
          exact absurd hrev (by decide)
      · obtain ⟨s, _, hs⟩ := g2 e he
        rw [hs, tarPrefix, if_neg hp, String.append_assoc, String.append_assoc, String.append_assoc] at h
        have h := congrArg String.toList h
        simp only [String.toList_append, List.append_cancel_left_eq] at h
        have ht := congrArg (List.take 1) h
        rw [List.take_append_of_le_length (by decide)] at ht
        exact absurd ht (by decide)

section Examples
private def aX : Attr := ⟨0, .float "x" 2⟩
private def aC : Attr := ⟨1, .cat "c" ["a", "b"]⟩
private def opsT : List Op := [.add aX, .add aC, .addClass aC, .extend 2, .set 0 1 (packU64 5), .set 1 1 (packU64 1)]
private def opsS : List Op := [.add aX, .add aC, .addClass aC]
private def of (ops : List Op) : Dense :=
  match run 4096 ops with
  | .ok st => st.d
  | _ => Dense.new
private def G0 : GridEnv := ⟨id, Grid.allClassAttributes, fun g => attrDifferenceRefs g.allAttributes g.allClassAttributes, 4096,
  fun i => 1000 + i, fun _ w => w⟩
private theorem hG0 : G0.Ok :=
  ⟨⟨List.range, fun _ => List.Perm.refl _, fun l => (filterMap_range l).symm⟩, fun _ => List.Perm.refl _, fun _ => List.Perm.refl _⟩

private theorem ran (ops : List Op) (h : ((run 4096 ops).map fun _ => true) = Res.ok true) : ∃ st, run 4096 ops = Res.ok st ∧ st.d = of ops := by
  obtain ⟨st, h1, _⟩ := Res.map_eq_ok.1 h
  exact ⟨st, h1, by rw [of, h1]⟩

private theorem keptOf (ops : List Op) (n : Nat) (h : ((run 4096 ops).map fun _ => true) = Res.ok true) (hb : ops.all basicOp = true)
    (hd : (addedAttrs ops).Pairwise fun a b => a.equals b = false) (hn : totalRows ops = n) (hs : n < 2 ^ 64)
    (ha : (Grid.dense (of ops)).allAttributes = [aX, aC]) (hc : (Grid.dense (of ops)).allClassAttributes = [aC])
    (hw : (Grid.dense (of ops)).size.1 = 2) : GridKept true id (.dense (of ops)) n := by
  obtain ⟨st, h1, h2⟩ := ran ops h
  have D : DenseOK n (of ops) := hn ▸ h2 ▸ denseOK_run (ops := ops) (List.all_eq_true.1 hb) h1 hd
  exact ⟨D.presents, D.1, D.typed, by rw [ha, hw]; rfl, by rw [ha]; decide, hs, by rw [ha, hc]; decide, by rw [hc]; decide,
    by rw [ha]; simp [AttrKept, aX, aC]⟩

private theorem keptT : GridKept true id (.dense (of opsT)) 2 :=
  keptOf opsT 2 (by decide +kernel) (by decide) (by decide) (by decide) (by decide) (by decide +kernel) (by decide +kernel) (by decide +kernel)

private theorem keptS : BagKept true id (of opsS) [(0, [aX, aC])] :=
  ⟨keptOf opsS 0 (by decide +kernel) (by decide) (by decide) (by decide) (by decide) (by decide +kernel) (by decide +kernel) (by decide +kernel),
    by decide +kernel, by
      have ha : (of opsS).allAttributes = [aX, aC] := by decide +kernel
      rw [ha]; decide⟩

private def knn0 : KnnModel := KnnModel.new "euclidean" "linear" 1 (.dense (of opsT))

private theorem order0 : (Grid.dense (of opsT)).RowOrder [0, 1] := by
  show [0, 1] = List.range (of opsT).maxRow
  decide +kernel

/-- The hypotheses of `C102_bagged_knn_fails` hold for two classifiers. -/
example : saveBagFile G0 true (fun m : List Nat × KnnModel => saveKnn G0 true m.1 m.2) 0 [([0, 1], knn0), ([0, 1], knn0)] (of opsS) [] = Res.err :=
  (C102_bagged_knn_fails G0 hG0 true id 0 [([0, 1], knn0), ([0, 1], knn0)] (by simp)
    (by
      intro m hm
      have : m = ([0, 1], knn0) := by simpa using hm
      subst this
      exact ⟨2, keptT, rfl, order0, .inr (.inl fun _ _ => Nat.le_refl _)⟩) (of opsS) []).2

/-- And those of `C102_knn_prefix_fails`. -/
example : ∃ w, saveKnn G0 true [0, 1] knn0 (newWriter (metadataJson "KNN" "1.0" (knnParams knn0))) "inner" = Res.ok w ∧
    loadKnn G0 id w.entries "inner" = Res.err :=
  C102_knn_prefix_fails G0 hG0 true id knn0 2 keptT [0, 1] order0 (.inr (.inl fun _ _ => Nat.le_refl _)) "KNN" "1.0" (knnParams knn0) "inner"
    (by decide)

private def nb0 : NB Rat := ⟨[("a", [1])], [("a", 1)], 1, 1, [aX]⟩
private theorem nbKept : nb0.Kept true id (fun _ => 1#64) (fun _ => 1) (fun _ => true) (of opsS) :=
  ⟨keptS.grid, keptS.rows, by
    have ha : (of opsS).allAttributes = [aX, aC] := by decide +kernel
    rw [ha]; decide, by decide, by decide, by decide, by simp [nb0]⟩

/-- The hypotheses of the positive results hold: two naive Bayes classifiers in a bagged model, and two such models in another. -/
example : ∃ ar r, saveBagFile G0 true (fun m : NB Rat × Dense => saveNB G0 true (fun _ => 1#64) (fun _ => true) m.1 m.2) 3
      [(nb0, of opsS), (nb0, of opsS)] (of opsS) [(0, [aX, aC])] = Res.ok ar ∧
    loadBagFile G0 id (fun _ => loadNB G0 id (fun _ => (1 : Rat))) 2 ar = Res.ok r ∧ r.features = 3 := by
  obtain ⟨ar, r, h1, h2, h3, _⟩ := C102_bagged_bayes_partial G0 hG0 true id (fun _ => 1#64) (fun _ => (1 : Rat)) (fun _ => true) 3
    [(nb0, of opsS), (nb0, of opsS)] (by
      intro m hm
      have : m = (nb0, of opsS) := by simpa using hm
      subst this
      exact nbKept) (of opsS) [(0, [aX, aC])] keptS
  exact ⟨ar, r, h1, h2, h3⟩

example : ∃ ar r, saveBagFile G0 true (fun b : U64 × List (NB Rat × Dense) × Dense × GoMap Nat (List Attr) =>
        saveBag G0 true (fun m => saveNB G0 true (fun _ => 1#64) (fun _ => true) m.1 m.2) b.1 b.2.1 b.2.2.1 b.2.2.2) 3
      [(1, [(nb0, of opsS), (nb0, of opsS)], of opsS, []), (2, [(nb0, of opsS)], of opsS, [])] (of opsS) [(0, [aX, aC])] = Res.ok ar ∧
    loadBagFile G0 id (fun i => loadBag G0 id (fun _ => loadNB G0 id (fun _ => (1 : Rat))) (([2, 1] : List Nat)[i]?.getD 0)) 2 ar = Res.ok r ∧
    r.features = 3 ∧ r.models.map (fun b => b.models.length) = [2, 1] := by
  obtain ⟨ar, r, h1, h2, h3, h4, _, h5⟩ := C102_nested_partial G0 hG0 true id
    (fun m : NB Rat × Dense => saveNB G0 true (fun _ => 1#64) (fun _ => true) m.1 m.2) (fun _ _ => loadNB G0 id (fun _ => (1 : Rat)))
    (fun _ _ q => nb0.Same q.1) 3 [(1, [(nb0, of opsS), (nb0, of opsS)], of opsS, []), (2, [(nb0, of opsS)], of opsS, [])]
    (by
      intro i b hb
      have hb := List.mem_of_getElem? hb
      simp only [List.mem_cons, List.not_mem_nil, or_false] at hb
      have hk : BagKept true id (of opsS) [] := ⟨keptS.grid, keptS.rows, by simp⟩
      have hn : ∀ m : NB Rat × Dense, m = (nb0, of opsS) → Restores (saveNB G0 true (fun _ => 1#64) (fun _ => true) m.1 m.2)
          (loadNB G0 id (fun _ => (1 : Rat))) (fun q => nb0.Same q.1) false := by
        rintro m rfl pre
        obtain ⟨es, e1, e2, e3⟩ := C100_restores_partial G0 hG0 true id (fun _ => 1#64) (fun _ => (1 : Rat)) (fun _ => true) nb0 (of opsS) nbKept pre
        refine ⟨es, e1, e2, fun ar ha => ?_⟩
        obtain ⟨q, q1, q2, _⟩ := e3 ar ha
        exact ⟨q, q1, q2⟩
      rcases hb with rfl | rfl
      · exact ⟨hk, fun j m hj => hn m (by simpa using List.mem_of_getElem? hj)⟩
      · exact ⟨hk, fun j m hj => hn m (by simpa using List.mem_of_getElem? hj)⟩) (of opsS) [(0, [aX, aC])] keptS
  refine ⟨ar, r, h1, ?_, h3, ?_⟩
  · rw [← h2]
    congr 2
    funext i
    match i with
    | 0 => rfl
    | 1 => rfl
    | i + 2 => rfl
  · obtain ⟨f, ms, d, s⟩ := r
    match ms, h4, h5 with
    | [q1, q2], _, h5 =>
      obtain ⟨b1, e1, _, l1, _⟩ := h5 0 q1 rfl
      obtain ⟨b2, e2, _, l2, _⟩ := h5 1 q2 rfl
      cases e1
      cases e2
      simp only [List.map_cons, List.map_nil, l1, l2]
      rfl

/-- The full property, for bagged models: whatever the classifiers, if each of them can be saved to a file of its own, and the grid the
bagged model keeps survives being written, then the bagged model can be saved. -/
def SavableTogether : Prop :=
  ∀ (M : Type) (save : M → Writer → String → Res Writer) (G : GridEnv) (features : U64) (models : List M) (fitOn : Dense)
    (sel : GoMap Nat (List Attr)), G.Ok → BagKept true id fitOn sel →
    (∀ m ∈ models, ∀ j, ∃ w, save m (newWriter j) "" = Res.ok w) → ∃ ar, saveBagFile G true save features models fitOn sel = Res.ok ar

/-- It is false of the code: nearest neighbours classifiers close the file. -/
theorem C102_together_fails : ¬ SavableTogether := by
  intro H
  obtain ⟨ar, h⟩ := H (List Nat × KnnModel) (fun m => saveKnn G0 true m.1 m.2) G0 0 [([0, 1], knn0)] (of opsS) [(0, [aX, aC])] hG0 keptS
    (by
      intro m hm j
      have : m = ([0, 1], knn0) := by simpa using hm
      subst this
      obtain ⟨es, g1, _⟩ := grid_entries G0 hG0 true id knn0.train 2 keptT [0, 1] order0 (.inr (.inl fun _ _ => Nat.le_refl _)) "TrainingInstances"
      refine ⟨⟨classifierStub j ++ es, true⟩, ?_⟩
      show saveKnn G0 true [0, 1] knn0 (newWriter j) "" = _
      rw [saveKnn, if_neg (by simp [newWriter]), show tarPrefix "" "TrainingInstances" = "TrainingInstances" from rfl, g1]
      rfl)
  have h2 := (C102_bagged_knn_fails G0 hG0 true id 0 [([0, 1], knn0)] (by simp)
    (by
      intro m hm
      have : m = ([0, 1], knn0) := by simpa using hm
      subst this
      exact ⟨2, keptT, rfl, order0, .inr (.inl fun _ _ => Nat.le_refl _)⟩) (of opsS) [(0, [aX, aC])]).2
  rw [h2] at h
  cases h
end Examples

end Golearn
