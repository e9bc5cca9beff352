import Verif.Proofs.SaveKnn
import Verif.Props.C44

/-! # C101: a nearest neighbours classifier that is saved and loaded predicts the same -/

namespace Golearn

/-- Saving a classifier to a file and loading it restores its parameters and its training data: the same attributes, class attributes
and values, the rows in the order in which they were written. -/
theorem C101_file_partial (G : GridEnv) (hG : G.Ok) (nilVals : Bool) (viaFloat : Int → Int) (m : KnnModel) (n : Nat)
    (hg : GridKept nilVals viaFloat m.train n) (hk : viaFloat m.neighbours = m.neighbours) (order : List Nat)
    (ho : m.train.RowOrder order) (hread : n = 0 ∨ ReadsSuffice G.chunk m.train) :
    ∃ ar m', saveKnnFile G nilVals order m = Res.ok ar ∧ loadKnnFile G viaFloat ar = Res.ok m' ∧ m.Restored order n m' := by
  obtain ⟨es, g1, g2, d, g3, g4, g5, g6, g7, g8⟩ := grid_entries G hG nilVals viaFloat m.train n hg order ho hread "TrainingInstances"
  have hd : ∀ p ∈ classifierStub (metadataJson "KNN" "1.0" (knnParams m)), ∀ q ∈ es, p.1 ≠ q.1 := by
    intro p hp q hq e
    obtain ⟨s, _, hs⟩ := g2 q hq
    rw [hs] at e
    have ht := congrArg (fun s => s.toList.take 3) e
    simp only [String.toList_append] at ht
    rw [List.take_append_of_le_length (by decide)] at ht
    simp only [classifierStub, List.mem_cons, List.not_mem_nil, or_false] at hp
    rcases hp with rfl | rfl
    · exact absurd ht (by decide)
    · change List.take 3 (tarPrefix "" "METADATA").toList = List.take 3 "TrainingInstances".toList at ht
      exact absurd ht (by decide)
  refine ⟨classifierStub (metadataJson "KNN" "1.0" (knnParams m)) ++ es, ⟨m.distance, m.algorithm, m.neighbours, m.weighted, m.allowOpt, .dense d⟩,
    ?_, ?_, ⟨rfl, rfl, rfl, rfl, rfl, d, rfl, ⟨g4, g5, g6, g7, g8⟩⟩⟩
  · rw [saveKnnFile, saveKnn, if_neg (by simp [newWriter]), show tarPrefix "" "TrainingInstances" = "TrainingInstances" from rfl, g1]
    rfl
  · rw [loadKnnFile, readStub_eq, Res.bind_ok]
    have := g3 _ (agrees_self _ es hd)
    rw [loadKnn, show tarPrefix "" "TrainingInstances" = "TrainingInstances" from rfl, this]
    show Res.ok (⟨m.distance, m.algorithm, (viaFloat (m.neighbours : Int)).toNat, m.weighted, m.allowOpt, .dense d⟩ : KnnModel) = _
    rw [hk]
    rfl

section
variable {R : Type} [Field R] [LinearOrder R]

/-- The choices with the original table that correspond to choices with the restored one are choices the program can make: they sort
by distance, and visit the rows in an order the original table has. -/
theorem C101_reordered (order : List Nat) (n : Nat) (ho : order.Perm (List.range n)) (e : KnnEnv R)
    (hs : ∀ r, SortsKeys (e.sortKeys r)) : ∀ r, SortsKeys ((e.reordered order).sortKeys r) := by
  intro r v l
  obtain ⟨h1, h2⟩ := hs r (fun i => v (rowOf order i)) (l.map (rowPos order))
  refine ⟨?_, ?_⟩
  · refine (h1.map _).trans ?_
    rw [List.map_map, List.map_congr_left (f := rowOf order ∘ rowPos order) (g := id) (fun a _ => rowOf_rowPos ho a), List.map_id]
  · show ((e.sortKeys r (fun i => v (rowOf order i)) (l.map (rowPos order))).map (rowOf order)).Pairwise _
    rw [List.pairwise_map]
    exact h2

/-- A table that was written from the first row to the last is not reordered. -/
theorem C101_in_order (n : Nat) (e : KnnEnv R) (hT : ∀ r, e.orderT r = List.range n) : e.reordered (List.range n) = e := by
  have h1 : rowOf (List.range n) = id := by
    funext i
    by_cases h : i < n <;> simp [rowOf, h]
  have h2 : rowPos (List.range n) = id := by
    funext i
    have := rowPos_rowOf (List.Perm.refl (List.range n)) i
    rwa [h1] at this
  have h3 : e.orderT = fun _ => List.range n := funext hT
  cases e
  simp only [KnnEnv.reordered, h1, h2, List.map_id, id_eq] at h3 ⊢
  rw [h3]

/-- What is loaded predicts what was saved predicts, for every data to predict, whatever the distance function, the search algorithm,
the number of neighbours and the weighting, unless the optimised path is allowed for it (see `C101_optimised_fails`): if the choices of
the program (the sort of the distances, the order of the rows) are those that correspond. -/
theorem C101_predicts_same_partial (nilVals : Bool) (viaFloat : Int → Int) (m m' : KnnModel) (n : Nat)
    (hg : GridKept nilVals viaFloat m.train n) (hp : m.train.plain = true) (order : List Nat) (ho : m.train.RowOrder order)
    (hr : m.Restored order n m') (hopt : m.allowOpt = false ∨ m.algorithm ≠ "linear" ∨ m.distance ≠ "euclidean")
    (M : KnnMetrics R) (e : KnnEnv R) (hs : PositionSort e.srt) (hk : ∀ r, SortsKeys (e.sortKeys r))
    (hT : ∀ r, m'.train.RowOrder (e.orderT r)) (c : KnnChoices R) (hkd : ∀ data, SortsBy data (c.srtKd data))
    (hB : m'.train.RowOrder c.orderB) (what : Grid) :
    knnPredict M e c m' what = knnPredict M (e.reordered order) { c with orderB := order } m what := by
  have ho' := hg.presents.order _ ho
  obtain ⟨d, ed, hd⟩ := hr.train
  have hn : d.maxRow = n := hd.presents.rows
  have hT' : ∀ r, e.orderT r = List.range n := by
    intro r
    have := hT r
    rw [ed] at this
    rw [← hn]
    exact this
  have hB' : c.orderB = List.range n := by
    rw [ed] at hB
    rw [← hn]
    exact hB
  have h1 : ¬ (m'.algorithm = "linear" ∧ m'.allowOpt = true ∧ m'.distance = "euclidean") := by
    rw [hr.algorithm, hr.allowOpt, hr.distance]
    rintro ⟨a, b, c⟩
    rcases hopt with h | h | h
    · rw [h] at b; cases b
    · exact h a
    · exact h c
  have h2 : ¬ (m.algorithm = "linear" ∧ m.allowOpt = true ∧ m.distance = "euclidean") := by
    rwa [hr.algorithm, hr.allowOpt, hr.distance] at h1
  unfold knnPredict
  rw [hr.distance]
  cases M.named m.distance with
  | none => rfl
  | some dist =>
    dsimp only
    rw [hr.algorithm]
    split
    · rfl
    · rw [ed, checkCompatible_restored hd.same]
      cases checkCompatible what m.train with
      | none => rfl
      | some all =>
        dsimp only
        unfold knnOptimised
        rw [if_neg h1, if_neg h2]
        exact general_same hg hr ho' hp { e with dist := dist } hs (fun r v l => (hk r v l).1) hT' c hkd hB' what

/-- Saving to a file and loading: the two together. -/
theorem C101_roundtrip_partial (G : GridEnv) (hG : G.Ok) (nilVals : Bool) (viaFloat : Int → Int) (m : KnnModel) (n : Nat)
    (hg : GridKept nilVals viaFloat m.train n) (hp : m.train.plain = true) (hn : viaFloat m.neighbours = m.neighbours) (order : List Nat)
    (ho : m.train.RowOrder order) (hread : n = 0 ∨ ReadsSuffice G.chunk m.train)
    (hopt : m.allowOpt = false ∨ m.algorithm ≠ "linear" ∨ m.distance ≠ "euclidean") :
    ∃ ar m', saveKnnFile G nilVals order m = Res.ok ar ∧ loadKnnFile G viaFloat ar = Res.ok m' ∧
      ∀ (M : KnnMetrics R) (e : KnnEnv R) (c : KnnChoices R) (what : Grid), PositionSort e.srt → (∀ r, SortsKeys (e.sortKeys r)) →
        (∀ r, m'.train.RowOrder (e.orderT r)) → (∀ data, SortsBy data (c.srtKd data)) → m'.train.RowOrder c.orderB →
        knnPredict M e c m' what = knnPredict M (e.reordered order) { c with orderB := order } m what := by
  obtain ⟨ar, m', h1, h2, h3⟩ := C101_file_partial G hG nilVals viaFloat m n hg hn order ho hread
  exact ⟨ar, m', h1, h2, fun M e c what hs hk hT hkd hB =>
    C101_predicts_same_partial nilVals viaFloat m m' n hg hp order ho h3 hopt M e hs hk hT c hkd hB what⟩

/-- If the training data are dense instances, the choices are the same, and so are the predictions. -/
theorem C101_dense_partial (nilVals : Bool) (viaFloat : Int → Int) (m m' : KnnModel) (n : Nat) (tr : Dense) (ht : m.train = .dense tr)
    (hg : GridKept nilVals viaFloat m.train n) (order : List Nat) (ho : m.train.RowOrder order)
    (hr : m.Restored order n m') (hopt : m.allowOpt = false ∨ m.algorithm ≠ "linear" ∨ m.distance ≠ "euclidean")
    (M : KnnMetrics R) (e : KnnEnv R) (hs : PositionSort e.srt) (hk : ∀ r, SortsKeys (e.sortKeys r))
    (hT : ∀ r, m.train.RowOrder (e.orderT r)) (c : KnnChoices R) (hkd : ∀ data, SortsBy data (c.srtKd data))
    (hB : m.train.RowOrder c.orderB) (what : Grid) : knnPredict M e c m' what = knnPredict M e c m what := by
  have hrows : tr.maxRow = n := by
    have := hg.presents.rows
    rwa [ht] at this
  rw [ht] at ho hB
  have ho1 : order = List.range n := by rw [← hrows]; exact ho
  have hB1 : c.orderB = List.range n := by rw [← hrows]; exact hB
  have hT1 : ∀ r, e.orderT r = List.range n := by
    intro r
    have := hT r
    rw [ht] at this
    rw [← hrows]; exact this
  obtain ⟨d, ed, hd⟩ := hr.train
  have hn : d.maxRow = n := hd.presents.rows
  have := C101_predicts_same_partial nilVals viaFloat m m' n hg (by rw [ht]; rfl) order (by rw [ht]; exact ho) hr hopt M e hs hk
    (fun r => by rw [ed, hT1 r, ← hn]; rfl) c hkd (by rw [ed, hB1, ← hn]; rfl) what
  rw [this, ho1, C101_in_order n e hT1, ← hB1]
end

section Examples
private def fo0 : FloatOps := ⟨fun _ _ => "", fun u v => v.toNat < u.toNat⟩
private def aX : Attr := ⟨0, .float "x" 2⟩
private def aY : Attr := ⟨1, .float "y" 2⟩
private def aC : Attr := ⟨2, .cat "c" ["a", "b"]⟩
private def opsT : List Op :=
  [.add aX, .add aY, .add aC, .addClass aC, .extend 3, .set 0 0 (packU64 1), .set 0 1 (packU64 12), .set 0 2 (packU64 14),
   .set 2 1 (packU64 1), .set 2 2 (packU64 1)]
private def opsW : List Op :=
  [.add ⟨3, .float "x" 2⟩, .add ⟨4, .float "y" 2⟩, .add ⟨5, .cat "c" ["a", "b"]⟩, .addClass ⟨5, .cat "c" ["a", "b"]⟩, .extend 2,
   .set 0 0 (packU64 2), .set 0 1 (packU64 13)]
private def tr0 : Dense :=
  match run 4096 opsT with
  | .ok st => st.d
  | _ => Dense.new
private def pr0 : Dense :=
  match run 4096 opsW with
  | .ok st => st.d
  | _ => Dense.new
private def manhattan0 (x y : List Rat) : Rat := (List.zipWith (fun a b => |a - b|) x y).sum
/-- On this data, where `y` is 0, the two distances are the same. -/
private def M0 : KnnMetrics Rat := ⟨manhattan0, manhattan0, fun _ _ => 0⟩
private def env0 : KnnEnv Rat :=
  ⟨fo0, fun _ => none, 4096, fun u => (u.toNat : Rat), fun _ _ => 0, id, fun _ => keySort, [0, 1], fun _ => [0, 1, 2]⟩
private def treeSort (data : List (List Rat)) (f : Nat) (l : List Nat) : List Nat :=
  l.insertionSort fun i j => coord (data.getD i []) f ≤ coord (data.getD j []) f
private def ch0 : KnnChoices Rat :=
  ⟨fun _ l => l, treeSort, [0, 1, 2], fun l => l.insertionSort fun p q => p.1 ≤ q.1, pr0.agMap.map Prod.fst,
    fun _ => pr0.agMap.map Prod.fst⟩
/-- The features are written in the reverse order. -/
private def G0 : GridEnv := ⟨id, Grid.allClassAttributes,
  fun g => (attrDifferenceRefs g.allAttributes g.allClassAttributes).reverse, 4096, fun i => 1000 + i, fun _ w => w⟩

private theorem hG0 : G0.Ok :=
  ⟨⟨List.range, fun _ => List.Perm.refl _, fun l => (filterMap_range l).symm⟩, fun _ => List.Perm.refl _,
    fun _ => List.reverse_perm _⟩

private theorem run0 : ∃ st, run 4096 opsT = Res.ok st ∧ st.d = tr0 := by
  have h : ((run 4096 opsT).map fun _ => true) = Res.ok true := by decide +kernel
  obtain ⟨st, h1, _⟩ := Res.map_eq_ok.1 h
  exact ⟨st, h1, by rw [tr0, h1]⟩

/-- The training data meets the requirements. -/
private theorem kept0 : GridKept true id (.dense tr0) 3 := by
  obtain ⟨st, h1, h2⟩ := run0
  have D : DenseOK 3 tr0 := h2 ▸ denseOK_run (ops := opsT) (by decide) h1 (by decide)
  have ha : (Grid.dense tr0).allAttributes = [aX, aY, aC] := by decide +kernel
  have hc : (Grid.dense tr0).allClassAttributes = [aC] := by decide +kernel
  exact ⟨D.presents, D.1, D.typed, by decide +kernel, by rw [ha]; decide, by decide, by rw [ha, hc]; decide, by rw [hc]; decide,
    by rw [ha]; simp [AttrKept, aX, aY, aC]⟩

private theorem order0 : (Grid.dense tr0).RowOrder [0, 1, 2] := by
  show [0, 1, 2] = List.range tr0.maxRow
  decide +kernel

private def model0 (distance algorithm : String) (k : Nat) (weighted : Bool) : KnnModel := ⟨distance, algorithm, k, weighted, true, .dense tr0⟩
private def loaded0 (m : KnnModel) : Res KnnModel := (saveKnnFile G0 true [0, 1, 2] m).bind fun ar => loadKnnFile G0 id ar
private def predict0 (m : KnnModel) : Res (List String) :=
  (knnPredict M0 env0 ch0 m (.dense pr0)).bind fun d => mapRes (getClass fo0 (.dense d)) [0, 1]

/-- The hypotheses of `C101_roundtrip_partial` hold for a weighted classifier with the Manhattan distance. -/
example : ∃ ar m', saveKnnFile G0 true [0, 1, 2] (model0 "manhattan" "linear" 3 true) = Res.ok ar ∧ loadKnnFile G0 id ar = Res.ok m' ∧
    ∀ (M : KnnMetrics Rat) (e : KnnEnv Rat) (c : KnnChoices Rat) (what : Grid), PositionSort e.srt → (∀ r, SortsKeys (e.sortKeys r)) →
        (∀ r, m'.train.RowOrder (e.orderT r)) → (∀ data, SortsBy data (c.srtKd data)) → m'.train.RowOrder c.orderB →
        knnPredict M e c m' what = knnPredict M (e.reordered [0, 1, 2]) { c with orderB := [0, 1, 2] } (model0 "manhattan" "linear" 3 true) what :=
  C101_roundtrip_partial G0 hG0 true id _ 3 kept0 rfl rfl [0, 1, 2] order0
    (.inr (.inl fun _ _ => Nat.le_refl _)) (.inr (.inr (by decide)))

/-- Before and after: the training rows are at 1, 12 and 14 and labelled a, b and b, the rows to predict at 2 and 13. With the k-d tree
and two neighbours, with three neighbours, and with three weighted ones. -/
example : predict0 (model0 "manhattan" "kdtree" 2 false) = Res.ok ["a", "b"] ∧
    (loaded0 (model0 "manhattan" "kdtree" 2 false)).bind predict0 = Res.ok ["a", "b"] ∧
    predict0 (model0 "manhattan" "linear" 3 false) = Res.ok ["b", "b"] ∧
    (loaded0 (model0 "manhattan" "linear" 3 false)).bind predict0 = Res.ok ["b", "b"] ∧
    predict0 (model0 "manhattan" "linear" 3 true) = Res.ok ["a", "b"] ∧
    (loaded0 (model0 "manhattan" "linear" 3 true)).bind predict0 = Res.ok ["a", "b"] := by
  refine ⟨?_, ?_, ?_, ?_, ?_, ?_⟩ <;> decide +kernel

/-- Training data whose rows are in another order: the choices that correspond are other ones. -/
example : (env0.reordered [2, 0, 1]).sortKeys 0 (fun r => [5, 3, 4].getD r 0) [0, 1, 2] = [1, 2, 0] := by decide +kernel

/-- The full property, for dense training data: a classifier that was saved and loaded predicts, with the same choices, what it
predicted before. -/
def LoadedKnnPredictsSame : Prop :=
  ∀ (G : GridEnv) (m m' : KnnModel) (n : Nat) (tr : Dense) (order : List Nat) (ar : Archive) (M : KnnMetrics Rat) (e : KnnEnv Rat)
    (c : KnnChoices Rat) (pr : Dense), G.Ok → m.train = .dense tr → GridKept true id m.train n → m.train.RowOrder order →
    saveKnnFile G true order m = Res.ok ar → loadKnnFile G id ar = Res.ok m' →
    PositionSort e.srt → (∀ r, SortsKeys (e.sortKeys r)) → (∀ r, m.train.RowOrder (e.orderT r)) → m.train.RowOrder c.orderB →
    knnPredict M e c m' (.dense pr) = knnPredict M e c m (.dense pr)

/-- It is false of the code: the features may come back in another order, and then the optimised path, which ignores the weights, is not
taken any more. Before saving, the majority of all three rows decides; afterwards, the nearest one outweighs the others. -/
theorem C101_optimised_fails : ¬ LoadedKnnPredictsSame := by
  intro H
  have h1 : predict0 (model0 "euclidean" "linear" 3 true) = Res.ok ["b", "b"] := by decide +kernel
  have h2 : (loaded0 (model0 "euclidean" "linear" 3 true)).bind predict0 = Res.ok ["a", "b"] := by decide +kernel
  obtain ⟨m', l1, h2⟩ := Res.bind_eq_ok.1 h2
  obtain ⟨ar, f1, f2⟩ := Res.bind_eq_ok.1 l1
  have := H G0 _ m' 3 tr0 [0, 1, 2] ar M0 env0 ch0 pr0 hG0 rfl kept0 order0 f1 f2 hG0.sort (fun _ => keySort_sorts)
    (fun _ => order0) order0
  unfold predict0 at h1 h2
  rw [this, h1] at h2
  exact absurd h2 (by decide)
end Examples

end Golearn
