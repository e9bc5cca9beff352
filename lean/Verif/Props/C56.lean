import Verif.Props.C55

/-! # C56: CART trees keep to the depth limit and predict labels of the training rows -/

namespace Golearn

variable {K : Type} [Field K] [LinearOrder K] [IsStrictOrderedRing K]

/-- The criteria of classification trees: Gini, or entropy if there is a logarithm. -/
theorem computes_class {lg : K → K} {labels : List Int} (hn : labels.Nodup) {c : Criterion}
    (hc : c = .gini ∨ (c = .entropy ∧ Logarithm lg)) :
    ∃ imp : List Int → K, Computes (classLoss lg labels c) imp IsMode (· ∈ labels) := by
  rcases hc with rfl | ⟨rfl, hlg⟩
  · exact ⟨_, computes_gini lg hn⟩
  · exact ⟨_, computes_entropy hlg hn⟩

/-- The criteria of regression trees. -/
theorem computes_reg {c : Criterion} (hc : c = .mae ∨ c = .mse) :
    ∃ imp : List K → K, Computes (regLoss c) imp (fun y l => l = meanK y) (fun _ => True) := by
  rcases hc with rfl | rfl
  · exact ⟨_, computes_mae⟩
  · exact ⟨_, computes_mse⟩

theorem fit_depth {Y : Type} [Zero Y] {e : CartEnv K Y} {imp : List Y → K} {pick : List Y → Y → Prop} {okY : Y → Prop}
    (hL : Computes e.loss imp pick okY) (hS : SortsIdx e.sortIdx) (hd : 0 ≤ e.maxDepth) {w : Nat} {rows : LRows K Y}
    (hne : rows ≠ []) (hr : Rect w rows) (hok : ∀ p ∈ rows, okY p.2) :
    ∃ tree, cartFit e (rows.map Prod.fst) (rows.map Prod.snd) = Res.ok tree ∧
      (tree.ifNeeded.height : Int) ≤ e.maxDepth ∧ (tree.height : Int) ≤ max e.maxDepth 1 := by
  obtain ⟨t, h1, h2, h3, h4⟩ := cartFit_spec hL hS rows hne hr hok
  have hh := grown_height _ _ _ h2 e.maxDepth.toNat (by unfold depthLimit; rw [if_neg (show ¬ e.maxDepth = -1 by omega)])
  refine ⟨t, h1, by omega, ?_⟩
  by_cases hnil : t.ifNeeded = .nil
  · obtain ⟨a, rfl, _⟩ := h4 hnil
    simp [CNode.height]
  · rw [h3 hnil] at hh
    omega

/-- No path has more tests than the limit; with the limit zero there is one node, which `Predict` still looks at. -/
theorem C56_depth (lg : K → K) (labels : List Int) (hn : labels.Nodup) (c : Criterion)
    (hc : c = .gini ∨ (c = .entropy ∧ Logarithm lg)) (sortIdx : List K → List Nat) (hS : SortsIdx sortIdx)
    (maxDepth : Int) (hd : 0 ≤ maxDepth) (w : Nat) (rows : LRows K Int) (hne : rows ≠ []) (hr : Rect w rows)
    (hok : ∀ p ∈ rows, p.2 ∈ labels) :
    ∃ tree, cartFit ⟨classLoss lg labels c, sortIdx, maxDepth⟩ (rows.map Prod.fst) (rows.map Prod.snd) = Res.ok tree ∧
      (tree.ifNeeded.height : Int) ≤ maxDepth ∧ (tree.height : Int) ≤ max maxDepth 1 := by
  obtain ⟨imp, hL⟩ := computes_class (lg := lg) hn hc
  exact fit_depth (e := ⟨classLoss lg labels c, sortIdx, maxDepth⟩) hL hS hd hne hr hok

/-- The same for regression trees. -/
theorem C56_depth_regression (c : Criterion) (hc : c = .mae ∨ c = .mse) (sortIdx : List K → List Nat)
    (hS : SortsIdx sortIdx) (maxDepth : Int) (hd : 0 ≤ maxDepth) (w : Nat) (rows : LRows K K) (hne : rows ≠ [])
    (hr : Rect w rows) :
    ∃ tree, cartFit ⟨regLoss c, sortIdx, maxDepth⟩ (rows.map Prod.fst) (rows.map Prod.snd) = Res.ok tree ∧
      (tree.ifNeeded.height : Int) ≤ maxDepth ∧ (tree.height : Int) ≤ max maxDepth 1 := by
  obtain ⟨imp, hL⟩ := computes_reg (K := K) hc
  exact fit_depth (e := ⟨regLoss c, sortIdx, maxDepth⟩) hL hS hd hne hr (fun _ _ => trivial)

/-- The whole property of predictions: whatever the training rows and the depth, the label predicted for any row of the same
width is that of a training row. -/
def PredictsTrained : Prop :=
  ∀ (labels : List Int), labels.Nodup → ∀ (maxDepth : Int) (w : Nat) (rows : LRows ℚ Int), rows ≠ [] → Rect w rows →
    (∀ p ∈ rows, p.2 ∈ labels) → ∀ x : List ℚ, x.length = w →
    ∃ tree, cartFit ⟨classLoss (fun x => x) labels .gini, idxSort, maxDepth⟩ (rows.map Prod.fst) (rows.map Prod.snd) =
      Res.ok tree ∧ ∃ l, cartPredict tree x = Res.ok l ∧ ∃ p ∈ rows, p.2 = l

/-- It holds if the tree was split: prediction ends, and the label is a most frequent one of the training rows that take the
same way through the tree. Missing: trees that were not split, because no split is better than none, because all labels are
the same, or because the limit is zero. -/
theorem C56_predicts_partial (lg : K → K) (labels : List Int) (hn : labels.Nodup) (c : Criterion)
    (hc : c = .gini ∨ (c = .entropy ∧ Logarithm lg)) (sortIdx : List K → List Nat) (hS : SortsIdx sortIdx) (maxDepth : Int) (w : Nat) (rows : LRows K Int) (hne : rows ≠ []) (hr : Rect w rows)
    (hok : ∀ p ∈ rows, p.2 ∈ labels) (tree : CNode K Int)
    (hfit : cartFit ⟨classLoss lg labels c, sortIdx, maxDepth⟩ (rows.map Prod.fst) (rows.map Prod.snd) = Res.ok tree)
    (hsplit : tree.ifNeeded ≠ .nil) (x : List K) (hx : w ≤ x.length) :
    ∃ l, cartPredict tree x = Res.ok l ∧ (∃ p ∈ rows, p.2 = l) ∧
      (tree.region x rows).Sublist rows ∧ tree.region x rows ≠ [] ∧ IsMode ((tree.region x rows).map Prod.snd) l := by
  obtain ⟨imp, hL⟩ := computes_class (lg := lg) hn hc
  obtain ⟨t, h1, h2, h3, h4⟩ := cartFit_spec (e := ⟨classLoss lg labels c, sortIdx, maxDepth⟩) hL hS rows hne hr hok
  rw [hfit] at h1
  cases h1
  rw [h3 hsplit] at h2
  obtain ⟨g1, g2, o, g3, _, g5⟩ := grown_predict tree _ rows hne h2 x hx
  obtain ⟨l, rfl, hl⟩ := g5 (fun e => hsplit (by rw [e]; rfl))
  refine ⟨l, by unfold cartPredict; rw [g3, Res.bind_ok], ?_, g2, g1, hl⟩
  obtain ⟨p, hp, e⟩ := List.mem_map.1 hl.1
  exact ⟨p, g2.subset hp, e⟩

/-- A regression tree that was split predicts the mean of the training rows that take the same way. -/
theorem C56_regression_partial (c : Criterion) (hc : c = .mae ∨ c = .mse) (sortIdx : List K → List Nat)
    (hS : SortsIdx sortIdx) (maxDepth : Int) (w : Nat) (rows : LRows K K) (hne : rows ≠ []) (hr : Rect w rows)
    (tree : CNode K K)
    (hfit : cartFit ⟨regLoss c, sortIdx, maxDepth⟩ (rows.map Prod.fst) (rows.map Prod.snd) = Res.ok tree)
    (hsplit : tree.ifNeeded ≠ .nil) (x : List K) (hx : w ≤ x.length) :
    (tree.region x rows).Sublist rows ∧ tree.region x rows ≠ [] ∧
      cartPredict tree x = Res.ok (meanK ((tree.region x rows).map Prod.snd)) := by
  obtain ⟨imp, hL⟩ := computes_reg (K := K) hc
  obtain ⟨t, h1, h2, h3, h4⟩ := cartFit_spec (e := ⟨regLoss c, sortIdx, maxDepth⟩) hL hS rows hne hr (fun _ _ => trivial)
  rw [hfit] at h1
  cases h1
  rw [h3 hsplit] at h2
  obtain ⟨g1, g2, o, g3, _, g5⟩ := grown_predict tree _ rows hne h2 x hx
  obtain ⟨l, rfl, hl⟩ := g5 (fun e => hsplit (by rw [e]; rfl))
  exact ⟨g2, g1, by unfold cartPredict; rw [g3, Res.bind_ok, hl]⟩

/-- What a tree that was not split predicts: a mode of the labels for a row whose first value is negative, and zero for the
others, whatever the labels are. -/
theorem C56_unsplit (lg : K → K) (labels : List Int) (hn : labels.Nodup) (sortIdx : List K → List Nat)
    (hS : SortsIdx sortIdx) (maxDepth : Int) (w : Nat) (rows : LRows K Int) (hne : rows ≠ []) (hr : Rect w rows)
    (hok : ∀ p ∈ rows, p.2 ∈ labels) (tree : CNode K Int)
    (hfit : cartFit ⟨classLoss lg labels .gini, sortIdx, maxDepth⟩ (rows.map Prod.fst) (rows.map Prod.snd) = Res.ok tree)
    (hsplit : tree.ifNeeded = .nil) (v : K) (x : List K) :
    (0 ≤ v → cartPredict tree (v :: x) = Res.ok 0) ∧
    (v < 0 → ∃ l, cartPredict tree (v :: x) = Res.ok l ∧
      if depthLimit maxDepth = some 0 then l = 0 else IsMode (rows.map Prod.snd) l) := by
  obtain ⟨t, h1, _, _, h4⟩ := cartFit_spec (e := ⟨classLoss lg labels .gini, sortIdx, maxDepth⟩) (computes_gini lg hn) hS
    rows hne hr hok
  rw [hfit] at h1
  cases h1
  obtain ⟨a, rfl, h5⟩ := h4 hsplit
  have e : ∀ v : K, cartPredict (.node .nil .nil 0 0 a (0 : Int) false) (v :: x) =
      Res.ok (if v < 0 then a else 0) := by
    intro v
    by_cases h : v < 0 <;> simp [cartPredict, predictNode, h, Res.map, Res.bind]
  refine ⟨fun h => ?_, fun h => ⟨a, ?_, h5⟩⟩
  · rw [e, if_neg (not_lt.2 h)]
  · rw [e, if_pos h]

/-- `cartRows` with a limit of one: the tree is split once, and the label of each side is a mode. -/
example : cartFit ⟨classLoss (fun x => x) [1, 2, 7] .gini, idxSort, 1⟩ (cartRows.map Prod.fst) (cartRows.map Prod.snd) =
      Res.ok (.node .nil .nil (9 / 2) 0 1 7 true) ∧
    cartPredict (.node .nil .nil (9 / 2) 0 (1 : Int) 7 true) [(8 : ℚ), 0] = Res.ok 7 := by decide +kernel

/-- Rows that all have the label 5: the tree predicts 0 for a row of the training data itself. -/
theorem C56_all_the_same : ((cartFit ⟨classLoss (fun x => x) [5] .gini, idxSort, -1⟩ [[(1 : ℚ)], [2]] [5, 5]).bind
    fun t => cartPredict t [1]) = Res.ok 0 := by decide +kernel

/-- The same with labels no split can tell apart. -/
theorem C56_no_better_split : ((cartFit ⟨classLoss (fun x => x) [5, 6] .gini, idxSort, -1⟩
    [[(0 : ℚ), 0], [0, 1], [1, 0], [1, 1]] [5, 6, 6, 5]).bind fun t => cartPredict t [1, 1]) = Res.ok 0 := by
  decide +kernel

/-- And with the limit zero. -/
theorem C56_limit_zero : ((cartFit ⟨classLoss (fun x => x) [5, 6] .gini, idxSort, 0⟩ [[(-1 : ℚ)], [2]] [5, 6]).bind
    fun t => cartPredict t [-1]) = Res.ok 0 := by decide +kernel

/-- So the whole property fails. -/
theorem C56_refuted : ¬ PredictsTrained := by
  intro h
  obtain ⟨t, h1, l, h2, p, hp, hl⟩ := h [5] (by decide) (-1) 1 [([1], 5), ([2], 5)] (by decide)
    (by intro p hp; simp at hp; rcases hp with rfl | rfl <;> rfl) (by intro p hp; simp at hp; rcases hp with rfl | rfl <;> decide)
    [1] rfl
  have := C56_all_the_same
  simp only [List.map_cons, List.map_nil] at h1
  rw [h1, Res.bind_ok, h2] at this
  cases this
  simp at hp
  rcases hp with rfl | rfl <;> exact absurd hl (by decide)

/-- Without any numeric column but the class, prediction panics. -/
theorem C56_no_columns : ((cartFit ⟨classLoss (fun x => x) [5, 6] .gini, idxSort, -1⟩ [([] : List ℚ), []] [5, 6]).bind
    fun t => cartPredict t []) = Res.panic := by decide +kernel

/-- `Evaluate` gives the proportion of rows that are predicted right. -/
theorem C56_evaluate {Y : Type} [DecidableEq Y] (t : CNode K Y) (test : List (List K)) (y preds : List Y)
    (hlen : test.length = y.length) (hne : y ≠ []) (hp : cartPredictAll t test = Res.ok preds) :
    cartEvaluate t test y = Res.ok (some (((preds.zip y).countP fun p => decide (p.1 = p.2) : Nat) / (y.length : K))) := by
  have hl : preds.length = y.length := by
    rw [← hlen]
    unfold cartPredictAll at hp
    exact ((mapRes_eq_ok _ _ _).1 hp).length_eq.symm
  unfold cartEvaluate
  rw [hp, Res.bind_ok]
  have key : ∀ (ps ys pre : List Y), ps.length = ys.length →
      mapRes (fun p : Y × Nat => (atIdx (pre ++ ys) p.2).map fun l => decide (p.1 = l)) (ps.zipIdx pre.length) =
        Res.ok ((ps.zip ys).map fun p => decide (p.1 = p.2)) := by
    intro ps
    induction ps with
    | nil => intro ys pre _; rfl
    | cons p ps ih =>
      intro ys pre h
      cases ys with
      | nil => cases h
      | cons q ys =>
        have := ih ys (pre ++ [q]) (by simpa using h)
        simp only [List.append_assoc, List.singleton_append, List.length_append, List.length_singleton] at this
        rw [List.zipIdx_cons, mapRes, this]
        simp [atIdx, Res.map, Res.bind]
  have := key preds y [] hl
  simp only [List.nil_append, List.length_nil] at this
  rw [this, Res.map_ok, if_neg hne, List.countP_map]
  rfl

/-- `Predict` on a data set predicts its rows one by one: the label for row `r` is that of the numbers of row `r`, in the order
`ResolveAttributes` gives the numeric attributes that are not the class. -/
theorem C56_data_set {Y : Type} (val : U64 → K) (srt : List Spec → List Spec) (hsrt : PositionSort srt) (order : List Nat)
    (t : CNode K Y) (g : Grid) (n : Nat) (P : g.Presents n) (T : g.typed n) (ho : g.RowOrder order) :
    ∃ fs : List Attr, fs.Perm g.nonClassFloats ∧
      ∀ preds : List Y, cartPredictGrid val srt order t g = Res.ok preds ↔
        preds.length = n ∧ ∀ (r : Nat) (hr : r < n) (hp : r < preds.length),
          cartPredict t (g.point val fs r) = Res.ok preds[r] := by
  obtain ⟨fs, hfs, hsp⟩ := positionSort_attrs hsrt g.nonClassFloats
  refine ⟨fs, hfs, fun preds => ?_⟩
  unfold cartPredictGrid cartPredictAll
  rw [problemVec_spec P T ho hfs hsp, Res.bind_ok, mapRes_eq_ok, List.forall₂_iff_get]
  simp only [List.length_map, List.length_range, List.get_eq_getElem, List.getElem_map, List.getElem_range]
  constructor
  · rintro ⟨h1, h2⟩
    exact ⟨h1.symm, fun r hr hp => h2 r hr hp⟩
  · rintro ⟨h1, h2⟩
    exact ⟨h1.symm, fun r hr hp => h2 r hr hp⟩

end Golearn
