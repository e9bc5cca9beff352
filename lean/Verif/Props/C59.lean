import Verif.Props.C58
import Verif.Proofs.CartGrid

/-! # C59: anomaly scores -/

namespace Golearn

/-- The mean of the path lengths of a row. -/
noncomputable def meanPath (x : List ℝ) (forest : List (CNode ℝ Nat)) : ℝ :=
  (forest.map fun t => pathLength cFactorNat t x 0).sum / forest.length

/-- With a tree and a sample size of two or more, the score is two to the power of minus the mean path length over a positive
constant, which depends on the sample size only. -/
theorem C59_formula (n : Int) (hn : 2 ≤ n) : ∃ c : ℝ, 0 < c ∧
    c = 2 * (Real.log ((n : ℝ) - 1) + 0.5772156649) - 2 * ((n : ℝ) - 1) / n ∧
    ∀ (x : List ℝ) (forest : List (CNode ℝ Nat)), forest ≠ [] →
      anomalyScore x forest n = some ((2 : ℝ) ^ (-(meanPath x forest / c))) := by
  obtain ⟨c, h1, h2, h3⟩ := cFactor_two n hn
  refine ⟨c, h2, h3, ?_⟩
  intro x forest hf
  unfold anomalyScore
  simp only
  rw [if_neg (by unfold evaluateInstance; simpa using hf), h1]
  simp only [Option.some.injEq]
  congr 1
  unfold meanPath evaluateInstance
  rw [foldl_add_sum, zero_add, List.length_map]
  ring

/-- Scores are positive; they are below one if the mean path length is positive, as it is for every tree that `Fit` makes. -/
theorem C59_range (n : Int) (hn : 2 ≤ n) (x : List ℝ) (forest : List (CNode ℝ Nat)) (hf : forest ≠ [])
    (hp : 0 < meanPath x forest) : ∃ s, anomalyScore x forest n = some s ∧ 0 < s ∧ s < 1 := by
  obtain ⟨c, hc, _, h⟩ := C59_formula n hn
  refine ⟨_, h x forest hf, Real.rpow_pos_of_pos (by norm_num) _, ?_⟩
  apply Real.rpow_lt_one_of_one_lt_of_neg (by norm_num)
  have := div_pos hp hc
  linarith

/-- A longer mean path gives a strictly smaller score, and a smaller score comes from a longer one. -/
theorem C59_decreasing (n : Int) (hn : 2 ≤ n) (x y : List ℝ) (forest forest' : List (CNode ℝ Nat)) (hf : forest ≠ [])
    (hf' : forest' ≠ []) (s s' : ℝ) (hs : anomalyScore x forest n = some s) (hs' : anomalyScore y forest' n = some s') :
    meanPath x forest < meanPath y forest' ↔ s' < s := by
  obtain ⟨c, hc, _, h⟩ := C59_formula n hn
  rw [h x forest hf, Option.some.injEq] at hs
  rw [h y forest' hf', Option.some.injEq] at hs'
  rw [← hs, ← hs', Real.rpow_lt_rpow_left_iff (by norm_num), neg_lt_neg_iff, div_lt_div_iff_of_pos_right hc]

/-- The score of a row in a forest that was fitted: for every data set, every draw of random numbers, depth limits and numbers
of trees from one and sample sizes from two, it lies strictly between zero and one. -/
theorem C59_fitted (eps : ℝ) (pick : Nat → Nat → Nat) (draws : Nat → List Bool → Draws ℝ) (tries nTrees : Nat)
    (hT : 1 ≤ nTrees) (maxDepth : Int) (subSpace : Nat) (hs : 2 ≤ subSpace) (w : Nat)
    (hdraw : ∀ i p k, (draws i p k).1 < w) (data : List (List ℝ)) (hw : ∀ x ∈ data, x.length = w)
    (forest : List (CNode ℝ Nat)) (hfit : isoFit eps pick draws tries nTrees maxDepth subSpace data = Res.ok (some forest))
    (x : List ℝ) :
    forest.length = nTrees ∧ ∃ s, anomalyScore x forest subSpace = some s ∧ 0 < s ∧ s < 1 := by
  unfold isoFit at hfit
  obtain ⟨l, hl, hfold⟩ := Res.map_eq_ok.1 hfit
  rw [mapRes_eq_ok] at hl
  have hall : ∀ (l : List (Option (CNode ℝ Nat))) (forest : List (CNode ℝ Nat)),
      l.foldr (fun t ts => t.bind fun t => ts.map (t :: ·)) (some []) = some forest → l = forest.map some := by
    intro l
    induction l with
    | nil => intro forest h; cases h; rfl
    | cons o os ih =>
      intro forest h
      rw [List.foldr_cons] at h
      obtain ⟨t, rfl, h⟩ := Option.bind_eq_some_iff.1 h
      obtain ⟨ts, hts, rfl⟩ := Option.map_eq_some_iff.1 h
      rw [ih ts hts]
      rfl
  have hlf := hall l forest hfold
  have hlen : forest.length = nTrees := by
    have := hl.length_eq
    rw [hlf] at this
    simpa using this.symm
  refine ⟨hlen, ?_⟩
  apply C59_range _ (by exact_mod_cast hs) x forest (by
    intro e
    rw [e] at hlen
    simp at hlen
    omega)
  unfold meanPath
  have hpos : ∀ t ∈ forest, 1 ≤ pathLength cFactorNat t x 0 := by
    intro t ht
    have : some t ∈ l := by rw [hlf]; exact List.mem_map.2 ⟨t, ht, rfl⟩
    obtain ⟨i, _, h⟩ := forall₂_mem_right hl (some t) this
    obtain ⟨sub, hsub, hb⟩ := Res.map_eq_ok.1 h
    have hsw : ∀ y ∈ sub, y.length = w := by
      intro y hy
      unfold getRandomData at hsub
      rw [mapRes_eq_ok] at hsub
      obtain ⟨j, _, hj⟩ := forall₂_mem_right hsub y hy
      unfold atIdx at hj
      split at hj
      · cases hj
        rename_i e
        exact hw _ (List.mem_of_getElem? e)
      · cases hj
    by_cases hnil : t.ifNeeded = .nil
    · rw [C58_path_unsplit cFactorNat eps (draws i) tries w (hdraw i) maxDepth.toNat sub hsw t hb hnil x]
    · obtain ⟨n, m, h1, _, _, h4⟩ := C58_path cFactorNat eps (draws i) tries w (hdraw i) maxDepth sub hsw t hb hnil x
      rw [h4]
      have h1' : (1 : ℝ) ≤ n := by exact_mod_cast h1
      split
      · linarith
      · have := (cFactorNat_eq m (by omega)).1
        linarith
  have hsum : (0 : ℝ) < (forest.map fun t => pathLength cFactorNat t x 0).sum := by
    have h := List.card_nsmul_le_sum (forest.map fun t => pathLength cFactorNat t x 0) 1 (by
      intro v hv
      obtain ⟨t, ht, rfl⟩ := List.mem_map.1 hv
      exact hpos t ht)
    rw [List.length_map, nsmul_eq_mul, mul_one, hlen] at h
    have : (1 : ℝ) ≤ nTrees := by exact_mod_cast hT
    linarith
  apply div_pos hsum
  rw [hlen]
  exact_mod_cast hT

/-- `Fit` ends with a forest if rows are picked inside the data and at every node every column is drawn at some time. -/
theorem C59_fit_ends {K : Type} [Field K] [LinearOrder K] (eps : K) (pick : Nat → Nat → Nat)
    (draws : Nat → List Bool → Draws K) (tries nTrees : Nat) (maxDepth : Int) (subSpace w : Nat) (data : List (List K))
    (hpick : ∀ i j, pick i j < data.length) (hcover : ∀ i p f, f < w → ∃ k, k < tries ∧ (draws i p k).1 = f)
    (hw : ∀ x ∈ data, x.length = w) :
    ∃ forest, isoFit eps pick draws tries nTrees maxDepth subSpace data = Res.ok (some forest) := by
  have h : ∀ i, ∃ t, ((getRandomData (pick i) data subSpace).map fun sub =>
      buildTree eps (draws i) tries maxDepth.toNat [] sub) = Res.ok (some t) := by
    intro i
    obtain ⟨s, h1, _, h3⟩ := C58_sample (pick i) data (hpick i) subSpace
    obtain ⟨t, ht⟩ := C58_ends eps (draws i) tries w (hcover i) maxDepth s fun x hx => hw x (h3 x hx)
    exact ⟨t, by rw [h1, Res.map_ok, ht]⟩
  choose f hf using h
  refine ⟨(List.range nTrees).map f, ?_⟩
  unfold isoFit
  rw [mapRes_of_ok _ (fun i => some (f i)) _ fun i _ => hf i, Res.map_ok]
  congr 1
  induction List.range nTrees with
  | nil => rfl
  | cons a l ih => rw [List.map_cons, List.foldr_cons, ih]; rfl

/-- A forest of two trees, for two rows of one column. -/
example : ∃ forest, isoFit (1 / 1000000) (fun _ i => i % 2) (fun _ _ _ => (0, 1 / 2)) 1 2 3 2 [[(0 : ℝ)], [1]] =
    Res.ok (some forest) :=
  C59_fit_ends _ _ _ 1 2 3 2 1 _ (fun _ j => Nat.mod_lt j (by norm_num))
    (fun _ _ f hf => ⟨0, by norm_num, by simp only; omega⟩) (by simp)

/-- With a sample size of one all scores are one, whatever the paths. -/
theorem C59_sample_of_one (x : List ℝ) (forest : List (CNode ℝ Nat)) (hf : forest ≠ []) :
    anomalyScore x forest 1 = some 1 := by
  unfold anomalyScore
  simp only
  rw [if_neg (by unfold evaluateInstance; simpa using hf)]
  simp [cFactor]

/-- The property without conditions: a score in (0, 1] for every sample size that is not negative and every forest. -/
def ScoresInRange : Prop := ∀ (x : List ℝ) (forest : List (CNode ℝ Nat)) (n : Int), 0 ≤ n →
  ∃ s, anomalyScore x forest n = some s ∧ 0 < s ∧ s ≤ 1

/-- It fails without trees and for the sample size zero: the score is not a number. -/
theorem C59_refuted : ¬ ScoresInRange ∧
    (∀ x n, anomalyScore x [] n = none) ∧ ∀ x forest, anomalyScore x forest 0 = none := by
  have h1 : ∀ x n, anomalyScore x [] n = none := by
    intro x n
    simp [anomalyScore, evaluateInstance]
  refine ⟨?_, h1, ?_⟩
  · intro h
    obtain ⟨s, hs, _⟩ := h [] [] 5 (by norm_num)
    rw [h1] at hs
    cases hs
  · intro x forest
    unfold anomalyScore
    simp only
    split
    · rfl
    · simp [cFactor]

/-- What remains: scores in (0, 1] for every forest that `Fit` makes from samples of one row or more. Missing: no trees and
empty samples, for which it is false. -/
theorem C59_range_partial (eps : ℝ) (pick : Nat → Nat → Nat) (draws : Nat → List Bool → Draws ℝ) (tries nTrees : Nat)
    (hT : 1 ≤ nTrees) (maxDepth : Int) (subSpace : Nat) (hs : 1 ≤ subSpace) (w : Nat)
    (hdraw : ∀ i p k, (draws i p k).1 < w) (data : List (List ℝ)) (hw : ∀ x ∈ data, x.length = w)
    (forest : List (CNode ℝ Nat)) (hfit : isoFit eps pick draws tries nTrees maxDepth subSpace data = Res.ok (some forest))
    (test : List (List ℝ)) :
    (isoPredict forest subSpace test).length = test.length ∧
    ∀ o ∈ isoPredict forest subSpace test, ∃ s, o = some s ∧ 0 < s ∧ s ≤ 1 := by
  refine ⟨by simp [isoPredict], ?_⟩
  intro o ho
  obtain ⟨x, _, rfl⟩ := List.mem_map.1 ho
  by_cases h2 : 2 ≤ subSpace
  · obtain ⟨_, s, h1, h2, h3⟩ := C59_fitted eps pick draws tries nTrees hT maxDepth subSpace h2 w hdraw data hw forest hfit x
    exact ⟨s, h1, h2, h3.le⟩
  · have e : subSpace = 1 := by omega
    subst e
    refine ⟨1, ?_, one_pos, le_rfl⟩
    have hne : forest ≠ [] := by
      rintro rfl
      unfold isoFit at hfit
      obtain ⟨l, hl, hfold⟩ := Res.map_eq_ok.1 hfit
      rw [mapRes_eq_ok] at hl
      have hlen := hl.length_eq
      cases l with
      | nil => simp at hlen; omega
      | cons o os =>
        rw [List.foldr_cons] at hfold
        obtain ⟨t, rfl, h⟩ := Option.bind_eq_some_iff.1 hfold
        obtain ⟨ts, hts, h⟩ := Option.map_eq_some_iff.1 h
        cases h
    exact_mod_cast C59_sample_of_one x forest hne

/-- The rows that the forest is made of and that it scores: the numeric attributes that are not class attributes, in the order of their
columns, and the class attribute last. -/
theorem C59_rows {K : Type} [Field K] (val : U64 → K) (srt : List Spec → List Spec) (hsrt : PositionSort srt) (g : Grid) (n : Nat)
    (P : g.Presents n) (T : g.typed n) (cls : Attr) (hc : g.allClassAttributes = [cls]) (hcin : cls ∈ g.allAttributes) (hcf : cls.isFloat = true) :
    ∃ fs : List Attr, fs.Perm g.nonClassFloats ∧ ∀ order order', g.RowOrder order → g.RowOrder order' →
      preprocessData val srt order order' g = Res.ok ((List.range n).map (g.point val (fs ++ [cls]))) := by
  obtain ⟨fs, hfs, hsp⟩ := positionSort_attrs hsrt g.nonClassFloats
  refine ⟨fs, hfs, fun order order' ho ho' => ?_⟩
  unfold preprocessData
  rw [problemVec_spec P T ho hfs hsp, Res.bind_ok, labelVec_spec hsrt P T ho' hc hcin hcf]
  simp only
  congr 1
  rw [List.zipWith_map]
  apply List.ext_getElem (by simp)
  intro i h1 h2
  simp [Grid.point]

/-- Without exactly one class attribute, or if it is not numeric, `Fit` and `Predict` do not return. -/
theorem C59_needs_class {K : Type} [Field K] (val : U64 → K) (srt : List Spec → List Spec) (order order' : List Nat) (g : Grid)
    (h : ∀ cls, g.allClassAttributes = [cls] → cls.isFloat = false) (data : List (List K)) :
    preprocessData val srt order order' g ≠ Res.ok data := by
  intro he
  unfold preprocessData at he
  obtain ⟨X, _, h2⟩ := Res.bind_eq_ok.mp he
  have : labelVec val srt order' g = Res.err := by
    unfold labelVec
    split
    · rename_i c hc
      rw [h c hc]
      rfl
    · rfl
  rw [this] at h2
  cases h2

/-- `Fit` and `Predict` on tables. Training rows are picked inside the data, columns are drawn inside the rows, and each column is drawn at some time;
then there is a forest. On every table with as many columns it gives each row a score in (0, 1], and rows with the same numbers get the
same score. Missing: no trees and empty samples, see `C59_refuted`. -/
theorem C59_table_partial (eps : ℝ) (pick : Nat → Nat → Nat) (draws : Nat → List Bool → Draws ℝ) (tries nTrees : Nat)
    (hT : 1 ≤ nTrees) (maxDepth : Int) (subSpace : Nat) (hs : 1 ≤ subSpace) (val : U64 → ℝ) (srt : List Spec → List Spec) (hsrt : PositionSort srt)
    (g : Grid) (n : Nat) (P : g.Presents n) (T : g.typed n) (cls : Attr) (hc : g.allClassAttributes = [cls]) (hcin : cls ∈ g.allAttributes)
    (hcf : cls.isFloat = true) (order order' : List Nat) (ho : g.RowOrder order) (ho' : g.RowOrder order')
    (hpick : ∀ i j, pick i j < n) (hdraw : ∀ i p k, (draws i p k).1 < g.nonClassFloats.length + 1)
    (hcover : ∀ i p f, f < g.nonClassFloats.length + 1 → ∃ k, k < tries ∧ (draws i p k).1 = f) :
    ∃ forest, isoFitGrid eps pick draws tries nTrees maxDepth subSpace val srt order order' g = Res.ok (some forest) ∧ forest.length = nTrees ∧
      ∀ (what : Grid) (m : Nat) (wcls : Attr), what.Presents m → what.typed m → what.allClassAttributes = [wcls] → wcls ∈ what.allAttributes →
        wcls.isFloat = true → what.nonClassFloats.length = g.nonClassFloats.length →
        ∃ (fs : List Attr) (score : Nat → ℝ), fs.Perm what.nonClassFloats ∧
          (∀ o o', what.RowOrder o → what.RowOrder o' →
            isoPredictGrid forest subSpace val srt o o' what = Res.ok ((List.range m).map fun r => some (score r))) ∧
          (∀ r < m, 0 < score r ∧ score r ≤ 1 ∧ (2 ≤ subSpace → score r < 1)) ∧
          ∀ r < m, ∀ r' < m, what.point val (fs ++ [wcls]) r = what.point val (fs ++ [wcls]) r' → score r = score r' := by
  obtain ⟨gs, hgs, hrows⟩ := C59_rows val srt hsrt g n P T cls hc hcin hcf
  have hw : ∀ x ∈ (List.range n).map (g.point val (gs ++ [cls])), x.length = g.nonClassFloats.length + 1 := by
    intro x hx
    obtain ⟨r, _, rfl⟩ := List.mem_map.mp hx
    simp [Grid.point, hgs.length_eq]
  obtain ⟨forest, hfit⟩ := C59_fit_ends eps pick draws tries nTrees maxDepth subSpace (g.nonClassFloats.length + 1)
    ((List.range n).map (g.point val (gs ++ [cls]))) (by simpa using hpick) hcover hw
  have hlen := fun h2 => (C59_fitted eps pick draws tries nTrees hT maxDepth subSpace h2 _ hdraw _ hw forest hfit)
  have hlen' : forest.length = nTrees := by
    unfold isoFit at hfit
    obtain ⟨l, hl, hfold⟩ := Res.map_eq_ok.1 hfit
    rw [mapRes_eq_ok] at hl
    have h1 := hl.length_eq
    have : ∀ (l : List (Option (CNode ℝ Nat))) (f : List (CNode ℝ Nat)),
        l.foldr (fun t ts => t.bind fun t => ts.map (t :: ·)) (some []) = some f → f.length = l.length := by
      intro l
      induction l with
      | nil => intro f h; cases h; rfl
      | cons o os ih =>
        intro f h
        rw [List.foldr_cons] at h
        obtain ⟨t, rfl, h⟩ := Option.bind_eq_some_iff.1 h
        obtain ⟨ts, hts, rfl⟩ := Option.map_eq_some_iff.1 h
        simp [ih ts hts]
    rw [this l forest hfold, ← h1, List.length_range]
  refine ⟨forest, by unfold isoFitGrid; rw [hrows order order' ho ho', Res.bind_ok, hfit], hlen', ?_⟩
  intro what m wcls P' T' hc' hcin' hcf' hcols
  obtain ⟨fs, hfs, hrows'⟩ := C59_rows val srt hsrt what m P' T' wcls hc' hcin' hcf'
  have hsc : ∀ x, ∃ s, anomalyScore x forest subSpace = some s ∧ 0 < s ∧ s ≤ 1 := by
    intro x
    obtain ⟨_, h⟩ := C59_range_partial eps pick draws tries nTrees hT maxDepth subSpace hs _ hdraw _ hw forest hfit [x]
    exact h _ (by simp [isoPredict])
  choose sc h1 h2 h3 using hsc
  refine ⟨fs, fun r => sc (what.point val (fs ++ [wcls]) r), hfs, ?_, ?_, ?_⟩
  · intro o o' w1 w2
    unfold isoPredictGrid isoPredict
    rw [hrows' o o' w1 w2, Res.map_ok, List.map_map]
    congr 1
    apply List.map_congr_left
    intro r _
    exact h1 _
  · intro r _
    refine ⟨h2 _, h3 _, fun h => ?_⟩
    obtain ⟨_, s, e1, _, e2⟩ := hlen h (what.point val (fs ++ [wcls]) r)
    rw [h1, Option.some.injEq] at e1
    show sc _ < 1
    rw [e1]
    exact e2
  · intro r _ r' _ e
    show sc _ = sc _
    rw [e]

namespace Witness
def isoX : Attr := ⟨1, .float "x" 2⟩
def isoY : Attr := ⟨2, .float "y" 2⟩
def isoOps : List Op := [.add isoX, .add isoY, .addClass isoY, .extend 2, .set 0 0 (packU64 1), .set 0 1 (packU64 5), .set 1 0 (packU64 7),
  .set 1 1 (packU64 7)]
end Witness

open Witness in
/-- Two rows, one numeric attribute and a numeric class. -/
example : ∃ st, run 4096 isoOps = Res.ok st ∧ DenseOK 2 st.d ∧ (Grid.dense st.d).allClassAttributes = [isoY] ∧ isoY ∈ (Grid.dense st.d).allAttributes ∧
    (Grid.dense st.d).nonClassFloats = [isoX] ∧ (Grid.dense st.d).RowOrder [0, 1] ∧
    preprocessData (fun u => (u.toNat : ℚ)) id [0, 1] [0, 1] (.dense st.d) = Res.ok [[1, 7], [5, 7]] := by
  obtain ⟨st, h1, h2, h3, h4, h5, h6⟩ : ∃ st, run 4096 isoOps = Res.ok st ∧ (Grid.dense st.d).allClassAttributes = [isoY] ∧
      isoY ∈ (Grid.dense st.d).allAttributes ∧ (Grid.dense st.d).nonClassFloats = [isoX] ∧ st.d.maxRow = 2 ∧
      preprocessData (fun u => (u.toNat : ℚ)) id [0, 1] [0, 1] (.dense st.d) = Res.ok [[1, 7], [5, 7]] := by
    refine ⟨_, rfl, ?_, ?_, ?_, ?_, ?_⟩
    all_goals decide +kernel
  refine ⟨st, h1, denseOK_run (pg := 4096) (ops := isoOps) (by decide) h1 (by decide), h2, h3, h4, ?_, h6⟩
  show [0, 1] = List.range st.d.maxRow
  rw [h5]; rfl

end Golearn
