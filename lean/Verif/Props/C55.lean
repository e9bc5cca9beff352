import Verif.Proofs.CartGrid
import Verif.Proofs.RuleExamples
import Verif.Props.C43
import Mathlib.Algebra.Order.Ring.Rat

/-! # C55: CART trees choose the split of least impurity -/

namespace Golearn

variable {K : Type} [Field K] [LinearOrder K] [IsStrictOrderedRing K]

/-- The tests of a tree are best splits all the way down: `Grown` says it of every node, for the rows that reach the node. A
classification tree with the Gini criterion, for any sort of the rows by value. -/
theorem C55_gini (lg : K → K) (labels : List Int) (hn : labels.Nodup) (sortIdx : List K → List Nat) (hS : SortsIdx sortIdx)
    (maxDepth : Int) (w : Nat) (rows : LRows K Int) (hne : rows ≠ []) (hr : Rect w rows) (hok : ∀ p ∈ rows, p.2 ∈ labels) :
    ∃ tree, cartFit ⟨classLoss lg labels .gini, sortIdx, maxDepth⟩ (rows.map Prod.fst) (rows.map Prod.snd) = Res.ok tree ∧
      tree.ifNeeded.Grown giniImpurity IsMode w (depthLimit maxDepth) rows := by
  obtain ⟨t, h1, h2, _⟩ := cartFit_spec (e := ⟨classLoss lg labels .gini, sortIdx, maxDepth⟩) (computes_gini lg hn) hS rows hne
    hr hok
  exact ⟨t, h1, h2⟩

/-- The same with the entropy. -/
theorem C55_entropy (lg : K → K) (hlg : Logarithm lg) (labels : List Int) (hn : labels.Nodup)
    (sortIdx : List K → List Nat) (hS : SortsIdx sortIdx) (maxDepth : Int) (w : Nat) (rows : LRows K Int) (hne : rows ≠ [])
    (hr : Rect w rows) (hok : ∀ p ∈ rows, p.2 ∈ labels) :
    ∃ tree, cartFit ⟨classLoss lg labels .entropy, sortIdx, maxDepth⟩ (rows.map Prod.fst) (rows.map Prod.snd) = Res.ok tree ∧
      tree.ifNeeded.Grown (entropyImpurity lg) IsMode w (depthLimit maxDepth) rows := by
  obtain ⟨t, h1, h2, _⟩ := cartFit_spec (e := ⟨classLoss lg labels .entropy, sortIdx, maxDepth⟩) (computes_entropy hlg hn) hS
    rows hne hr hok
  exact ⟨t, h1, h2⟩

/-- A regression tree with the mean absolute error; the numbers it predicts are means. -/
theorem C55_mae (sortIdx : List K → List Nat) (hS : SortsIdx sortIdx) (maxDepth : Int) (w : Nat) (rows : LRows K K)
    (hne : rows ≠ []) (hr : Rect w rows) :
    ∃ tree, cartFit ⟨regLoss .mae, sortIdx, maxDepth⟩ (rows.map Prod.fst) (rows.map Prod.snd) = Res.ok tree ∧
      tree.ifNeeded.Grown maeImpurity (fun y m => m = meanK y) w (depthLimit maxDepth) rows := by
  obtain ⟨t, h1, h2, _⟩ := cartFit_spec (e := ⟨regLoss .mae, sortIdx, maxDepth⟩) computes_mae hS rows hne hr
    (fun _ _ => trivial)
  exact ⟨t, h1, h2⟩

/-- The same with the mean squared error. -/
theorem C55_mse (sortIdx : List K → List Nat) (hS : SortsIdx sortIdx) (maxDepth : Int) (w : Nat) (rows : LRows K K)
    (hne : rows ≠ []) (hr : Rect w rows) :
    ∃ tree, cartFit ⟨regLoss .mse, sortIdx, maxDepth⟩ (rows.map Prod.fst) (rows.map Prod.snd) = Res.ok tree ∧
      tree.ifNeeded.Grown mseImpurity (fun y m => m = meanK y) w (depthLimit maxDepth) rows := by
  obtain ⟨t, h1, h2, _⟩ := cartFit_spec (e := ⟨regLoss .mse, sortIdx, maxDepth⟩) computes_mse hS rows hne hr
    (fun _ _ => trivial)
  exact ⟨t, h1, h2⟩

/-- The root alone, in words: if the tree is not split, no threshold of any column gives a smaller average impurity than the
rows have; if it is, its own threshold gives a smaller one, and none gives less. -/
theorem C55_root (lg : K → K) (labels : List Int) (hn : labels.Nodup) (sortIdx : List K → List Nat) (hS : SortsIdx sortIdx)
    (maxDepth : Int) (hd : maxDepth = -1 ∨ 0 < maxDepth) (w : Nat) (rows : LRows K Int) (hne : rows ≠ []) (hr : Rect w rows)
    (hok : ∀ p ∈ rows, p.2 ∈ labels) :
    ∃ l r t f a b needed, cartFit ⟨classLoss lg labels .gini, sortIdx, maxDepth⟩ (rows.map Prod.fst) (rows.map Prod.snd) =
        Res.ok (.node l r t f a b needed) ∧
      (needed = false → ∀ f' t', f' < w → Separates f' t' rows →
        giniImpurity (rows.map Prod.snd) ≤ splitImpurity giniImpurity f' t' rows) ∧
      (needed = true → Separates f t rows ∧ splitImpurity giniImpurity f t rows < giniImpurity (rows.map Prod.snd) ∧
        ∀ f' t', f' < w → Separates f' t' rows → splitImpurity giniImpurity f t rows ≤ splitImpurity giniImpurity f' t' rows) := by
  obtain ⟨t, h1, h2, h3, h4⟩ := cartFit_spec (e := ⟨classLoss lg labels .gini, sortIdx, maxDepth⟩) (computes_gini lg hn) hS
    rows hne hr hok
  have hlim : depthLimit maxDepth ≠ some 0 := by
    unfold depthLimit
    rcases hd with rfl | h
    · simp
    · rw [if_neg (by omega)]
      intro e
      have := Option.some.inj e
      omega
  by_cases hnil : t.ifNeeded = .nil
  · obtain ⟨a, rfl, _⟩ := h4 hnil
    refine ⟨_, _, _, _, _, _, _, h1, fun _ => ?_, fun h => by cases h⟩
    rcases h2 with h | h
    · exact absurd h hlim
    · exact h
  · have he := h3 hnil
    cases t with
    | nil => exact absurd rfl hnil
    | node l r t f a b nd =>
      rw [he] at h2
      refine ⟨_, _, _, _, _, _, _, h1, ?_, fun _ => ⟨h2.2.1.2.1, h2.2.1.2.2.1, h2.2.1.2.2.2⟩⟩
      intro hf
      subst hf
      exact absurd rfl hnil

/-- `Fit` on a data set is the construction of the tree for its rows: the numeric attributes that are not the class, in the
order `ResolveAttributes` gives them, and the class as the label. -/
theorem C55_data_set (lg : K → K) (labels : List Int) (hn : labels.Nodup) (sortIdx : List K → List Nat)
    (hS : SortsIdx sortIdx) (maxDepth : Int) (val : U64 → K) (conv : U64 → Int) (srt : List Spec → List Spec)
    (hsrt : PositionSort srt) (order order' : List Nat) (g : Grid) (n : Nat) (hn0 : n ≠ 0) (P : g.Presents n)
    (T : g.typed n) (ho : g.RowOrder order) (ho' : g.RowOrder order') (cls : Attr) (hc : g.allClassAttributes = [cls])
    (hcin : cls ∈ g.allAttributes) (hcf : cls.isFloat = true) (hok : ∀ r, r < n → g.number conv cls r ∈ labels) :
    ∃ fs : List Attr, fs.Perm g.nonClassFloats ∧ ∃ tree,
      cartFitGrid ⟨classLoss lg labels .gini, sortIdx, maxDepth⟩ val conv srt order order' g = Res.ok tree ∧
      tree.ifNeeded.Grown giniImpurity IsMode fs.length (depthLimit maxDepth)
        (g.labelled val fs (g.number conv cls) n) := by
  obtain ⟨fs, hfs, hsp⟩ := positionSort_attrs hsrt g.nonClassFloats
  refine ⟨fs, hfs, ?_⟩
  obtain ⟨t, h1, h2⟩ := cartFitGrid_spec (e := ⟨classLoss lg labels .gini, sortIdx, maxDepth⟩) (computes_gini lg hn) hS
    hsrt (val := val) (conv := conv) hn0 P T ho ho' hc hcin hcf hok hfs hsp
  obtain ⟨t', h3, h4⟩ := C55_gini lg labels hn sortIdx hS maxDepth fs.length (g.labelled val fs (g.number conv cls) n)
    (by
      unfold Grid.labelled
      intro h
      exact hn0 (by simpa using h)) (labelled_rect g val fs _ n) (by
      intro p hp
      obtain ⟨r, hr, rfl⟩ := List.mem_map.1 hp
      exact hok r (List.mem_range.1 hr))
  rw [h2] at h3
  cases h3
  exact ⟨t, h1, h4⟩

/-- One way to sort the indexes. -/
def idxSort {K : Type} [Zero K] [LinearOrder K] (vals : List K) : List Nat :=
  keySort (fun i => vals.getD i 0) (List.range vals.length)

theorem idxSort_sorts {K : Type} [Field K] [LinearOrder K] : SortsIdx (idxSort (K := K)) :=
  fun vals => keySort_sorts (fun i => vals.getD i 0) (List.range vals.length)

/-- Six rows with two columns and three labels. The first split is at 9/2 in the first column; its left side is cut at 3 in the
second. -/
def cartRows : LRows ℚ Int := [([1, 5], 1), ([2, 1], 2), ([3, 4], 1), ([4, 2], 2), ([5, 3], 7), ([6, 6], 7)]

example : cartFit ⟨classLoss (fun x => x) [1, 2, 7] .gini, idxSort, -1⟩ (cartRows.map Prod.fst) (cartRows.map Prod.snd) =
      Res.ok (.node (.node .nil .nil 3 1 2 1 true) .nil (9 / 2) 0 1 7 true) ∧
    cartRows ≠ [] ∧ Rect 2 cartRows ∧ (∀ p ∈ cartRows, p.2 ∈ ([1, 2, 7] : List Int)) := by
  refine ⟨by decide +kernel, by decide, ?_, ?_⟩
  · intro p hp
    simp only [cartRows, List.mem_cons, List.not_mem_nil, or_false] at hp
    rcases hp with rfl | rfl | rfl | rfl | rfl | rfl <;> rfl
  · intro p hp
    simp only [cartRows, List.mem_cons, List.not_mem_nil, or_false] at hp
    rcases hp with rfl | rfl | rfl | rfl | rfl | rfl <;> decide

end Golearn
