import Verif.Proofs.Isolation
import Mathlib.Algebra.Order.Ring.Rat

/-! # C58: isolation trees cut the sample and keep to the depth limit -/

namespace Golearn

variable {K : Type} [Field K] [LinearOrder K]

/-- A split sends every row to exactly one side: to the left if its value is at most the threshold. The order is kept. -/
theorem C58_split (v : K) (f : Nat) (data : List (List K)) :
    (splitData v f data).1 = data.filter (fun x => decide (x.getD f 0 ≤ v)) ∧
    (splitData v f data).2 = data.filter (fun x => decide (v < x.getD f 0)) ∧
    ((splitData v f data).1 ++ (splitData v f data).2).Perm data := by
  rw [splitData_spec]
  refine ⟨rfl, rfl, ?_⟩
  have : (data.filter fun x => decide (v < x.getD f 0)) = data.filter fun x => !decide (x.getD f 0 ≤ v) := by
    apply List.filter_congr
    intro x _
    rw [← decide_not]
    simp
  simp only [this]
  exact List.filter_append_perm _ _

/-- A threshold drawn between values more than the step of 0.000001 apart leaves rows on both sides. -/
theorem C58_both_sides [IsStrictOrderedRing K] (eps u : K) (he : 0 < eps) (h0 : 0 ≤ u) (h1 : u < 1) (f : Nat)
    (data : List (List K)) (hne : data ≠ []) (x y : List K) (hx : x ∈ data) (hy : y ∈ data)
    (hgap : eps < y.getD f 0 - x.getD f 0) :
    let s := splitData (selectValue eps u (minMax f data).1 (minMax f data).2) f data
    s.1 ≠ [] ∧ s.2 ≠ [] := by
  obtain ⟨⟨a, ha, ea⟩, ⟨b, hb, eb⟩, hall⟩ := minMax_spec f data hne
  have hg : eps < (minMax f data).2 - (minMax f data).1 := by
    have h1 := (hall x hx).1
    have h2 := (hall y hy).2
    linarith
  obtain ⟨h2, h3⟩ := selectValue_inside h0 h1 he hg
  rw [splitData_spec]
  constructor
  · intro h
    have := List.filter_eq_nil_iff.1 h a ha
    simp only [decide_eq_true_eq] at this
    exact this (by rw [ea]; exact h2)
  · intro h
    have := List.filter_eq_nil_iff.1 h b hb
    simp only [decide_eq_true_eq] at this
    exact this (by rw [eb]; exact h3)

/-- Values closer than that can all end on one side: the threshold is moved past the largest. -/
theorem C58_one_side : let data : List (List ℚ) := [[0], [1 / 2000000]]
    (splitData (selectValue (1 / 1000000) 0 (minMax 0 data).1 (minMax 0 data).2) 0 data) = (data, []) := by decide +kernel

/-- The tree isolates the sample (see `Isolates`), with every draw of random numbers: tests are on columns in which the rows
that reach them differ, the numbers of rows kept at a node are those of its two sides, and a branch ends only at the
depth limit, at one row or none, or at rows that are all the same. -/
theorem C58_tree (eps : K) (draws : List Bool → Draws K) (tries w : Nat) (hdraw : ∀ p k, (draws p k).1 < w)
    (maxDepth : Int) (data : List (List K)) (hw : ∀ x ∈ data, x.length = w) (t : CNode K Nat)
    (h : buildTree eps draws tries maxDepth.toNat [] data = some t) :
    t.ifNeeded.Isolates w maxDepth.toNat data ∧ (t.ifNeeded = .nil ∨ t.ifNeeded = t) := by
  obtain ⟨_, h2, _, h4⟩ := buildTree_spec hdraw _ _ _ hw t h
  refine ⟨h2, ?_⟩
  by_cases hn : t.ifNeeded = .nil
  · exact Or.inl hn
  · exact Or.inr (h4 hn)

/-- No path has more tests than the limit. -/
theorem C58_depth (eps : K) (draws : List Bool → Draws K) (tries w : Nat) (hdraw : ∀ p k, (draws p k).1 < w)
    (maxDepth : Int) (data : List (List K)) (hw : ∀ x ∈ data, x.length = w) (t : CNode K Nat)
    (h : buildTree eps draws tries maxDepth.toNat [] data = some t) :
    t.ifNeeded.height ≤ maxDepth.toNat :=
  isolates_height _ _ _ (C58_tree eps draws tries w hdraw maxDepth data hw t h).1

/-- The construction ends if at every node every column is drawn at some time. -/
theorem C58_ends (eps : K) (draws : List Bool → Draws K) (tries w : Nat)
    (hcover : ∀ p f, f < w → ∃ k, k < tries ∧ (draws p k).1 = f) (maxDepth : Int) (data : List (List K))
    (hw : ∀ x ∈ data, x.length = w) : ∃ t, buildTree eps draws tries maxDepth.toNat [] data = some t :=
  buildTree_ends hcover _ _ _ hw

/-- It does not end if only columns are drawn in which all rows are the same, however many attempts are made. -/
theorem C58_never_ends (tries : Nat) :
    buildTree (1 / 1000000) (fun _ _ => (1, 1 / 2)) tries 3 [] [[(0 : ℚ), 7], [1, 7]] = none := by
  rw [buildTree, if_neg (by decide +kernel), drawSplit_never (by intro j; decide +kernel)]
  rfl

/-- The length of the path of any row in a tree that was split: the number of its tests, at least one and at most the limit,
and a correction if it ends with more than one row of the sample. -/
theorem C58_path (cf : Nat → K) (eps : K) (draws : List Bool → Draws K) (tries w : Nat) (hdraw : ∀ p k, (draws p k).1 < w)
    (maxDepth : Int) (data : List (List K)) (hw : ∀ x ∈ data, x.length = w) (t : CNode K Nat)
    (h : buildTree eps draws tries maxDepth.toNat [] data = some t) (hs : t.ifNeeded ≠ .nil) (x : List K) :
    ∃ n m : Nat, 1 ≤ n ∧ (n : Int) ≤ maxDepth ∧ m ≤ data.length ∧
      pathLength cf t x 0 = (n : K) + if m ≤ 1 then 0 else cf m := by
  obtain ⟨h1, h2, _, h4⟩ := buildTree_spec hdraw _ _ _ hw t h
  rw [h4 hs] at h2
  refine ⟨t.steps x, t.company x data, ?_, ?_, company_le t x data, ?_⟩
  · cases t with
    | nil => exact absurd rfl h1
    | node l r t f a b nd => simp [CNode.steps]
  · have a := steps_le_height t x
    have b := isolates_height t _ _ h2
    have : 1 ≤ t.height := by
      cases t with
      | nil => exact absurd rfl h1
      | node l r t f a b nd => simp [CNode.height]
    omega
  · rw [pathLength_spec cf t h1 _ _ h2 x 0, zero_add]

/-- In a tree that was not split it is one. -/
theorem C58_path_unsplit (cf : Nat → K) (eps : K) (draws : List Bool → Draws K) (tries w : Nat)
    (hdraw : ∀ p k, (draws p k).1 < w) (levels : Nat) (data : List (List K)) (hw : ∀ x ∈ data, x.length = w)
    (t : CNode K Nat) (h : buildTree eps draws tries levels [] data = some t) (hs : t.ifNeeded = .nil) (x : List K) :
    pathLength cf t x 0 = 1 := by
  obtain ⟨_, _, h3, _⟩ := buildTree_spec hdraw _ _ _ hw t h
  rw [h3 hs]
  unfold CNode.empty
  by_cases hx : x.getD 0 0 ≤ 0
  · rw [pathLength.eq_def]
    simp only [hx, if_true, Nat.zero_le, zero_add]
  · rw [pathLength.eq_def]
    simp only [hx, if_false, Nat.zero_le, if_true, zero_add]

/-- With the correction of the code, the path of any row is at least one and at most the limit and the correction for the whole
sample. -/
theorem C58_path_bounds (eps : ℝ) (draws : List Bool → Draws ℝ) (tries w : Nat) (hdraw : ∀ p k, (draws p k).1 < w)
    (maxDepth : Nat) (hd : 1 ≤ maxDepth) (data : List (List ℝ)) (hlen : 2 ≤ data.length) (hw : ∀ x ∈ data, x.length = w)
    (t : CNode ℝ Nat) (h : buildTree eps draws tries maxDepth [] data = some t) (x : List ℝ) :
    1 ≤ pathLength cFactorNat t x 0 ∧ pathLength cFactorNat t x 0 ≤ maxDepth + cFactorNat data.length := by
  have hc := (cFactorNat_eq data.length hlen).1
  have hd' : (1 : ℝ) ≤ maxDepth := by exact_mod_cast hd
  by_cases hs : t.ifNeeded = .nil
  · rw [C58_path_unsplit cFactorNat eps draws tries w hdraw maxDepth data hw t h hs x]
    constructor <;> linarith
  · obtain ⟨n, m, h1, h2, h3, h4⟩ := C58_path cFactorNat eps draws tries w hdraw (maxDepth : Int) data hw t
      (by simpa using h) hs x
    have h1' : (1 : ℝ) ≤ n := by exact_mod_cast h1
    have h2' : (n : ℝ) ≤ maxDepth := by exact_mod_cast h2
    rw [h4]
    split
    · constructor <;> linarith
    · have e1 := (cFactorNat_eq m (by omega)).1
      have e2 := cFactorNat_mono (show 2 ≤ m by omega) h3
      constructor <;> linarith

/-- The sample of a tree: the number of rows asked for, each a row of the data. -/
theorem C58_sample (draw : Nat → Nat) (data : List (List K)) (hdraw : ∀ i, draw i < data.length) (subSpace : Nat) :
    ∃ s, getRandomData draw data subSpace = Res.ok s ∧ s.length = subSpace ∧ ∀ x ∈ s, x ∈ data := by
  refine ⟨(List.range subSpace).map fun i => data.getD (draw i) [], ?_, by simp, ?_⟩
  · unfold getRandomData
    apply mapRes_of_ok
    intro i _
    simp [atIdx, List.getD, hdraw i]
  · intro x hx
    obtain ⟨i, _, rfl⟩ := List.mem_map.1 hx
    simp [List.getD, hdraw i]

/-- Four rows and draws that alternate between two columns, the threshold half way. -/
example : buildTree (1 / 1000000) (fun _ k => (k % 2, 1 / 2)) 2 2 [] [[(0 : ℚ), 7], [1, 7], [8, 3], [8, 7]] =
      some (.node (.node .nil .nil (1 / 2) 0 1 1 true) (.node .nil .nil 5 1 1 1 true) 4 0 2 2 true) ∧
    (∀ p : List Bool, ∀ f, f < 2 → ∃ k, k < 2 ∧ ((fun (_ : List Bool) k => (k % 2, (1 / 2 : ℚ))) p k).1 = f) := by
  refine ⟨by decide +kernel, ?_⟩
  intro p f hf
  exact ⟨f, hf, Nat.mod_eq_of_lt hf⟩

end Golearn
