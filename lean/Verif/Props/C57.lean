import Verif.Proofs.CartLoss
import Verif.Proofs.RuleExamples
import Mathlib.Algebra.Order.Ring.Rat

/-! # C57: the impurities of CART trees -/

namespace Golearn

variable {K : Type} [Field K] [LinearOrder K] [IsStrictOrderedRing K]

/-- For labels that are all in the list the tree was made with, the Gini loss is one minus the sum of the squares of their
proportions, and the label that comes with it is a most frequent one. -/
theorem C57_gini (lg : K → K) (labels y : List Int) (hn : labels.Nodup) (hne : y ≠ []) (hsub : ∀ l ∈ y, l ∈ labels) :
    ∃ l, classLoss lg labels .gini y = Res.ok
        (1 - (y.dedup.map fun c => (y.count c : K) / y.length * ((y.count c : K) / y.length)).sum, l) ∧
      l ∈ y ∧ ∀ c, y.count c ≤ y.count l :=
  (computes_gini lg hn).total y hne hsub

/-- It is at least zero and below one, and zero only if all labels are the same. -/
theorem C57_gini_range (lg : K → K) (labels y : List Int) (hn : labels.Nodup) (hne : y ≠ []) (hsub : ∀ l ∈ y, l ∈ labels) :
    ∃ v l, classLoss lg labels .gini y = Res.ok (v, l) ∧ 0 ≤ v ∧ v < 1 ∧ (v = 0 ↔ ∃ c, ∀ l ∈ y, l = c) := by
  obtain ⟨l, h, _⟩ := (computes_gini (K := K) lg hn).total y hne hsub
  exact ⟨_, l, h, gini_nonneg hne, gini_lt_one hne, gini_zero hne⟩

/-- The entropy, with any logarithm: its value, its label, and that it is zero only if all labels are the same. -/
theorem C57_entropy (lg : K → K) (hlg : Logarithm lg) (labels y : List Int) (hn : labels.Nodup) (hne : y ≠ [])
    (hsub : ∀ l ∈ y, l ∈ labels) :
    ∃ v l, classLoss lg labels .entropy y = Res.ok (v, l) ∧
      v = -(y.dedup.map fun c => (y.count c : K) / y.length * lg ((y.count c : K) / y.length)).sum ∧
      (l ∈ y ∧ ∀ c, y.count c ≤ y.count l) ∧ 0 ≤ v ∧ (v = 0 ↔ ∃ c, ∀ l ∈ y, l = c) := by
  obtain ⟨l, h, hm⟩ := (computes_entropy hlg hn).total y hne hsub
  exact ⟨_, l, h, rfl, hm, entropy_nonneg hlg y, entropy_zero hlg hne⟩

/-- The mean absolute error about the mean, which is the value predicted. -/
theorem C57_mae (y : List K) (hne : y ≠ []) :
    ∃ v m, regLoss .mae y = Res.ok (v, m) ∧ m = y.sum / y.length ∧ v = (y.map fun x => |x - m|).sum / y.length ∧
      0 ≤ v ∧ (v = 0 ↔ ∃ c, ∀ x ∈ y, x = c) := by
  obtain ⟨m, h, rfl⟩ := computes_mae.total y hne (fun _ _ => trivial)
  refine ⟨_, _, h, rfl, ?_, mae_nonneg y, mae_zero hne⟩
  unfold maeImpurity
  conv_lhs => rw [meanK, List.length_map]

/-- The mean squared error about the mean. -/
theorem C57_mse (y : List K) (hne : y ≠ []) :
    ∃ v m, regLoss .mse y = Res.ok (v, m) ∧ m = y.sum / y.length ∧
      v = (y.map fun x => (x - m) * (x - m)).sum / y.length ∧ 0 ≤ v ∧ (v = 0 ↔ ∃ c, ∀ x ∈ y, x = c) := by
  obtain ⟨m, h, rfl⟩ := computes_mse.total y hne (fun _ _ => trivial)
  refine ⟨_, _, h, rfl, ?_, mse_nonneg y, mse_zero hne⟩
  unfold mseImpurity
  conv_lhs => rw [meanK, List.length_map]

/-- Six labels of three kinds, the labels of the tree in another order; and four numbers. -/
example : classLoss (fun x => x) [3, 1, 2, 7] .gini [1, 2, 2, 3, 2, 1] = Res.ok ((11 / 18 : ℚ), 2) ∧
    ([3, 1, 2, 7] : List Int).Nodup ∧ (∀ l ∈ ([1, 2, 2, 3, 2, 1] : List Int), l ∈ ([3, 1, 2, 7] : List Int)) ∧
    regLoss .mse [1, 2, 3, 6] = Res.ok ((7 / 2 : ℚ), 3) ∧ regLoss .mae [1, 2, 3, 6] = Res.ok ((3 / 2 : ℚ), 3) := by
  decide +kernel

/-- The base two logarithm satisfies the hypothesis about logarithms. -/
example : ∃ v l, classLoss (Real.logb 2) [0, 1] .entropy [0, 1, 1] = Res.ok (v, l) ∧ l = 1 ∧ v ≠ 0 := by
  obtain ⟨v, l, h, _, hm, _, hz⟩ := C57_entropy _ logb_logarithm [0, 1] [0, 1, 1] (by decide) (by decide) (by decide)
  refine ⟨v, l, h, ?_, ?_⟩
  · rcases (by simpa using hm.1 : l = 0 ∨ l = 1) with rfl | rfl
    · exact absurd (hm.2 1) (by decide)
    · rfl
  · rw [Ne, hz]
    rintro ⟨c, hc⟩
    have h0 := hc 0 (by simp)
    have h1 := hc 1 (by simp)
    omega

/-- Labels the tree was not made with are not counted: rows with three such labels have impurity zero, and the label given
for them is one that no row has. -/
theorem C57_unknown_labels : classLoss (fun x => x) [1] .gini [1, 5, 6] = Res.ok ((2 / 9 : ℚ), 1) ∧
    classLoss (fun x => x) [1] .gini [5, 6, 7] = Res.ok ((0 : ℚ), 0) := by decide +kernel

/-- A label listed twice counts twice. -/
theorem C57_repeated_labels : classLoss (fun x => x) [1, 2, 2, 2, 2] .gini [1, 2] = Res.ok ((5 / 4 : ℚ), 1) := by decide +kernel

end Golearn
