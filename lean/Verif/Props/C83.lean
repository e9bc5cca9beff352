import Verif.Proofs.Metrics

/-! # C83: the polynomial kernel -/

namespace Golearn
open Finset

/-- The property: the distance of a vector from itself is zero. -/
def PolyDistanceVanishes : Prop :=
  ∀ (degree : Int) (x : Mat), 0 < x.cols → polyDist degree x x = Res.ok (some 0)

theorem dotFirstColumns_ok {x y : Mat} (hx : 0 < x.cols) (hy : 0 < y.cols) (h : x.rows = y.rows) :
    dotFirstColumns x y = Res.ok (∑ i ∈ range x.rows, x.entry i 0 * y.entry i 0) := by
  unfold dotFirstColumns
  rw [if_neg (by omega), if_pos h, Mat.foldl_add, zero_add]

/-- The inner product of columns `x` and `y` is one plus their dot product, to the power of the degree. -/
theorem C83_inner_product (degree : Nat) (x y : Mat) (hx : x.cols = 1) (hy : y.cols = 1) (h : x.rows = y.rows) :
    polyKernel degree x y = Res.ok (some ((∑ i ∈ range x.rows, x.entry i 0 * y.entry i 0 + 1) ^ degree)) := by
  unfold polyKernel
  rw [dotFirstColumns_ok (by omega) (by omega) h, Res.map_ok, if_neg (by omega), zpow_natCast]

/-- The inner product is symmetric, panics included. -/
theorem C83_symm (degree : Int) (x y : Mat) : polyKernel degree x y = polyKernel degree y x := by
  have : dotFirstColumns x y = dotFirstColumns y x := by
    by_cases hx : 0 < x.cols
    · by_cases hy : 0 < y.cols
      · by_cases h : x.rows = y.rows
        · rw [dotFirstColumns_ok hx hy h, dotFirstColumns_ok hy hx h.symm, h]
          simp only [mul_comm]
        · unfold dotFirstColumns
          rw [if_neg (by omega), if_neg h, if_neg (by omega), if_neg (fun e => h e.symm)]
      · unfold dotFirstColumns
        rw [if_pos (by omega), if_pos (by omega)]
    · unfold dotFirstColumns
      rw [if_pos (by omega), if_pos (by omega)]
  unfold polyKernel
  rw [this]

/-- The distance never vanishes for a degree that is not negative: it is at least one, and it is one from a vector
to itself. -/
theorem C83_distance_positive_partial (degree : Nat) (x y : Mat) (hx : 0 < x.cols) (h : x.sameShape y = true) :
    (∃ d, polyDist degree x y = Res.ok (some d) ∧ 1 ≤ d ∧ polyDist degree y x = Res.ok (some d)) ∧
    polyDist degree x x = Res.ok (some 1) := by
  have key : ∀ x y : Mat, 0 < x.cols → x.sameShape y = true → polyDist degree x y = Res.ok (some (Real.sqrt
      ((∑ i ∈ range x.rows, (x.entry i 0 - y.entry i 0) * (x.entry i 0 - y.entry i 0) + 1) ^ degree))) := by
    intro x y hx h
    unfold polyDist Mat.sub polyKernel
    rw [if_pos h, Res.bind_ok, dotFirstColumns_ok (by exact hx) (by exact hx) (by rfl)]
    simp only [Res.map_ok]
    rw [if_neg (by omega), Option.map_some, zpow_natCast]
  have hs := Mat.sameShape_iff.1 h
  refine ⟨⟨_, key x y hx h, ?_, ?_⟩, ?_⟩
  · rw [Real.one_le_sqrt]
    apply one_le_pow₀
    have : 0 ≤ ∑ i ∈ range x.rows, (x.entry i 0 - y.entry i 0) * (x.entry i 0 - y.entry i 0) :=
      sum_nonneg fun i _ => mul_self_nonneg _
    linarith
  · rw [key y x (by omega) (by rw [Mat.sameShape_symm]; exact h), ← hs.1]
    congr 4
    refine congrArg (· + 1) (sum_congr rfl fun i _ => ?_)
    ring
  · rw [key x x hx (by simp [Mat.sameShape])]
    simp

/-- So the distance does not vanish on equal vectors. -/
theorem C83_vanishes_fails : ¬ PolyDistanceVanishes := by
  intro h
  have h1 := h 2 (Mat.ofFloats [3]) (by decide)
  have h2 := (C83_distance_positive_partial 2 (Mat.ofFloats [3]) (Mat.ofFloats [3]) (by decide) (by simp [Mat.sameShape])).2
  rw [show ((2 : Nat) : Int) = 2 from rfl] at h2
  rw [h1, Res.ok.injEq, Option.some.injEq] at h2
  norm_num at h2

/-- Only the first column counts: for rows of numbers, which is how the classifiers lay out vectors, everything but the
first number is ignored. -/
theorem C83_rows_ignored (degree : Int) (a b : ℝ) (x y : List ℝ) :
    polyKernel degree (Mat.ofFloats (a :: x)) (Mat.ofFloats (b :: y)) =
      polyKernel degree (Mat.ofFloats [a]) (Mat.ofFloats [b]) := by
  unfold polyKernel
  rw [dotFirstColumns_ok (x := Mat.ofFloats (a :: x)) (y := Mat.ofFloats (b :: y)) (by simp [Mat.ofFloats]) (by simp [Mat.ofFloats]) rfl,
    dotFirstColumns_ok (x := Mat.ofFloats [a]) (y := Mat.ofFloats [b]) (by simp [Mat.ofFloats]) (by simp [Mat.ofFloats]) rfl]
  simp [Mat.ofFloats]

/-- Two columns: (1, 2) and (3, 4) with degree 2 give 12 squared. -/
example : polyKernel 2 ⟨2, 1, fun i _ => [1, 2].getD i 0⟩ ⟨2, 1, fun i _ => [3, 4].getD i 0⟩ = Res.ok (some 144) := by
  rw [show (2 : Int) = ((2 : Nat) : Int) from rfl, C83_inner_product 2 _ _ (by rfl) (by rfl) (by rfl)]
  simp [sum_range_succ]; norm_num

end Golearn
