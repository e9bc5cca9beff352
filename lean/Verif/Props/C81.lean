import Verif.Proofs.Metrics
import Verif.Spec.KdTree

/-! # C81: the distances are metrics -/

namespace Golearn
open Finset

/-- The Manhattan distance is a metric on matrices of every shape. -/
theorem C81_manhattan : IsMetric manhattanDist := by
  refine isMetric_of (f := fun r c g => ∑ i ∈ range r, ∑ j ∈ range c, g i j) (fun x y h => manhattanDist_ok h) ?_ ?_ ?_ ?_ ?_
  · intro x y h
    unfold manhattanDist
    rw [h]; rfl
  · intro r c g g' h
    refine sum_congr rfl fun i hi => sum_congr rfl fun j hj => h i j (mem_range.1 hi) (mem_range.1 hj)
  · intro r c g h
    exact sum_nonneg fun i _ => sum_nonneg fun j _ => h i j
  · intro r c g h
    rw [sum_eq_zero_iff_of_nonneg fun i _ => sum_nonneg fun j _ => h i j]
    constructor
    · intro hz i j hi hj
      have := hz i (mem_range.2 hi)
      rw [sum_eq_zero_iff_of_nonneg fun j _ => h i j] at this
      exact this j (mem_range.2 hj)
    · intro hz i hi
      exact sum_eq_zero fun j hj => hz i j (mem_range.1 hi) (mem_range.1 hj)
  · intro r c g1 g2 g3 _ _ _ h
    simp only [← sum_add_distrib]
    exact sum_le_sum fun i _ => sum_le_sum fun j _ => h i j

/-- The Chebyshev distance is a metric on matrices of every shape. -/
theorem C81_chebyshev : IsMetric chebyshevDist := by
  refine isMetric_of (f := fun r c g => Mat.loop r c (fun acc i j => max acc (g i j)) 0)
    (fun x y h => by unfold chebyshevDist; rw [if_pos h]) ?_ ?_ ?_ ?_ ?_
  · intro x y h
    unfold chebyshevDist
    rw [h]; rfl
  · intro r c g g' h
    exact Mat.loop_congr r c _ _ (fun a i j hi hj => by rw [h i j hi hj]) 0
  · intro r c g h
    exact (Mat.loop_max r c g 0).1
  · intro r c g h
    obtain ⟨h1, h2, h3⟩ := Mat.loop_max r c g 0
    constructor
    · intro hz i j hi hj
      exact le_antisymm (hz ▸ h2 i j hi hj) (h i j)
    · intro hz
      rcases h3 with h3 | ⟨i, j, hi, hj, h3⟩
      · exact h3
      · rw [h3, hz i j hi hj]
  · intro r c g1 g2 g3 _ _ _ h
    obtain ⟨a1, a2, _⟩ := Mat.loop_max r c g1 0
    obtain ⟨b1, b2, _⟩ := Mat.loop_max r c g2 0
    obtain ⟨_, _, h3⟩ := Mat.loop_max r c g3 0
    rcases h3 with h3 | ⟨i, j, hi, hj, h3⟩
    · rw [h3]; exact add_nonneg a1 b1
    · rw [h3]; exact (h i j).trans (add_le_add (a2 i j hi hj) (b2 i j hi hj))

/-- The Euclidean distance is a metric on matrices of every shape. -/
theorem C81_euclidean : IsMetric euclideanDist := by
  refine isMetric_of (f := fun r c g => Real.sqrt (∑ i ∈ range r, ∑ j ∈ range c, g i j * g i j)) ?_ ?_ ?_ ?_ ?_ ?_
  · intro x y h
    rw [euclideanDist_ok h]
    simp only [abs_mul_abs_self]
  · intro x y h
    unfold euclideanDist Mat.sub
    rw [h]; rfl
  · intro r c g g' h
    congr 1
    refine sum_congr rfl fun i hi => sum_congr rfl fun j hj => ?_
    rw [h i j (mem_range.1 hi) (mem_range.1 hj)]
  · intro r c g _
    exact Real.sqrt_nonneg _
  · intro r c g _
    have hnn : ∀ i j, 0 ≤ g i j * g i j := fun i j => mul_self_nonneg _
    rw [Real.sqrt_eq_zero (sum_nonneg fun i _ => sum_nonneg fun j _ => hnn i j),
      sum_eq_zero_iff_of_nonneg fun i _ => sum_nonneg fun j _ => hnn i j]
    constructor
    · intro hz i j hi hj
      have := hz i (mem_range.2 hi)
      rw [sum_eq_zero_iff_of_nonneg fun j _ => hnn i j] at this
      exact mul_self_eq_zero.1 (this j (mem_range.2 hj))
    · intro hz i hi
      exact sum_eq_zero fun j hj => by rw [hz i j (mem_range.1 hi) (mem_range.1 hj), mul_zero]
  · intro r c g1 g2 g3 h1 h2 h3 h
    have hv : ∀ g : Nat → Nat → ℝ, Real.sqrt (∑ i ∈ range r, ∑ j ∈ range c, g i j * g i j) =
        ‖(Mat.vec ⟨r, c, g⟩ r c)‖ := by
      intro g
      rw [EuclideanSpace.norm_eq, sum_entries]
      congr 1
      refine sum_congr rfl fun p _ => ?_
      rw [Real.norm_eq_abs, sq_abs, pow_two]; rfl
    have hle : Real.sqrt (∑ i ∈ range r, ∑ j ∈ range c, g3 i j * g3 i j) ≤
        Real.sqrt (∑ i ∈ range r, ∑ j ∈ range c, (g1 i j + g2 i j) * (g1 i j + g2 i j)) := by
      apply Real.sqrt_le_sqrt
      refine sum_le_sum fun i _ => sum_le_sum fun j _ => ?_
      exact mul_self_le_mul_self (h3 i j) (h i j)
    refine hle.trans ?_
    simp only [hv, hv fun i j => g1 i j + g2 i j]
    have : Mat.vec ⟨r, c, fun i j => g1 i j + g2 i j⟩ r c = Mat.vec ⟨r, c, g1⟩ r c + Mat.vec ⟨r, c, g2⟩ r c := rfl
    rw [this]
    exact norm_add_le _ _

theorem ofFloats_shape {x y : List ℝ} (h : x.length = y.length) : (Mat.ofFloats x).sameShape (Mat.ofFloats y) = true := by
  simp [Mat.sameShape, Mat.ofFloats, h]

theorem coord_getD (x : List ℝ) (f : Nat) : coord x f = x.getD f 0 := rfl

theorem onRows_manhattan {x y : List ℝ} (h : x.length = y.length) :
    onRows manhattanDist x y = ∑ j ∈ range x.length, |x.getD j 0 - y.getD j 0| := by
  unfold onRows
  rw [manhattanDist_ok (ofFloats_shape h)]
  simp [Mat.ofFloats]

theorem onRows_euclidean {x y : List ℝ} (h : x.length = y.length) :
    onRows euclideanDist x y =
      Real.sqrt (∑ j ∈ range x.length, (x.getD j 0 - y.getD j 0) * (x.getD j 0 - y.getD j 0)) := by
  unfold onRows
  rw [euclideanDist_ok (ofFloats_shape h)]
  simp [Mat.ofFloats]

theorem onRows_one_manhattan (a b : ℝ) : onRows manhattanDist [a] [b] = |a - b| := by
  rw [onRows_manhattan (x := [a]) (y := [b]) rfl]; simp

theorem onRows_one_euclidean (a b : ℝ) : onRows euclideanDist [a] [b] = |a - b| := by
  rw [onRows_euclidean (x := [a]) (y := [b]) rfl]
  simp [Real.sqrt_mul_self_eq_abs]

theorem between_abs {a b c : ℝ} (h : (a ≤ b ∧ b ≤ c) ∨ (c ≤ b ∧ b ≤ a)) : |a - b| ≤ |a - c| := by
  rcases h with ⟨h1, h2⟩ | ⟨h1, h2⟩
  · rw [abs_of_nonpos (by linarith), abs_of_nonpos (by linarith)]; linarith
  · rw [abs_of_nonneg (by linarith), abs_of_nonneg (by linarith)]; linarith

/-- The Manhattan distance of rows is one the k-d tree search can use (C42). -/
theorem C81_manhattan_axis : AxisBound (onRows manhattanDist) := by
  refine ⟨?_, ?_⟩
  · intro x y f h hf
    rw [onRows_one_manhattan, onRows_manhattan h]
    exact single_le_sum (f := fun j => |x.getD j 0 - y.getD j 0|) (fun _ _ => abs_nonneg _) (mem_range.2 hf)
  · intro a b c h
    rw [onRows_one_manhattan, onRows_one_manhattan]
    exact between_abs h

/-- The Euclidean distance of rows is one the k-d tree search can use (C42). -/
theorem C81_euclidean_axis : AxisBound (onRows euclideanDist) := by
  refine ⟨?_, ?_⟩
  · intro x y f h hf
    rw [onRows_one_euclidean, onRows_euclidean h, ← Real.sqrt_mul_self_eq_abs]
    apply Real.sqrt_le_sqrt
    exact single_le_sum (f := fun j => (x.getD j 0 - y.getD j 0) * (x.getD j 0 - y.getD j 0))
      (fun _ _ => mul_self_nonneg _) (mem_range.2 hf)
  · intro a b c h
    rw [onRows_one_euclidean, onRows_one_euclidean]
    exact between_abs h

/-- The distances of (0, 0) and (3, 4). -/
example : manhattanDist (Mat.ofFloats [0, 0]) (Mat.ofFloats [3, 4]) = Res.ok 7 ∧
    euclideanDist (Mat.ofFloats [0, 0]) (Mat.ofFloats [3, 4]) = Res.ok 5 ∧
    chebyshevDist (Mat.ofFloats [0, 0]) (Mat.ofFloats [3, 4]) = Res.ok 4 ∧
    manhattanDist (Mat.ofFloats [0, 0]) (Mat.ofFloats [3]) = Res.panic := by
  refine ⟨?_, ?_, ?_, ?_⟩
  · rw [manhattanDist_ok (ofFloats_shape (x := [0, 0]) (y := [3, 4]) rfl)]
    simp [Mat.ofFloats, sum_range_succ]; norm_num
  · rw [euclideanDist_ok (ofFloats_shape (x := [0, 0]) (y := [3, 4]) rfl)]
    simp [Mat.ofFloats, sum_range_succ]
    rw [show (3 * 3 + 4 * 4 : ℝ) = 5 * 5 by norm_num, Real.sqrt_mul_self (by norm_num)]
  · unfold chebyshevDist
    rw [if_pos (ofFloats_shape (x := [0, 0]) (y := [3, 4]) rfl)]
    simp [Mat.ofFloats, Mat.loop, List.range_succ]; norm_num
  · rw [C81_manhattan.mismatch]
    simp [Mat.sameShape, Mat.ofFloats]

end Golearn
