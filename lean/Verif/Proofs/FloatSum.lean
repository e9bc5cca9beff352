import Verif.Proofs.Float64
import Verif.Model.Eval64
import Mathlib.Algebra.BigOperators.Group.List.Basic
import Mathlib.Algebra.Order.BigOperators.Group.List

/-! # How far sums of rounded numbers are off -/

namespace Golearn

theorem round64_rel {x : ℚ} (h : (2 : ℚ) ^ (-1022 : ℤ) ≤ |x|) : |round64 x - x| ≤ |x| / 2 ^ 53 := by
  have hx : x ≠ 0 := by
    intro e; rw [e, abs_zero] at h; exact absurd (two_zpow_pos (-1022)) (not_lt.2 h)
  have h1 := round64_err x
  have hlog : (-1022 : ℤ) ≤ Int.log 2 |x| := (Int.zpow_le_iff_le_log (b := 2) (by norm_num) (abs_pos.2 hx)).1 (by exact_mod_cast h)
  have he : ulpExp x = Int.log 2 |x| - 52 := by unfold ulpExp; omega
  have hl := Int.zpow_log_le_self (b := 2) (by norm_num) (abs_pos.2 hx)
  have e2 : (2 : ℚ) ^ ulpExp x / 2 = 2 ^ Int.log 2 |x| / 2 ^ 53 := by
    rw [he, zpow_sub₀ (by norm_num)]
    norm_num
    ring
  rw [e2] at h1
  refine h1.trans ?_
  push_cast at hl
  exact div_le_div_of_nonneg_right hl (by norm_num)

theorem round64_abs_err (x : ℚ) : |round64 x - x| ≤ |x| / 2 ^ 53 + 2 ^ (-1075 : ℤ) := by
  have hp : (0 : ℚ) < 2 ^ (-1075 : ℤ) := two_zpow_pos _
  rcases le_or_gt ((2 : ℚ) ^ (-1022 : ℤ)) |x| with h | h
  · have := round64_rel h; linarith
  · have h1 := round64_err x
    by_cases hx : x = 0
    · subst hx; rw [round64_zero]; simp
    have hlog : Int.log 2 |x| < -1022 := (Int.lt_zpow_iff_log_lt (b := 2) (by norm_num) (abs_pos.2 hx)).1 (by exact_mod_cast h)
    have he : ulpExp x = -1074 := by unfold ulpExp; omega
    rw [he] at h1
    have e2 : (2 : ℚ) ^ (-1074 : ℤ) / 2 = 2 ^ (-1075 : ℤ) := by
      rw [show (-1074 : ℤ) = -1075 + 1 by norm_num, zpow_add₀ (by norm_num)]; norm_num
    rw [e2] at h1
    have : 0 ≤ |x| / 2 ^ 53 := div_nonneg (abs_nonneg _) (by norm_num)
    linarith

/-- Every `float64` is a multiple of 2^-1074. -/
theorem isF64_grid {x : ℚ} (h : IsF64 x) : ∃ n : ℤ, x = n * 2 ^ (-1074 : ℤ) := by
  obtain ⟨m, e, he, _, rfl⟩ := h
  rw [two_zpow_split he, ← mul_assoc, ← Int.cast_mul]
  exact ⟨_, rfl⟩

/-- Addition of two `float64`s is exact when the result is tiny, so its error is relative. -/
theorem fadd_rel {a b : ℚ} (ha : IsF64 a) (hb : IsF64 b) : |fadd a b - (a + b)| ≤ |a + b| / 2 ^ 53 := by
  unfold fadd
  rcases le_or_gt ((2 : ℚ) ^ (-1022 : ℤ)) |a + b| with h | h
  · exact round64_rel h
  · obtain ⟨n, hn⟩ := isF64_grid ha
    obtain ⟨m, hm⟩ := isF64_grid hb
    have hs : a + b = ((n + m : ℤ) : ℚ) * 2 ^ (-1074 : ℤ) := by rw [hn, hm]; push_cast; ring
    have hF : IsF64 (a + b) := by
      refine ⟨n + m, -1074, le_refl _, ?_, hs⟩
      rw [hs, abs_mul, abs_of_pos (two_zpow_pos _)] at h
      have e : (2 : ℚ) ^ (-1022 : ℤ) = 2 ^ 52 * 2 ^ (-1074 : ℤ) := by
        rw [show (-1022 : ℤ) = 52 + -1074 by norm_num, zpow_add₀ (by norm_num)]; norm_num
      rw [e] at h
      have h' := lt_of_mul_lt_mul_right h (two_zpow_pos _).le
      rw [← Int.cast_abs] at h'
      have h'' : |n + m| < 2 ^ 52 := by exact_mod_cast h'
      omega
    rw [round64_fix hF, sub_self, abs_zero]
    exact div_nonneg (abs_nonneg _) (by norm_num)

theorem fadd_isF64 (a b : ℚ) : IsF64 (fadd a b) := round64_isF64 _

/-- The unit in which rounding errors are counted. -/
def unit64 : ℚ := 1 / 2 ^ 53

theorem unit64_pos : 0 < unit64 := by unfold unit64; norm_num

theorem foldl_fadd_err (l : List ℚ) (h : ∀ x ∈ l, IsF64 x) (a : ℚ) (ha : IsF64 a) :
    |l.foldl fadd a - (a + l.sum)| ≤ ((1 + unit64) ^ l.length - 1) * (|a| + (l.map abs).sum) := by
  have hu := unit64_pos
  induction l generalizing a with
  | nil => simp
  | cons x l ih =>
    have hx := h x (by simp)
    have hrel := fadd_rel ha hx
    have hab := abs_add_le a x
    have h1 : |fadd a x - (a + x)| ≤ unit64 * (|a| + |x|) := by
      refine hrel.trans ?_
      unfold unit64
      rw [div_eq_mul_one_div, mul_comm]
      exact mul_le_mul_of_nonneg_left hab (by norm_num)
    have h2 : |fadd a x| ≤ (1 + unit64) * (|a| + |x|) := by
      have := abs_add_le (fadd a x - (a + x)) (a + x)
      rw [sub_add_cancel] at this
      linarith
    have ih' := ih (fun y hy => h y (by simp [hy])) (fadd a x) (fadd_isF64 a x)
    have hS : 0 ≤ (l.map abs).sum := List.sum_nonneg (by
      intro y hy
      obtain ⟨z, _, rfl⟩ := List.mem_map.1 hy
      exact abs_nonneg z)
    have hg : 0 ≤ (1 + unit64) ^ l.length - 1 := by
      have := one_le_pow₀ (a := 1 + unit64) (n := l.length) (by linarith)
      linarith
    simp only [List.foldl_cons, List.sum_cons, List.map_cons, List.length_cons, pow_succ]
    have h3 : |l.foldl fadd (fadd a x) - (a + (x + l.sum))| ≤
        |l.foldl fadd (fadd a x) - (fadd a x + l.sum)| + |fadd a x - (a + x)| := by
      have := abs_add_le (l.foldl fadd (fadd a x) - (fadd a x + l.sum)) (fadd a x - (a + x))
      rw [show l.foldl fadd (fadd a x) - (fadd a x + l.sum) + (fadd a x - (a + x)) =
        l.foldl fadd (fadd a x) - (a + (x + l.sum)) by ring] at this
      exact this
    have h4 : ((1 + unit64) ^ l.length - 1) * (|fadd a x| + (l.map abs).sum) ≤
        ((1 + unit64) ^ l.length - 1) * ((1 + unit64) * (|a| + |x| + (l.map abs).sum)) := by
      apply mul_le_mul_of_nonneg_left _ hg
      nlinarith [abs_nonneg a, abs_nonneg x]
    have h5 : unit64 * (|a| + |x|) ≤ unit64 * (|a| + |x| + (l.map abs).sum) :=
      mul_le_mul_of_nonneg_left (by linarith) hu.le
    nlinarith

theorem fadds_err (l : List ℚ) (h : ∀ x ∈ l, IsF64 x) :
    |fadds l - l.sum| ≤ ((1 + unit64) ^ l.length - 1) * (l.map abs).sum := by
  have := foldl_fadd_err l h 0 isF64_zero
  simpa [fadds] using this

/-- Sums of natural numbers are exact as long as they fit into 53 bits. -/
theorem foldl_fadd_nat (l : List Nat) (a : Nat) (h : a + l.sum ≤ 2 ^ 53) :
    (l.map fun n => ofInt64 n).foldl fadd (a : ℚ) = ((a + l.sum : Nat) : ℚ) := by
  induction l generalizing a with
  | nil => simp
  | cons x l ih =>
    rw [List.sum_cons] at h
    simp only [List.map_cons, List.foldl_cons, List.sum_cons]
    have e1 : ofInt64 x = (x : ℚ) := round64_fix (isF64_nat (by omega))
    have e2 : fadd (a : ℚ) (ofInt64 x) = ((a + x : Nat) : ℚ) := by
      rw [e1]; unfold fadd
      rw [← Nat.cast_add]
      exact round64_fix (isF64_nat (by omega))
    rw [e2, ih (a + x) (by omega)]
    congr 1; omega

theorem fadds_nat (l : List Nat) (h : l.sum ≤ 2 ^ 53) : fadds (l.map fun n => ofInt64 n) = (l.sum : ℚ) := by
  have := foldl_fadd_nat l 0 (by omega)
  simpa [fadds] using this

/-- Sums of integers are exact as long as no partial sum can leave 53 bits. -/
theorem foldl_fadd_int (l : List ℤ) (a : ℤ) (h : |a| + (l.map abs).sum ≤ 2 ^ 53) :
    (l.map fun n : ℤ => (n : ℚ)).foldl fadd (a : ℚ) = ((a + l.sum : ℤ) : ℚ) := by
  induction l generalizing a with
  | nil => simp
  | cons x l ih =>
    rw [List.map_cons, List.sum_cons] at h
    simp only [List.map_cons, List.foldl_cons, List.sum_cons]
    have hS : 0 ≤ (l.map abs).sum := List.sum_nonneg (by
      intro y hy
      obtain ⟨z, _, rfl⟩ := List.mem_map.1 hy
      exact abs_nonneg z)
    have hax := abs_add_le a x
    have e2 : fadd (a : ℚ) (x : ℚ) = ((a + x : ℤ) : ℚ) := by
      unfold fadd
      rw [← Int.cast_add]
      exact round64_fix (isF64_int (by omega))
    rw [e2, ih (a + x) (by omega)]
    congr 1; ring

end Golearn
