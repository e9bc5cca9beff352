import Verif.Model.Float64
import Verif.Spec.Float64
import Mathlib.Tactic.Linarith
import Mathlib.Tactic.Ring
import Mathlib.Tactic.Positivity
import Mathlib.Tactic.NormNum
import Mathlib.Tactic.FieldSimp
import Mathlib.Algebra.Order.Floor.Ring

namespace Golearn

/-! ### The nearest integer -/

theorem nearestEven_spec (q : ℚ) : |(nearestEven q : ℚ) - q| < 1 / 2 ∨
    |(nearestEven q : ℚ) - q| = 1 / 2 ∧ nearestEven q % 2 = 0 := by
  have h1 := Int.floor_le q
  have h2 := Int.lt_floor_add_one q
  unfold nearestEven
  split
  · left; rw [abs_lt]; constructor <;> linarith
  · split
    · left; push_cast; rw [abs_lt]; constructor <;> linarith
    · have h3 : q - ⌊q⌋ = 1 / 2 := le_antisymm (not_lt.1 ‹_›) (not_lt.1 ‹_›)
      right
      split
      · refine ⟨?_, ‹_›⟩
        rw [abs_sub_comm, h3]; norm_num
      · refine ⟨?_, by omega⟩
        push_cast
        rw [show (⌊q⌋ : ℚ) + 1 - q = 1 / 2 by linarith]; norm_num

theorem nearestEven_half (q : ℚ) : |(nearestEven q : ℚ) - q| ≤ 1 / 2 := by
  rcases nearestEven_spec q with h | h
  · exact h.le
  · exact h.1.le

theorem nearestEven_unique {q : ℚ} {n : ℤ}
    (h : |(n : ℚ) - q| < 1 / 2 ∨ |(n : ℚ) - q| = 1 / 2 ∧ n % 2 = 0) : nearestEven q = n := by
  have h' := nearestEven_spec q
  have key : |((nearestEven q - n : ℤ) : ℚ)| ≤ |(nearestEven q : ℚ) - q| + |(n : ℚ) - q| := by
    push_cast
    calc |(nearestEven q : ℚ) - n| = |((nearestEven q : ℚ) - q) - (n - q)| := by congr 1; ring
      _ ≤ _ := abs_sub _ _
  have lt_one : ∀ z : ℤ, |(z : ℚ)| < 1 → z = 0 := by
    intro z hz
    rw [← Int.cast_abs] at hz
    have : |z| < 1 := by exact_mod_cast hz
    exact Int.abs_lt_one_iff.1 this
  have hz : nearestEven q - n = 0 := by
    rcases h with h | ⟨h, he⟩ <;> rcases h' with h' | ⟨h', he'⟩
    · exact lt_one _ (by linarith)
    · exact lt_one _ (by linarith)
    · exact lt_one _ (by linarith)
    · have hle : |((nearestEven q - n : ℤ) : ℚ)| ≤ 1 := by linarith
      rw [← Int.cast_abs] at hle
      have hle' : |nearestEven q - n| ≤ 1 := by exact_mod_cast hle
      rw [abs_le] at hle'
      omega
  omega

theorem nearestEven_nearest (q : ℚ) (n : ℤ) : |(nearestEven q : ℚ) - q| ≤ |(n : ℚ) - q| := by
  by_contra hlt
  rw [not_le] at hlt
  have := nearestEven_unique (q := q) (n := n) (Or.inl (lt_of_lt_of_le hlt (nearestEven_half q)))
  rw [this] at hlt
  exact lt_irrefl _ hlt

theorem nearestEven_neg (q : ℚ) : nearestEven (-q) = -nearestEven q := by
  apply nearestEven_unique
  have h := nearestEven_spec q
  have e : |((-nearestEven q : ℤ) : ℚ) - -q| = |(nearestEven q : ℚ) - q| := by
    push_cast
    rw [← abs_neg]; congr 1; ring
  rw [e]
  rcases h with h | h
  · exact Or.inl h
  · exact Or.inr ⟨h.1, by omega⟩

/-! ### Powers of two -/

theorem two_zpow_pos (e : ℤ) : (0 : ℚ) < 2 ^ e := zpow_pos (by norm_num) e

theorem two_zpow_split {a b : ℤ} (h : a ≤ b) : (2 : ℚ) ^ b = ((2 ^ (b - a).toNat : ℤ) : ℚ) * 2 ^ a := by
  push_cast
  rw [← zpow_natCast (2 : ℚ), ← zpow_add₀ (by norm_num)]
  congr 1
  omega

theorem ulpExp_min (x : ℚ) : -1074 ≤ ulpExp x := le_max_right _ _

theorem ulpExp_bound (x : ℚ) : |x| < 2 ^ 53 * 2 ^ ulpExp x := by
  have h := Int.lt_zpow_succ_log_self (b := 2) (by norm_num) |x|
  have h' : (2 : ℚ) ^ (Int.log 2 |x| + 1) ≤ 2 ^ (53 + ulpExp x) :=
    zpow_le_zpow_right₀ (by norm_num) (by unfold ulpExp; have := le_max_left (Int.log 2 |x| - 52) (-1074); omega)
  rw [zpow_add₀ (by norm_num) 53] at h'
  push_cast at h
  exact lt_of_lt_of_le h (by exact_mod_cast h')

theorem ulpExp_low {x : ℚ} (hx : x ≠ 0) (h : -1074 < ulpExp x) : 2 ^ 52 * 2 ^ ulpExp x ≤ |x| := by
  have hl := Int.zpow_log_le_self (b := 2) (by norm_num) (abs_pos.2 hx)
  have he : ulpExp x = Int.log 2 |x| - 52 := by unfold ulpExp at h ⊢; omega
  rw [he]
  have : (2 : ℚ) ^ (52 : ℕ) * 2 ^ (Int.log 2 |x| - 52) = 2 ^ Int.log 2 |x| := by
    rw [← zpow_natCast, ← zpow_add₀ (by norm_num)]; congr 1; push_cast; ring
  rw [this]; exact_mod_cast hl

/-! ### Rounding -/

theorem round64_err (x : ℚ) : |round64 x - x| ≤ 2 ^ ulpExp x / 2 := by
  have hp := two_zpow_pos (ulpExp x)
  have h := nearestEven_half (x / 2 ^ ulpExp x)
  have : round64 x - x = ((nearestEven (x / 2 ^ ulpExp x) : ℚ) - x / 2 ^ ulpExp x) * 2 ^ ulpExp x := by
    unfold round64; field_simp
  rw [this, abs_mul, abs_of_pos hp]
  nlinarith

theorem round64_isF64 (x : ℚ) : IsF64 (round64 x) := by
  have hp := two_zpow_pos (ulpExp x)
  have hb := ulpExp_bound x
  have hq : |x / 2 ^ ulpExp x| < 2 ^ 53 := by
    rw [abs_div, abs_of_pos hp, div_lt_iff₀ hp]; exact hb
  have hn : |nearestEven (x / 2 ^ ulpExp x)| ≤ 2 ^ 53 := by
    have h := nearestEven_half (x / 2 ^ ulpExp x)
    have : |(nearestEven (x / 2 ^ ulpExp x) : ℚ)| < 2 ^ 53 + 1 := by
      calc |(nearestEven (x / 2 ^ ulpExp x) : ℚ)|
          = |((nearestEven (x / 2 ^ ulpExp x) : ℚ) - x / 2 ^ ulpExp x) + x / 2 ^ ulpExp x| := by congr 1; ring
        _ ≤ _ := abs_add_le _ _
        _ < _ := by linarith
    rw [← Int.cast_abs] at this
    have h2 : |nearestEven (x / 2 ^ ulpExp x)| < 2 ^ 53 + 1 := by exact_mod_cast this
    omega
  rcases lt_or_eq_of_le hn with h | h
  · exact ⟨_, _, ulpExp_min x, h, rfl⟩
  · have hsplit : (2 : ℚ) ^ (ulpExp x + 1) = 2 * 2 ^ ulpExp x := by
      rw [zpow_add₀ (by norm_num), zpow_one, mul_comm]
    rcases (abs_eq (by norm_num)).1 h with h | h
    · refine ⟨2 ^ 52, ulpExp x + 1, by have := ulpExp_min x; omega, by norm_num, ?_⟩
      unfold round64; rw [h, hsplit]; push_cast; ring
    · refine ⟨-2 ^ 52, ulpExp x + 1, by have := ulpExp_min x; omega, by norm_num, ?_⟩
      unfold round64; rw [h, hsplit]; push_cast; ring

/-- Every multiple of the last place is at least as far from `x` as the rounded value. -/
theorem round64_multiple (x : ℚ) (n : ℤ) : |round64 x - x| ≤ |(n : ℚ) * 2 ^ ulpExp x - x| := by
  have hp := two_zpow_pos (ulpExp x)
  have h := nearestEven_nearest (x / 2 ^ ulpExp x) n
  have e : ∀ m : ℤ, (m : ℚ) * 2 ^ ulpExp x - x = ((m : ℚ) - x / 2 ^ ulpExp x) * 2 ^ ulpExp x := by
    intro m; field_simp
  have e1 := e (nearestEven (x / 2 ^ ulpExp x))
  change |(nearestEven (x / 2 ^ ulpExp x) : ℚ) * 2 ^ ulpExp x - x| ≤ _
  rw [e1, e n, abs_mul, abs_mul]
  exact mul_le_mul_of_nonneg_right h (abs_nonneg _)

theorem round64_nearest (x : ℚ) : Nearest64 x (round64 x) := by
  refine ⟨round64_isF64 x, ?_⟩
  rintro y ⟨m, e, he, hm, rfl⟩
  by_cases hx : x = 0
  · subst hx
    have : round64 0 = 0 := by
      have h := round64_multiple 0 0
      simpa using h
    rw [this, sub_self, abs_zero]; exact abs_nonneg _
  rcases le_or_gt (ulpExp x) e with h | h
  · rw [two_zpow_split h, ← mul_assoc, ← Int.cast_mul]
    exact round64_multiple x _
  · have hlow := ulpExp_low hx (by omega)
    have hmq : |(m : ℚ)| < 2 ^ 53 := by rw [← Int.cast_abs]; exact_mod_cast hm
    have hpe := two_zpow_pos e
    have hy : |(m : ℚ) * 2 ^ e| ≤ 2 ^ 52 * 2 ^ ulpExp x := by
      rw [abs_mul, abs_of_pos hpe]
      have h1 : (2 : ℚ) ^ (e + 1) ≤ 2 ^ ulpExp x := zpow_le_zpow_right₀ (by norm_num) (by omega)
      rw [zpow_add₀ (by norm_num), zpow_one] at h1
      nlinarith
    rcases lt_or_gt_of_ne hx with hneg | hpos
    · have hb := round64_multiple x (-2 ^ 52)
      rw [abs_of_neg hneg] at hlow
      refine hb.trans ?_
      push_cast
      have hyl := (abs_le.1 hy).1
      rw [abs_of_nonneg (by linarith), abs_of_nonneg (by linarith)]
      linarith
    · have hb := round64_multiple x (2 ^ 52)
      rw [abs_of_pos hpos] at hlow
      refine hb.trans ?_
      push_cast
      have hyl := (abs_le.1 hy).2
      rw [abs_of_nonpos (by linarith), abs_of_nonpos (by linarith)]
      linarith

theorem round64_fix {x : ℚ} (h : IsF64 x) : round64 x = x := by
  have := (round64_nearest x).2 x h
  simp only [sub_self, abs_zero, abs_nonpos_iff] at this
  linarith

theorem round64_mono {x y : ℚ} (h : x ≤ y) : round64 x ≤ round64 y := by
  by_contra hlt
  rw [not_le] at hlt
  obtain ⟨hx, hxn⟩ := round64_nearest x
  obtain ⟨hy, hyn⟩ := round64_nearest y
  have h1 := hxn _ hy
  have h2 := hyn _ hx
  have e : x = y := by
    rcases abs_cases (round64 x - x) with ⟨h3, _⟩ | ⟨h3, _⟩ <;> rcases abs_cases (round64 y - x) with ⟨h4, _⟩ | ⟨h4, _⟩ <;>
    rcases abs_cases (round64 y - y) with ⟨h5, _⟩ | ⟨h5, _⟩ <;> rcases abs_cases (round64 x - y) with ⟨h6, _⟩ | ⟨h6, _⟩ <;>
    rw [h3, h4] at h1 <;> rw [h5, h6] at h2 <;> linarith
  subst e
  exact lt_irrefl _ hlt

theorem round64_neg (x : ℚ) : round64 (-x) = -round64 x := by
  have : ulpExp (-x) = ulpExp x := by unfold ulpExp; rw [abs_neg]
  unfold round64
  rw [this, neg_div, nearestEven_neg]
  push_cast; ring

/-- A bound that is a `float64` is kept by rounding. -/
theorem round64_le {x b : ℚ} (hb : IsF64 b) (h : x ≤ b) : round64 x ≤ b := by
  rw [← round64_fix hb]; exact round64_mono h

theorem le_round64 {x b : ℚ} (hb : IsF64 b) (h : b ≤ x) : b ≤ round64 x := by
  rw [← round64_fix hb]; exact round64_mono h

theorem isF64_int {n : ℤ} (h : |n| ≤ 2 ^ 53) : IsF64 n := by
  rcases lt_or_eq_of_le h with h | h
  · exact ⟨n, 0, by omega, h, by simp⟩
  · rcases (abs_eq (by norm_num)).1 h with h | h
    · exact ⟨2 ^ 52, 1, by omega, by norm_num, by rw [h]; norm_num⟩
    · exact ⟨-2 ^ 52, 1, by omega, by norm_num, by rw [h]; norm_num⟩

theorem isF64_nat {n : Nat} (h : n ≤ 2 ^ 53) : IsF64 n := by
  have := isF64_int (n := n) (by rw [abs_of_nonneg (by omega)]; exact_mod_cast h)
  exact_mod_cast this

theorem isF64_zero : IsF64 0 := by simpa using isF64_nat (n := 0) (by norm_num)
theorem isF64_one : IsF64 1 := by simpa using isF64_nat (n := 1) (by norm_num)

theorem isF64_neg {x : ℚ} (h : IsF64 x) : IsF64 (-x) := by
  obtain ⟨m, e, he, hm, rfl⟩ := h
  exact ⟨-m, e, he, by rwa [abs_neg], by push_cast; ring⟩

theorem isF64_abs {x : ℚ} (h : IsF64 x) : IsF64 |x| := by
  rcases abs_choice x with hx | hx <;> rw [hx]
  · exact h
  · exact isF64_neg h

theorem isF64_double {x : ℚ} (h : IsF64 x) : IsF64 (2 * x) := by
  obtain ⟨m, e, he, hm, rfl⟩ := h
  refine ⟨m, e + 1, by omega, hm, ?_⟩
  rw [zpow_add₀ (by norm_num), zpow_one]; ring

theorem isF64_pow {e : ℤ} (h : -1074 ≤ e) : IsF64 (2 ^ e) := ⟨1, e, h, by norm_num, by simp⟩

theorem round64_nonneg {x : ℚ} (h : 0 ≤ x) : 0 ≤ round64 x := le_round64 isF64_zero h

theorem round64_zero : round64 0 = 0 := round64_fix isF64_zero

theorem round64_abs (x : ℚ) : |round64 x| = round64 |x| := by
  rcases le_total 0 x with h | h
  · rw [abs_of_nonneg h, abs_of_nonneg (round64_nonneg h)]
  · rw [abs_of_nonpos h, round64_neg, abs_of_nonpos]
    have := round64_nonneg (x := -x) (by linarith)
    rw [round64_neg] at this; linarith

/-- To compute a rounded value: find the exponent and the nearest integer. -/
theorem round64_eq {x : ℚ} (e n : ℤ) (hlow : 2 ^ 52 * 2 ^ e ≤ |x|) (hhigh : |x| < 2 ^ 53 * 2 ^ e) (he : -1074 ≤ e)
    (hn : |(n : ℚ) - x / 2 ^ e| < 1 / 2 ∨ |(n : ℚ) - x / 2 ^ e| = 1 / 2 ∧ n % 2 = 0) : round64 x = n * 2 ^ e := by
  have hpos : 0 < |x| := lt_of_lt_of_le (mul_pos (by norm_num) (two_zpow_pos e)) hlow
  have h1 : Int.log 2 |x| = e + 52 := by
    apply le_antisymm
    · have := (Int.lt_zpow_iff_log_lt (b := 2) (x := e + 53) (by norm_num) hpos).1 (by
        rw [zpow_add₀ (by norm_num), mul_comm]; exact_mod_cast hhigh)
      omega
    · exact (Int.zpow_le_iff_le_log (b := 2) (by norm_num) hpos).1 (by
        rw [zpow_add₀ (by norm_num), mul_comm]; exact_mod_cast hlow)
  have h2 : ulpExp x = e := by unfold ulpExp; rw [h1]; omega
  unfold round64
  rw [h2, nearestEven_unique hn]

end Golearn
