import Verif.Proofs.FloatSum
import Verif.Model.Average64

/-! # Errors of several roundings of numbers that are not negative -/

namespace Golearn

/-- `a` is off `b` by a relative error of `k` roundings and by `t`. -/
def Near (k : Nat) (t a b : ℚ) : Prop := |a - b| ≤ ((1 + unit64) ^ k - 1) * b + t

/-- The error of a rounding to something smaller than a normal number. -/
def tiny64 : ℚ := 2 ^ (-1075 : ℤ)

theorem tiny64_pos : 0 < tiny64 := two_zpow_pos _

theorem near_refl {b : ℚ} : Near 0 0 b b := by
  unfold Near; simp

theorem unit64_pow_ge (k : Nat) : 1 ≤ (1 + unit64) ^ k := one_le_pow₀ (by linarith [unit64_pos])

theorem Near.abs_le {k : Nat} {t a b : ℚ} (hb : 0 ≤ b) (h : Near k t a b) : |a| ≤ (1 + unit64) ^ k * b + t := by
  have h1 : |a| ≤ |a - b| + |b| := by
    have := abs_add_le (a - b) b
    rwa [sub_add_cancel] at this
  rw [abs_of_nonneg hb] at h1
  unfold Near at h
  linarith

theorem Near.mono {k k' : Nat} {t t' a b : ℚ} (hb : 0 ≤ b) (h : Near k t a b) (hk : k ≤ k') (ht : t ≤ t') : Near k' t' a b := by
  unfold Near at *
  have : (1 + unit64) ^ k ≤ (1 + unit64) ^ k' := pow_le_pow_right₀ (by linarith [unit64_pos]) hk
  have := mul_le_mul_of_nonneg_right (sub_le_sub_right this 1) hb
  linarith

/-- Rounding adds one relative error and a tiny one. -/
theorem Near.round {k : Nat} {t a b : ℚ} (hb : 0 ≤ b) (h : Near k t a b) : Near (k + 1) ((1 + unit64) * t + tiny64) (round64 a) b := by
  have h1 := round64_abs_err a
  have h2 := h.abs_le hb
  unfold Near at *
  have h3 : |round64 a - b| ≤ |round64 a - a| + |a - b| := by
    have := abs_add_le (round64 a - a) (a - b)
    rwa [sub_add_sub_cancel] at this
  have h4 : |a| / 2 ^ 53 ≤ unit64 * ((1 + unit64) ^ k * b + t) := by
    rw [div_eq_mul_one_div, mul_comm]
    exact mul_le_mul_of_nonneg_left h2 unit64_pos.le
  rw [pow_succ]
  unfold tiny64
  nlinarith

/-- The same without the tiny one, for a rounding with a relative error. -/
theorem Near.rel {k : Nat} {t a b r : ℚ} (hb : 0 ≤ b) (h : Near k t a b) (hr : |r - a| ≤ |a| / 2 ^ 53) :
    Near (k + 1) ((1 + unit64) * t) r b := by
  have h2 := h.abs_le hb
  unfold Near at *
  have h3 : |r - b| ≤ |r - a| + |a - b| := by
    have := abs_add_le (r - a) (a - b)
    rwa [sub_add_sub_cancel] at this
  have h4 : |a| / 2 ^ 53 ≤ unit64 * ((1 + unit64) ^ k * b + t) := by
    rw [div_eq_mul_one_div, mul_comm]
    exact mul_le_mul_of_nonneg_left h2 unit64_pos.le
  rw [pow_succ]
  nlinarith

theorem Near.mul {k : Nat} {t a b c : ℚ} (hc : 0 ≤ c) (h : Near k t a b) : Near k (t * c) (a * c) (b * c) := by
  unfold Near at *
  rw [← sub_mul, abs_mul, abs_of_nonneg hc]
  have := mul_le_mul_of_nonneg_right h hc
  linarith

theorem Near.div {k : Nat} {t a b c : ℚ} (hc : 0 ≤ c) (h : Near k t a b) : Near k (t / c) (a / c) (b / c) := by
  simp only [div_eq_mul_inv]
  exact h.mul (inv_nonneg.2 hc)

theorem Near.add {k : Nat} {t t' a a' b b' : ℚ} (h : Near k t a b) (h' : Near k t' a' b') : Near k (t + t') (a + a') (b + b') := by
  unfold Near at *
  have h3 : |a + a' - (b + b')| ≤ |a - b| + |a' - b'| := by
    have := abs_add_le (a - b) (a' - b')
    rwa [show a - b + (a' - b') = a + a' - (b + b') by ring] at this
  linarith

/-- A sum of `float64`s each of which is near a number that is not negative. -/
theorem near_fadds {α : Type} (l : List α) (f g : α → ℚ) (k : Nat) (t : ℚ) (ht : 0 ≤ t) (hF : ∀ a ∈ l, IsF64 (f a))
    (hg : ∀ a ∈ l, 0 ≤ g a) (h : ∀ a ∈ l, Near k t (f a) (g a)) :
    Near (k + l.length) (t * l.length * (1 + unit64) ^ l.length) (fadds (l.map f)) (l.map g).sum := by
  have h1 := fadds_err (l.map f) (by
    intro x hx
    obtain ⟨a, ha, rfl⟩ := List.mem_map.1 hx
    exact hF a ha)
  rw [List.length_map] at h1
  have h2 : ((l.map f).map abs).sum ≤ (1 + unit64) ^ k * (l.map g).sum + t * l.length ∧
      |(l.map f).sum - (l.map g).sum| ≤ ((1 + unit64) ^ k - 1) * (l.map g).sum + t * l.length := by
    clear h1 hF
    induction l with
    | nil => simp
    | cons a l ih =>
      obtain ⟨i1, i2⟩ := ih (fun b hb => hg b (by simp [hb])) (fun b hb => h b (by simp [hb]))
      have ha := h a (by simp)
      have hga := hg a (by simp)
      simp only [List.map_cons, List.sum_cons, List.length_cons]
      push_cast
      constructor
      · have := ha.abs_le hga
        linarith
      · have h3 : |f a + (l.map f).sum - (g a + (l.map g).sum)| ≤ |f a - g a| + |(l.map f).sum - (l.map g).sum| := by
          have := abs_add_le (f a - g a) ((l.map f).sum - (l.map g).sum)
          rwa [show f a - g a + ((l.map f).sum - (l.map g).sum) = f a + (l.map f).sum - (g a + (l.map g).sum) by ring] at this
        unfold Near at ha
        linarith
  obtain ⟨h2, h3⟩ := h2
  unfold Near
  have h4 : |fadds (l.map f) - (l.map g).sum| ≤ |fadds (l.map f) - (l.map f).sum| + |(l.map f).sum - (l.map g).sum| := by
    have := abs_add_le (fadds (l.map f) - (l.map f).sum) ((l.map f).sum - (l.map g).sum)
    rwa [sub_add_sub_cancel] at this
  have hn := unit64_pow_ge l.length
  have h5 := mul_le_mul_of_nonneg_left h2 (sub_nonneg.2 hn)
  have h6 : |fadds (l.map f) - (l.map g).sum| ≤
      ((1 + unit64) ^ l.length - 1) * ((1 + unit64) ^ k * (l.map g).sum + t * l.length) +
      (((1 + unit64) ^ k - 1) * (l.map g).sum + t * l.length) := by linarith
  refine h6.trans (le_of_eq ?_)
  rw [pow_add]; ring

theorem near_abs_fsub {a b : ℚ} (ha : IsF64 a) (hb : IsF64 b) : Near 1 0 |fsub a b| |a - b| := by
  have h := fadd_rel ha (isF64_neg hb)
  have e : fadd a (-b) = fsub a b := by unfold fadd fsub; rw [sub_eq_add_neg]
  rw [e, ← sub_eq_add_neg] at h
  have h2 := abs_abs_sub_abs_le (fsub a b) (a - b)
  unfold Near
  rw [pow_one]
  refine (h2.trans h).trans (le_of_eq ?_)
  unfold unit64; ring

theorem near_sq_fsub {a b : ℚ} (ha : IsF64 a) (hb : IsF64 b) :
    Near 3 tiny64 (fmul (fsub a b) (fsub a b)) ((a - b) ^ 2) := by
  have h := near_abs_fsub ha hb
  have h1 := h.abs_le (abs_nonneg _)
  rw [abs_abs, pow_one, add_zero] at h1
  have h0 : Near 2 0 (fsub a b * fsub a b) ((a - b) ^ 2) := by
    unfold Near at *
    have e1 : fsub a b * fsub a b = |fsub a b| * |fsub a b| := (abs_mul_abs_self _).symm
    have e2 : (a - b) ^ 2 = |a - b| * |a - b| := by rw [abs_mul_abs_self]; ring
    rw [e1, e2]
    have hf := abs_nonneg (fsub a b)
    have hd := abs_nonneg (a - b)
    generalize |fsub a b| = p at *
    generalize |a - b| = q at *
    rw [pow_one] at h
    rw [show p * p - q * q = (p - q) * (p + q) by ring, abs_mul, abs_of_nonneg (by linarith : 0 ≤ p + q)]
    calc |p - q| * (p + q) ≤ (unit64 * q) * (p + q) := mul_le_mul_of_nonneg_right (by linarith) (by linarith)
      _ ≤ (unit64 * q) * ((1 + unit64) * q + q) :=
          mul_le_mul_of_nonneg_left (by linarith) (mul_nonneg unit64_pos.le hd)
      _ = _ := by ring
  have := h0.round (sq_nonneg _)
  simpa [fmul] using this

/-- The mean of absolute deviations. -/
theorem meanAbsErr64_near {y : List ℚ} {c v : ℚ} (hF : ∀ t ∈ y, IsF64 t) (hc : IsF64 c) (hn : y.length ≤ 2 ^ 53)
    (h : meanAbsErr64 y c = some v) :
    Near (y.length + 2) tiny64 v ((y.map fun t => |t - c|).sum / y.length) := by
  have h1 := near_fadds y (fun t => |fsub t c|) (fun t => |t - c|) 1 0 le_rfl (fun t ht => isF64_abs (round64_isF64 _))
    (fun t _ => abs_nonneg _) (fun t ht => near_abs_fsub (hF t ht) hc)
  have hl : ofInt64 y.length = y.length := round64_fix (isF64_nat hn)
  unfold meanAbsErr64 fquo at h
  rw [hl] at h
  split at h
  · cases h
  · cases h
    have h2 := (h1.div (c := (y.length : ℚ)) (by positivity)).round
      (div_nonneg (List.sum_nonneg (by
        intro x hx
        obtain ⟨t, _, rfl⟩ := List.mem_map.1 hx
        exact abs_nonneg _)) (by positivity))
    rw [show 1 + y.length + 1 = y.length + 2 by omega] at h2
    simpa using h2

/-- The mean of squared deviations. -/
theorem meanSqErr64_near {y : List ℚ} {c v : ℚ} (hF : ∀ t ∈ y, IsF64 t) (hc : IsF64 c) (hn : y.length ≤ 2 ^ 53)
    (h : meanSqErr64 y c = some v) :
    Near (y.length + 4) (2 * tiny64 * (1 + unit64) ^ (y.length + 1)) v ((y.map fun t => (t - c) ^ 2).sum / y.length) := by
  have h1 := near_fadds y (fun t => fmul (fsub t c) (fsub t c)) (fun t => (t - c) ^ 2) 3 tiny64 tiny64_pos.le
    (fun t ht => round64_isF64 _) (fun t _ => sq_nonneg _) (fun t ht => near_sq_fsub (hF t ht) hc)
  have hl : ofInt64 y.length = y.length := round64_fix (isF64_nat hn)
  unfold meanSqErr64 fquo at h
  rw [hl] at h
  split at h
  · cases h
  · rename_i hne
    cases h
    have hs : (0 : ℚ) ≤ (y.map fun t => (t - c) ^ 2).sum / (y.length : ℚ) :=
      div_nonneg (List.sum_nonneg (by
        intro x hx
        obtain ⟨t, _, rfl⟩ := List.mem_map.1 hx
        exact sq_nonneg _)) (by positivity)
    have h2 := (h1.div (c := (y.length : ℚ)) (by positivity)).round hs
    rw [show 3 + y.length + 1 = y.length + 4 by omega] at h2
    refine h2.mono hs le_rfl ?_
    have e : tiny64 * y.length * (1 + unit64) ^ y.length / y.length = tiny64 * (1 + unit64) ^ y.length := by
      field_simp
    rw [e]
    have := mul_le_mul_of_nonneg_left (unit64_pow_ge (y.length + 1)) tiny64_pos.le
    rw [pow_succ] at this ⊢
    linarith

/-- The weighted loss of a split. -/
theorem subLoss64_near {l r v : ℚ} (hl : 0 ≤ l) (hr : 0 ≤ r) {nl nr n : Nat} (h1 : nl ≤ 2 ^ 53) (h2 : nr ≤ 2 ^ 53) (h3 : n ≤ 2 ^ 53)
    (h : subLoss64 l r nl nr n = some v) :
    Near 3 (2 ^ (-1072 : ℤ)) v ((l * nl + r * nr) / n) := by
  have e1 : ofInt64 nl = nl := round64_fix (isF64_nat h1)
  have e2 : ofInt64 nr = nr := round64_fix (isF64_nat h2)
  have e3 : ofInt64 n = n := round64_fix (isF64_nat h3)
  unfold subLoss64 fquo at h
  rw [e1, e2, e3] at h
  by_cases hn : (n : ℚ) = 0
  · rw [if_pos hn] at h; cases h
  · rw [if_neg hn, if_neg hn] at h
    have hv : fadd (round64 (fmul l nl / n)) (round64 (fmul r nr / n)) = v := by simpa using h
    have hn1 : (1 : ℚ) ≤ n := by
      have : 1 ≤ n := Nat.one_le_iff_ne_zero.2 (by exact_mod_cast hn)
      exact_mod_cast this
    have side : ∀ (a : ℚ) (m : Nat), 0 ≤ a → Near 2 ((1 + unit64) * tiny64 + tiny64) (round64 (fmul a m / n)) (a * m / n) := by
      intro a m ha
      have hp : 0 ≤ a * m := mul_nonneg ha (by positivity)
      have hq : 0 ≤ a * m / n := div_nonneg hp (by linarith)
      have := (((near_refl (b := a * m)).round hp).div (c := (n : ℚ)) (by linarith)).round hq
      refine this.mono hq le_rfl ?_
      have hu := unit64_pos
      have ht := tiny64_pos
      have : ((1 + unit64) * 0 + tiny64) / n ≤ tiny64 := by
        rw [mul_zero, zero_add]
        exact div_le_self ht.le hn1
      nlinarith
    have hab := (side l nl hl).add (side r nr hr)
    have hE : 0 ≤ l * nl / n + r * nr / n :=
      add_nonneg (div_nonneg (mul_nonneg hl (by positivity)) (by linarith)) (div_nonneg (mul_nonneg hr (by positivity)) (by linarith))
    have := hab.rel hE (fadd_rel (round64_isF64 _) (round64_isF64 _))
    rw [hv] at this
    rw [add_div]
    refine this.mono hE le_rfl ?_
    have ht := tiny64_pos
    have : (2 : ℚ) ^ (-1072 : ℤ) = 8 * tiny64 := by
      unfold tiny64
      rw [show (-1072 : ℤ) = 3 + -1075 by norm_num, zpow_add₀ (by norm_num)]
      norm_num
    rw [this]
    unfold unit64
    nlinarith

end Golearn
