import Verif.Model.Bits64
import Verif.Proofs.Float64

/-! # Lemmas about bit patterns -/

namespace Golearn

theorem magVal_nonneg (k : Nat) : 0 ≤ magVal k := by
  unfold magVal
  split
  · exact mul_nonneg (Nat.cast_nonneg _) (two_zpow_pos _).le
  · exact mul_nonneg (Nat.cast_nonneg _) (two_zpow_pos _).le

theorem zpow_next (e : ℤ) : (2 : ℚ) ^ (e + 1) = 2 * 2 ^ e := by
  rw [zpow_add₀ (by norm_num), zpow_one]; exact mul_comm _ _

theorem magVal_sub {r : Nat} (hr : r < 2 ^ 52) : magVal r = (r : ℚ) * 2 ^ (-1074 : ℤ) := by
  unfold magVal
  rw [if_pos (Nat.div_eq_of_lt hr)]

theorem magVal_norm {q r : Nat} (hr : r < 2 ^ 52) :
    magVal (2 ^ 52 * (q + 1) + r) = ((2 ^ 52 + r : Nat) : ℚ) * 2 ^ ((q : ℤ) - 1074) := by
  have e1 : (2 ^ 52 * (q + 1) + r) / 2 ^ 52 = q + 1 := by omega
  have e2 : (2 ^ 52 * (q + 1) + r) % 2 ^ 52 = r := by omega
  have e3 : (((q + 1 : Nat) : ℤ) - 1075) = (q : ℤ) - 1074 := by push_cast; omega
  unfold magVal
  rw [e1, e2, e3, if_neg (Nat.succ_ne_zero q)]

theorem split52 (k : Nat) : ∃ q r : Nat, r < 2 ^ 52 ∧ k = 2 ^ 52 * q + r :=
  ⟨k / 2 ^ 52, k % 2 ^ 52, Nat.mod_lt _ (by decide), (Nat.div_add_mod _ _).symm⟩

theorem magVal_succ (k : Nat) : magVal k < magVal (k + 1) := by
  obtain ⟨q, r, hr, rfl⟩ := split52 k
  rcases q with _ | q
  · rw [Nat.mul_zero, Nat.zero_add, magVal_sub hr]
    by_cases hw : r + 1 = 2 ^ 52
    · have e : r + 1 = 2 ^ 52 * (0 + 1) + 0 := by omega
      rw [e, magVal_norm (by decide)]
      have e2 : (((0 : Nat) : ℤ) - 1074) = -1074 := by norm_num
      rw [e2]
      exact (mul_lt_mul_iff_left₀ (two_zpow_pos _)).2 (by exact_mod_cast (by omega : r < 2 ^ 52 + 0))
    · rw [magVal_sub (by omega)]
      exact (mul_lt_mul_iff_left₀ (two_zpow_pos _)).2 (by exact_mod_cast (by omega : r < r + 1))
  · rw [magVal_norm hr]
    by_cases hw : r + 1 = 2 ^ 52
    · have e : 2 ^ 52 * (q + 1) + r + 1 = 2 ^ 52 * (q + 1 + 1) + 0 := by omega
      have e2 : (((q + 1 : Nat) : ℤ) - 1074) = ((q : ℤ) - 1074) + 1 := by push_cast; omega
      rw [e, magVal_norm (by decide), e2, zpow_next, ← mul_assoc]
      refine (mul_lt_mul_iff_left₀ (two_zpow_pos _)).2 ?_
      exact_mod_cast (by omega : 2 ^ 52 + r < (2 ^ 52 + 0) * 2)
    · have e : 2 ^ 52 * (q + 1) + r + 1 = 2 ^ 52 * (q + 1) + (r + 1) := by omega
      rw [e, magVal_norm (by omega)]
      exact (mul_lt_mul_iff_left₀ (two_zpow_pos _)).2 (by exact_mod_cast (by omega : 2 ^ 52 + r < 2 ^ 52 + (r + 1)))

theorem magVal_mono : StrictMono magVal := strictMono_nat_of_lt_succ magVal_succ

theorem magVal_zero : magVal 0 = 0 := by simp [magVal]

theorem magVal_inf : magVal infMag = 2 ^ 1024 := by
  have h1 : infMag = 2 ^ 52 * (2046 + 1) + 0 := by decide +kernel
  have h2 : (((2046 : Nat) : ℤ) - 1074) = ((972 : Nat) : ℤ) := by norm_num
  have h3 : ((2 ^ 52 + 0 : Nat) : ℚ) = 2 ^ 52 := by push_cast; rfl
  rw [h1, magVal_norm (by decide), h2, h3, zpow_natCast, ← pow_add]

theorem magVal_isF64 (k : Nat) : IsF64 (magVal k) := by
  obtain ⟨q, r, hr, rfl⟩ := split52 k
  rcases q with _ | q
  · rw [Nat.mul_zero, Nat.zero_add, magVal_sub hr]
    refine ⟨r, -1074, le_refl _, ?_, by rw [Int.cast_natCast]⟩
    rw [abs_of_nonneg (Int.natCast_nonneg r)]
    exact_mod_cast (by omega : r < 2 ^ 53)
  · rw [magVal_norm hr]
    refine ⟨(2 ^ 52 + r : Nat), _, ?_, ?_, by rw [Int.cast_natCast]⟩
    · omega
    · rw [abs_of_nonneg (Int.natCast_nonneg _)]
      exact_mod_cast (by omega : 2 ^ 52 + r < 2 ^ 53)

/-- A `float64` that is not negative is the number of its exponent and fraction. -/
theorem magVal_enc {x : ℚ} (h : IsF64 x) (h0 : 0 ≤ x) : magVal (encMag x) = x := by
  by_cases hx0 : x = 0
  · rw [hx0, encMag, if_pos rfl, magVal_zero]
  have hfix := round64_fix h
  have hp := two_zpow_pos (ulpExp x)
  set m := nearestEven (x / 2 ^ ulpExp x) with hm
  have hx : (m : ℚ) * 2 ^ ulpExp x = x := hfix
  have hdiv : x / 2 ^ ulpExp x = (m : ℚ) := by rw [div_eq_iff hp.ne']; exact hx.symm
  have hm0 : 0 ≤ m := by
    have : (0 : ℚ) ≤ m := by rw [← hdiv]; exact div_nonneg h0 hp.le
    exact_mod_cast this
  have hfl : ⌊x / 2 ^ ulpExp x⌋.toNat = m.toNat := by rw [hdiv, Int.floor_intCast]
  have hb := ulpExp_bound x
  rw [abs_of_nonneg h0] at hb
  have hm53 : m < 2 ^ 53 := by
    have : (m : ℚ) < 2 ^ 53 := by
      rw [← hdiv, div_lt_iff₀ hp]; exact hb
    exact_mod_cast this
  have hmin := ulpExp_min x
  obtain ⟨M, hM⟩ : ∃ M : Nat, m = M := ⟨m.toNat, (Int.toNat_of_nonneg hm0).symm⟩
  have hM53 : M < 2 ^ 53 := by rw [hM] at hm53; exact_mod_cast hm53
  have hxM : (M : ℚ) * 2 ^ ulpExp x = x := by
    have : (m : ℚ) = M := by rw [hM, Int.cast_natCast]
    rw [← this]; exact hx
  obtain ⟨E, hE⟩ : ∃ E : Nat, ulpExp x + 1074 = E := ⟨(ulpExp x + 1074).toNat, (Int.toNat_of_nonneg (by omega)).symm⟩
  have hu : ulpExp x = (E : ℤ) - 1074 := by omega
  have henc : encMag x = M + E * 2 ^ 52 := by
    unfold encMag
    rw [if_neg hx0, hfl, hM, hE, Int.toNat_natCast, Int.toNat_natCast]
  rw [henc]
  by_cases hlow : M < 2 ^ 52
  · -- subnormal or zero
    have hE0 : E = 0 := by
      by_contra hne
      have h1 := ulpExp_low hx0 (by omega)
      rw [abs_of_nonneg h0] at h1
      have hxM := (eq_div_iff hp.ne').2 hxM
      have h2 : (2 : ℚ) ^ 52 ≤ M := by rw [hxM, le_div_iff₀ hp]; exact h1
      have : 2 ^ 52 ≤ M := by exact_mod_cast h2
      omega
    have hz : ((E : ℤ) - 1074) = -1074 := by rw [hE0]; norm_num
    rw [hu, hz] at hxM
    have he : M + E * 2 ^ 52 = M := by rw [hE0]; omega
    rw [he, magVal_sub hlow, hxM]
  · obtain ⟨r, rfl⟩ : ∃ r, M = 2 ^ 52 + r := ⟨M - 2 ^ 52, by omega⟩
    have e1 : 2 ^ 52 + r + E * 2 ^ 52 = 2 ^ 52 * (E + 1) + r := by omega
    rw [e1, magVal_norm (by omega), ← hu, hxM]

theorem encMag_lt {x : ℚ} (h : IsF64 x) (h0 : 0 ≤ x) (hb : x < 2 ^ 1024) : encMag x < infMag := by
  rw [← magVal_mono.lt_iff_lt, magVal_enc h h0, magVal_inf]
  exact hb

theorem finite_iff (u : U64) : finite64 u = true ↔ magVal (mag64 u) < 2 ^ 1024 := by
  rw [← magVal_inf, magVal_mono.lt_iff_lt]
  simp [finite64]

theorem abs_val64 (u : U64) : |val64 u| = magVal (mag64 u) := by
  unfold val64
  split
  · rw [abs_neg, abs_of_nonneg (magVal_nonneg _)]
  · rw [abs_of_nonneg (magVal_nonneg _)]

theorem val64_isF64 (u : U64) : IsF64 (val64 u) := by
  unfold val64
  split
  · exact isF64_neg (magVal_isF64 _)
  · exact magVal_isF64 _

theorem mag_ofNat {k : Nat} (hk : k < 2 ^ 63) (b : Bool) :
    mag64 (BitVec.ofNat 64 (k + if b then 2 ^ 63 else 0)) = k ∧ neg64 (BitVec.ofNat 64 (k + if b then 2 ^ 63 else 0)) = b := by
  unfold mag64 neg64
  rw [BitVec.toNat_ofNat]
  cases b with
  | false =>
    simp only [Bool.false_eq_true, if_false]
    refine ⟨by omega, ?_⟩
    rw [decide_eq_false_iff_not]
    omega
  | true =>
    simp only [if_true]
    refine ⟨by omega, ?_⟩
    rw [decide_eq_true_iff]
    omega

theorem infMag_lt : infMag < 2 ^ 63 := by decide +kernel

/-- What is stored for a result that does not overflow is the rounded result. -/
theorem bits64_val {x : ℚ} (h : |round64 x| < 2 ^ 1024) : finite64 (bits64 x) = true ∧ val64 (bits64 x) = round64 x := by
  have hF : IsF64 |round64 x| := isF64_abs (round64_isF64 x)
  have hlt := encMag_lt hF (abs_nonneg _) h
  have hval := magVal_enc hF (abs_nonneg _)
  have hs : (if round64 x < 0 then 2 ^ 63 else 0) = (if decide (round64 x < 0) then 2 ^ 63 else 0 : Nat) := by
    by_cases h0 : round64 x < 0 <;> simp [h0]
  unfold bits64
  rw [if_neg (not_le.2 h), hs]
  obtain ⟨m1, m2⟩ := mag_ofNat (hlt.trans infMag_lt) (decide (round64 x < 0))
  refine ⟨by rw [finite_iff, m1, hval]; exact h, ?_⟩
  unfold val64
  rw [m1, m2, hval]
  by_cases h0 : round64 x < 0
  · simp [h0, abs_of_neg h0]
  · simp [h0, abs_of_nonneg (not_lt.1 h0)]

theorem num64_finite {u : U64} (h : finite64 u = true) : num64 u = some ((val64 u : WithTop ℚ) : WithBot (WithTop ℚ)) := by
  have h : mag64 u < infMag := by simpa [finite64] using h
  unfold num64 isNaN64 isInf64
  rw [if_neg (by simp; omega), if_neg (by simp; omega)]

theorem gt64_finite {u v : U64} (hu : finite64 u = true) (hv : finite64 v = true) : gt64 u v = true ↔ val64 v < val64 u := by
  unfold gt64
  rw [num64_finite hu, num64_finite hv]
  simp

theorem eq64_finite {u v : U64} (hu : finite64 u = true) (hv : finite64 v = true) : eq64 u v = true ↔ val64 u = val64 v := by
  unfold eq64
  rw [num64_finite hu, num64_finite hv]
  simp

theorem add64_finite {u v : U64} (hu : finite64 u = true) (hv : finite64 v = true) : add64 u v = bits64 (val64 u + val64 v) := by
  have hu : mag64 u < infMag := by simpa [finite64] using hu
  have hv : mag64 v < infMag := by simpa [finite64] using hv
  unfold add64 isNaN64 isInf64
  rw [if_neg (by simp; omega), if_neg (by simp; omega), if_neg (by simp; omega)]

/-- Different patterns stand for different numbers, except for the two zeros. -/
theorem val64_inj {u v : U64} (h : val64 u = val64 v) (h0 : val64 u ≠ 0) : u = v := by
  have hm : mag64 u = mag64 v := by
    apply magVal_mono.injective
    rw [← abs_val64, ← abs_val64, h]
  have hs : neg64 u = neg64 v := by
    unfold val64 at h h0
    rw [← hm] at h
    cases hu : neg64 u <;> cases hv : neg64 v <;> simp only [hu, hv, Bool.false_eq_true, if_false, if_true] at h h0 ⊢
    · exact absurd (by linarith) h0
    · exact absurd (by linarith) h0
  apply BitVec.eq_of_toNat_eq
  unfold mag64 at hm
  unfold neg64 at hs
  rw [decide_eq_decide] at hs
  have := u.isLt
  have := v.isLt
  omega

/-- Half of the overflow bound is the number of a pattern. -/
theorem magVal_half : magVal (2 ^ 52 * (2045 + 1) + 0) = 2 ^ 1023 := by
  have h2 : (((2045 : Nat) : ℤ) - 1074) = ((971 : Nat) : ℤ) := by norm_num
  have h3 : ((2 ^ 52 + 0 : Nat) : ℚ) = 2 ^ 52 := by push_cast; rfl
  rw [magVal_norm (by decide), h2, h3, zpow_natCast, ← pow_add]

/-- The sum of two `float64` below half of the overflow bound does not overflow. -/
theorem fadd_fits {a b : ℚ} (ha : IsF64 a) (hb : IsF64 b) (ha' : |a| < 2 ^ 1023) (hb' : |b| < 2 ^ 1023) :
    |round64 (a + b)| < 2 ^ 1024 := by
  have key : ∀ x : ℚ, IsF64 x → |x| < 2 ^ 1023 → |x| ≤ magVal (2 ^ 52 * (2044 + 1) + (2 ^ 52 - 1)) := by
    intro x hx hlt
    rw [← magVal_enc (isF64_abs hx) (abs_nonneg x)] at hlt ⊢
    rw [← magVal_half, magVal_mono.lt_iff_lt] at hlt
    rw [magVal_mono.le_iff_le]
    omega
  have hd : magVal (2 ^ 52 * (2045 + 1) + (2 ^ 52 - 1)) = 2 * magVal (2 ^ 52 * (2044 + 1) + (2 ^ 52 - 1)) := by
    have h2 : (((2045 : Nat) : ℤ) - 1074) = (((2044 : Nat) : ℤ) - 1074) + 1 := by norm_num
    rw [magVal_norm (by decide), magVal_norm (by decide), h2, zpow_next]
    exact mul_left_comm _ _ _
  have hs : |a + b| ≤ magVal (2 ^ 52 * (2045 + 1) + (2 ^ 52 - 1)) := by
    have := abs_add_le a b
    have := key a ha ha'
    have := key b hb hb'
    linarith
  rw [round64_abs]
  refine (round64_le (magVal_isF64 _) hs).trans_lt ?_
  rw [← magVal_inf]
  exact magVal_mono (by decide +kernel)

theorem round64_half_fits {a : ℚ} (h : |a| < 2 ^ 1024) : |round64 (a / 2)| < 2 ^ 1024 := by
  rw [round64_abs]
  have h1 : |a / 2| ≤ 2 ^ 1023 := by
    rw [abs_div, abs_of_pos (show (0 : ℚ) < 2 by norm_num), div_le_iff₀ (by norm_num), ← pow_succ]
    exact h.le
  have h2 : IsF64 ((2 : ℚ) ^ 1023) := by rw [← magVal_half]; exact magVal_isF64 _
  exact (round64_le h2 h1).trans_lt (pow_lt_pow_right₀ (by norm_num) (by norm_num))

theorem mid64_val {u v : U64} (hu : finite64 u = true) (hv : finite64 v = true) (bu : |val64 u| < 2 ^ 1023)
    (bv : |val64 v| < 2 ^ 1023) :
    finite64 (mid64 u v) = true ∧ val64 (mid64 u v) = round64 (round64 (val64 u + val64 v) / 2) := by
  have h1 := fadd_fits (val64_isF64 u) (val64_isF64 v) bu bv
  obtain ⟨f1, v1⟩ := bits64_val h1
  have h2 := round64_half_fits h1
  unfold mid64 half64
  rw [add64_finite hu hv, if_pos f1, v1]
  exact bits64_val h2

theorem val64_nonneg {u : U64} (h : neg64 u = false) : val64 u = magVal u.toNat := by
  unfold val64 mag64
  have : ¬ 2 ^ 63 ≤ u.toNat := by simpa [neg64] using h
  rw [h, if_neg (by simp), Nat.mod_eq_of_lt (by omega)]

theorem val64_neg {u : U64} (h : neg64 u = true) : val64 u = -magVal (u.toNat - 2 ^ 63) := by
  unfold val64 mag64
  have : 2 ^ 63 ≤ u.toNat := by simpa [neg64] using h
  have := u.isLt
  have e : u.toNat % 2 ^ 63 = u.toNat - 2 ^ 63 := by omega
  rw [h, if_pos rfl, e]

/-- Patterns that agree above the lowest byte. -/
theorem magVal_low_byte {i j : Nat} (h : i / 256 = j / 256) : magVal i - magVal j ≤ magVal j / 2 ^ 44 + 255 * 2 ^ (-1074 : ℤ) := by
  obtain ⟨q, r, hr, rfl⟩ := split52 i
  obtain ⟨q', r', hr', rfl⟩ := split52 j
  have hq : q = q' := by omega
  subst hq
  have hrr : r ≤ r' + 255 := by omega
  have hrq : (r : ℚ) ≤ r' + 255 := by exact_mod_cast hrr
  have hp := two_zpow_pos (-1074)
  rcases q with _ | q
  · rw [Nat.mul_zero, Nat.zero_add, Nat.zero_add, magVal_sub hr, magVal_sub hr']
    have h1 : (0 : ℚ) ≤ (r' : ℚ) * 2 ^ (-1074 : ℤ) / 2 ^ 44 := by positivity
    have h2 := mul_le_mul_of_nonneg_right hrq hp.le
    rw [add_mul] at h2
    linarith
  · rw [magVal_norm hr, magVal_norm hr']
    have hz := two_zpow_pos ((q : ℤ) - 1074)
    generalize (2 : ℚ) ^ ((q : ℤ) - 1074) = z at hz ⊢
    rw [Nat.cast_add, Nat.cast_add, Nat.cast_pow, Nat.cast_ofNat]
    have h2 := mul_le_mul_of_nonneg_right hrq hz.le
    have h3 : (0 : ℚ) ≤ r' * z := by positivity
    have h4 : (2 ^ 52 + (r' : ℚ)) * z / 2 ^ 44 = 256 * z + r' * z / 2 ^ 44 := by
      rw [add_mul, add_div]
      congr 1
      rw [mul_div_right_comm]
      norm_num
    have h5 : (0 : ℚ) ≤ r' * z / 2 ^ 44 := by positivity
    rw [h4]
    rw [add_mul] at h2
    have h6 : (2 ^ 52 + (r : ℚ)) * z - (2 ^ 52 + (r' : ℚ)) * z = r * z - r' * z := by
      rw [add_mul, add_mul]; linarith
    rw [h6]
    linarith

/-- The low byte of a small whole number is zero. -/
theorem whole_low_byte {k n : Nat} (hn : n < 2 ^ 45) (h : magVal k = n) : k % 256 = 0 := by
  obtain ⟨q, r, hr, rfl⟩ := split52 k
  rcases Nat.eq_zero_or_pos n with h0 | h0
  · rw [h0, Nat.cast_zero, ← magVal_zero] at h
    rw [magVal_mono.injective h]
  have hnq : (1 : ℚ) ≤ n := by exact_mod_cast h0
  rcases q with _ | q
  · exfalso
    rw [Nat.mul_zero, Nat.zero_add, magVal_sub hr] at h
    have h1 : (r : ℚ) < 2 ^ 52 := by exact_mod_cast hr
    have h2 : (2 : ℚ) ^ (-1074 : ℤ) ≤ 2 ^ (-52 : ℤ) := zpow_le_zpow_right₀ (by norm_num) (by norm_num)
    have h3 : (r : ℚ) * 2 ^ (-1074 : ℤ) < 2 ^ 52 * 2 ^ (-52 : ℤ) :=
      mul_lt_mul h1 h2 (two_zpow_pos _) (by positivity)
    have h4 : (2 : ℚ) ^ 52 * 2 ^ (-52 : ℤ) = 1 := by norm_num
    linarith
  · rw [magVal_norm hr] at h
    have he : (q : ℤ) - 1074 ≤ -8 := by
      by_contra hc
      have h1 : (2 : ℚ) ^ (-7 : ℤ) ≤ 2 ^ ((q : ℤ) - 1074) := zpow_le_zpow_right₀ (by norm_num) (by omega)
      have h2 : ((2 : ℚ) ^ 52) ≤ ((2 ^ 52 + r : Nat) : ℚ) := by exact_mod_cast Nat.le_add_right _ _
      have h3 := mul_le_mul h2 h1 (two_zpow_pos _).le (by positivity)
      have h4 : (2 : ℚ) ^ 52 * 2 ^ (-7 : ℤ) = 2 ^ 45 := by norm_num
      have h5 : (n : ℚ) < 2 ^ 45 := by exact_mod_cast hn
      rw [h, h4] at h3
      linarith
    obtain ⟨t, ht⟩ : ∃ t : Nat, (q : ℤ) - 1074 = -((t + 8 : Nat) : ℤ) := ⟨(1066 - q : ℤ).toNat, by omega⟩
    rw [ht, zpow_neg, zpow_natCast, ← div_eq_mul_inv, div_eq_iff (by positivity)] at h
    have h : 2 ^ 52 + r = n * 2 ^ (t + 8) := by exact_mod_cast h
    rw [pow_add, ← mul_assoc] at h
    omega

end Golearn
