import Verif.Model.Bins64
import Verif.Props.C131

/-! # C132: equal-width bins with `float64` rounding -/

namespace Golearn

theorem tenThousandth64_bounds : 99 / 1000000 ≤ tenThousandth64 ∧ tenThousandth64 ≤ 101 / 1000000 := by
  have := round64_rel (x := 1 / 10000) (by
    rw [abs_of_pos (by norm_num)]
    refine le_trans (zpow_le_zpow_right₀ (by norm_num) (by norm_num : (-1022 : ℤ) ≤ -20)) ?_
    norm_num)
  rw [abs_of_pos (by norm_num : (0 : ℚ) < 1 / 10000)] at this
  obtain ⟨h1, h2⟩ := abs_le.1 this
  unfold tenThousandth64
  constructor
  · have : (1 / 10000 : ℚ) - 1 / 10000 / 2 ^ 53 ≥ 99 / 1000000 := by norm_num
    linarith
  · have : (1 / 10000 : ℚ) + 1 / 10000 / 2 ^ 53 ≤ 101 / 1000000 := by norm_num
    linarith

theorem binWidth64_nonneg (bins : Nat) {mn mx : ℚ} (h : mn ≤ mx) : 0 ≤ binWidth64 bins mn mx :=
  round64_nonneg (div_nonneg (round64_nonneg (by linarith)) (round64_nonneg (by positivity)))

theorem binOf64_high {bins : Nat} {mn mx v : ℚ} (hv : mn < v) (hd : binWidth64 bins mn mx ≠ 0) :
    binOf64 bins mn mx v = some ⌊fadd (round64 (fsub v mn / binWidth64 bins mn mx)) tenThousandth64⌋ := by
  unfold binOf64 fquo
  rw [if_neg (not_le.2 hv), if_neg hd]; rfl

/-- A bin is never negative, larger values never get smaller bins, and the smallest value and all below it get bin 0. A bin is
undefined only if the computed width is zero. -/
theorem C132_monotone (bins : Nat) (mn mx : ℚ) (h : mn ≤ mx) :
    (∀ v k, binOf64 bins mn mx v = some k → 0 ≤ k) ∧
    (∀ v w k j, v ≤ w → binOf64 bins mn mx v = some k → binOf64 bins mn mx w = some j → k ≤ j) ∧
    (∀ v, v ≤ mn → binOf64 bins mn mx v = some 0) ∧
    (∀ v, mn < v → (binOf64 bins mn mx v = none ↔ binWidth64 bins mn mx = 0)) := by
  have hw := binWidth64_nonneg bins h
  have ht := tenThousandth64_bounds.1
  have nonneg : ∀ v k, binOf64 bins mn mx v = some k → 0 ≤ k := by
    intro v k hk
    by_cases hv : v ≤ mn
    · unfold binOf64 at hk; rw [if_pos hv] at hk; cases hk; exact le_rfl
    · rw [not_le] at hv
      by_cases hd : binWidth64 bins mn mx = 0
      · unfold binOf64 fquo at hk; rw [if_neg (not_le.2 hv), if_pos hd] at hk; cases hk
      · rw [binOf64_high hv hd] at hk
        cases hk
        rw [Int.floor_nonneg]
        refine round64_nonneg (add_nonneg (round64_nonneg (div_nonneg (round64_nonneg (by linarith)) hw)) ?_)
        linarith
  refine ⟨nonneg, ?_, ?_, ?_⟩
  · intro v w k j hvw hk hj
    by_cases hv : v ≤ mn
    · have : k = 0 := by unfold binOf64 at hk; rw [if_pos hv] at hk; cases hk; rfl
      rw [this]; exact nonneg w j hj
    · rw [not_le] at hv
      have hw' : mn < w := lt_of_lt_of_le hv hvw
      by_cases hd : binWidth64 bins mn mx = 0
      · unfold binOf64 fquo at hk; rw [if_neg (not_le.2 hv), if_pos hd] at hk; cases hk
      · rw [binOf64_high hv hd] at hk
        rw [binOf64_high hw' hd] at hj
        cases hk; cases hj
        apply Int.floor_le_floor
        apply round64_mono
        have : round64 (fsub v mn / binWidth64 bins mn mx) ≤ round64 (fsub w mn / binWidth64 bins mn mx) := by
          apply round64_mono
          apply div_le_div_of_nonneg_right _ hw
          apply round64_mono
          linarith
        linarith
  · intro v hv
    unfold binOf64; rw [if_pos hv]
  · intro v hv
    constructor
    · intro hn
      by_contra hd
      rw [binOf64_high hv hd] at hn
      cases hn
    · intro hd
      unfold binOf64 fquo; rw [if_neg (not_le.2 hv), if_pos hd]; rfl

/-- Full claim: for a range with different ends, every value of the range gets one of the bins 0 to `bins`, which have labels, and
the largest value gets the last one. -/
def C132_full : Prop :=
  ∀ (bins : Nat) (mn mx : ℚ), 0 < bins → bins ≤ 2 ^ 38 → IsF64 mn → IsF64 mx → mn < mx →
    binOf64 bins mn mx mx = some (bins : Int) ∧ ∀ v, IsF64 v → v ≤ mx → ∃ k : Nat, k ≤ bins ∧ binOf64 bins mn mx v = some (k : Int)

/-- Missing: widths below 2^-1022, for which the claim fails (`C132_refuted`). It holds for ranges with a width of at least that. -/
theorem C132_partial (bins : Nat) (mn mx : ℚ) (hb : 0 < bins) (hb2 : bins ≤ 2 ^ 38) (h : mn < mx)
    (hwide : (2 : ℚ) ^ (-1022 : ℤ) ≤ fsub mx mn / bins) :
    binOf64 bins mn mx mx = some (bins : Int) ∧ ∀ v, v ≤ mx → ∃ k : Nat, k ≤ bins ∧ binOf64 bins mn mx v = some (k : Int) := by
  have hbQ : (0 : ℚ) < bins := by exact_mod_cast hb
  have hbQ1 : (1 : ℚ) ≤ bins := by exact_mod_cast hb
  have hbQ2 : (bins : ℚ) ≤ 2 ^ 38 := by exact_mod_cast hb2
  have hbi : ofInt64 bins = bins := round64_fix (isF64_nat (hb2.trans (by norm_num)))
  have hp : (0 : ℚ) < 2 ^ (-1022 : ℤ) := two_zpow_pos _
  have hx0 : 0 < fsub mx mn / bins := lt_of_lt_of_le hp hwide
  have hW : 0 < fsub mx mn := by
    have := mul_pos hx0 hbQ
    rwa [div_mul_cancel₀ _ hbQ.ne'] at this
  set W := fsub mx mn with hWdef
  have hrel := round64_rel (x := W / bins) (by rw [abs_of_pos hx0]; exact hwide)
  rw [abs_of_pos hx0] at hrel
  have hd : binWidth64 bins mn mx = round64 (W / bins) := by unfold binWidth64; rw [hbi]
  set d := round64 (W / bins) with hddef
  obtain ⟨r1, r2⟩ := abs_le.1 hrel
  have hd0 : 0 < d := by
    have : W / bins / 2 ^ 53 < W / bins := div_lt_self hx0 (by norm_num)
    linarith
  have hWb : W = W / bins * bins := by field_simp
  -- the quotient is near the number of bins
  have q1 : (bins : ℚ) - bins / 2 ^ 52 ≤ W / d := by
    rw [le_div_iff₀ hd0]
    have h1 : d ≤ W / bins * (1 + 1 / 2 ^ 53) := by linarith
    have h2 : (0 : ℚ) ≤ bins - bins / 2 ^ 52 := by
      have : (bins : ℚ) / 2 ^ 52 ≤ bins := div_le_self hbQ.le (by norm_num)
      linarith
    calc ((bins : ℚ) - bins / 2 ^ 52) * d ≤ (bins - bins / 2 ^ 52) * (W / bins * (1 + 1 / 2 ^ 53)) :=
          mul_le_mul_of_nonneg_left h1 h2
      _ = W * ((1 - 1 / 2 ^ 52) * (1 + 1 / 2 ^ 53)) := by field_simp
      _ ≤ W * 1 := mul_le_mul_of_nonneg_left (by norm_num) hW.le
      _ = W := mul_one _
  have q2 : W / d ≤ (bins : ℚ) + bins / 2 ^ 52 := by
    rw [div_le_iff₀ hd0]
    have h1 : W / bins * (1 - 1 / 2 ^ 53) ≤ d := by linarith
    calc W = W * 1 := (mul_one _).symm
      _ ≤ W * ((1 + 1 / 2 ^ 52) * (1 - 1 / 2 ^ 53)) := mul_le_mul_of_nonneg_left (by norm_num) hW.le
      _ = (bins + bins / 2 ^ 52) * (W / bins * (1 - 1 / 2 ^ 53)) := by field_simp
      _ ≤ _ := mul_le_mul_of_nonneg_left h1 (by positivity)
  have hsmall : (bins : ℚ) / 2 ^ 52 ≤ 1 / 2 ^ 14 := by
    rw [div_le_div_iff₀ (by norm_num) (by norm_num)]
    nlinarith
  have hpos : 0 < W / d := div_pos hW hd0
  have hq : |round64 (W / d) - W / d| ≤ (W / d) / 2 ^ 53 := by
    have := round64_rel (x := W / d) (by
      rw [abs_of_pos hpos]
      refine le_trans (zpow_le_zpow_right₀ (by norm_num) (by norm_num : (-1022 : ℤ) ≤ -1)) ?_
      norm_num
      linarith)
    rwa [abs_of_pos hpos] at this
  obtain ⟨s1, s2⟩ := abs_le.1 hq
  have hsmall2 : (W / d) / 2 ^ 53 ≤ 1 / 2 ^ 15 + 1 / 2 ^ 60 := by
    rw [div_le_iff₀ (by norm_num)]
    linarith
  obtain ⟨t1, t2⟩ := tenThousandth64_bounds
  have hle : (bins : ℚ) ≤ round64 (W / d) + tenThousandth64 := by
    norm_num at hsmall hsmall2 t1 ⊢
    linarith
  have hlt : round64 (W / d) + tenThousandth64 ≤ bins + 1 / 2 := by
    norm_num at hsmall hsmall2 t2 ⊢
    linarith
  have f1 : (bins : ℚ) ≤ fadd (round64 (W / d)) tenThousandth64 := le_round64 (isF64_nat (hb2.trans (by norm_num))) hle
  have f2 : fadd (round64 (W / d)) tenThousandth64 ≤ (bins : ℚ) + 1 / 2 := by
    refine round64_le ?_ hlt
    refine ⟨2 * bins + 1, -1, by norm_num, ?_, ?_⟩
    · rw [abs_of_nonneg (by positivity)]
      have : (bins : ℤ) ≤ 2 ^ 38 := by exact_mod_cast hb2
      norm_num at this ⊢
      linarith
    · push_cast; ring
  have hdne : binWidth64 bins mn mx ≠ 0 := by rw [hd]; exact hd0.ne'
  have hmax : binOf64 bins mn mx mx = some (bins : Int) := by
    rw [binOf64_high h hdne, hd]
    congr 1
    rw [Int.floor_eq_iff]
    push_cast
    exact ⟨f1, by linarith⟩
  refine ⟨hmax, ?_⟩
  intro v hv
  obtain ⟨m1, m2, m3, m4⟩ := C132_monotone bins mn mx h.le
  rcases hk : binOf64 bins mn mx v with _ | k
  · exfalso
    by_cases hvm : v ≤ mn
    · rw [m3 v hvm] at hk; cases hk
    · exact hdne ((m4 v (not_le.1 hvm)).1 hk)
  · have k0 := m1 v k hk
    have k1 := m2 v mx k bins hv hk hmax
    refine ⟨k.toNat, by omega, ?_⟩
    rw [Int.toNat_of_nonneg k0]

/-- Rounding of numbers below the normal range. -/
theorem round64_tiny {x : ℚ} (h : |x| < 2 ^ (-1022 : ℤ)) : round64 x = nearestEven (x / 2 ^ (-1074 : ℤ)) * 2 ^ (-1074 : ℤ) := by
  by_cases hx : x = 0
  · subst hx
    rw [round64_zero, zero_div]
    have : nearestEven 0 = 0 := by unfold nearestEven; norm_num
    rw [this]; simp
  · have hlog := (Int.lt_zpow_iff_log_lt (b := 2) (x := -1022) (by norm_num) (abs_pos.2 hx)).1 (by exact_mod_cast h)
    have : ulpExp x = -1074 := by unfold ulpExp; omega
    unfold round64
    rw [this]

/-- The range from 0 to 4 * 2^-1074 with three bins: the width is rounded down to 2^-1074, and the largest value gets bin 4, for
which there is no label. -/
theorem C132_bad_bin : binOf64 3 0 (4 * 2 ^ (-1074 : ℤ)) (4 * 2 ^ (-1074 : ℤ)) = some 4 := by
  have hp : (0 : ℚ) < 2 ^ (-1074 : ℤ) := two_zpow_pos _
  have hF : IsF64 (4 * 2 ^ (-1074 : ℤ)) := ⟨4, -1074, by norm_num, by norm_num, by norm_num⟩
  have h3 : ofInt64 3 = 3 := by
    have := round64_fix (isF64_nat (n := 3) (by norm_num))
    simpa [ofInt64] using this
  have hs : fsub (4 * 2 ^ (-1074 : ℤ)) 0 = 4 * 2 ^ (-1074 : ℤ) := by unfold fsub; rw [sub_zero]; exact round64_fix hF
  have hw : binWidth64 3 0 (4 * 2 ^ (-1074 : ℤ)) = 2 ^ (-1074 : ℤ) := by
    unfold binWidth64
    rw [hs, h3, round64_tiny]
    · rw [show (4 * (2 : ℚ) ^ (-1074 : ℤ) / 3) / 2 ^ (-1074 : ℤ) = 4 / 3 by field_simp]
      have : nearestEven (4 / 3) = 1 := by
        have : ⌊(4 / 3 : ℚ)⌋ = 1 := by rw [Int.floor_eq_iff]; norm_num
        unfold nearestEven
        rw [this]; norm_num
      rw [this]; simp
    · rw [abs_of_pos (by positivity)]
      have : (2 : ℚ) ^ (-1022 : ℤ) = 2 ^ 52 * 2 ^ (-1074 : ℤ) := by
        rw [show (-1022 : ℤ) = 52 + -1074 by norm_num, zpow_add₀ (by norm_num)]; norm_num
      rw [this]
      nlinarith
  rw [binOf64_high (by positivity) (by rw [hw]; exact hp.ne'), hw, hs]
  congr 1
  rw [show (4 * (2 : ℚ) ^ (-1074 : ℤ)) / 2 ^ (-1074 : ℤ) = 4 by field_simp]
  have h4 : round64 4 = 4 := by
    have := round64_fix (isF64_nat (n := 4) (by norm_num))
    simpa using this
  rw [h4, Int.floor_eq_iff]
  obtain ⟨t1, t2⟩ := tenThousandth64_bounds
  constructor
  · refine le_round64 ?_ ?_
    · exact_mod_cast isF64_nat (n := 4) (by norm_num)
    · push_cast; linarith
  · have : fadd 4 tenThousandth64 ≤ 9 / 2 := round64_le ⟨9, -1, by norm_num, by norm_num, by norm_num⟩ (by linarith)
    push_cast
    linarith

theorem C132_refuted : ¬ C132_full := by
  intro h
  have hp : (0 : ℚ) < 2 ^ (-1074 : ℤ) := two_zpow_pos _
  have hF : IsF64 (4 * 2 ^ (-1074 : ℤ)) := ⟨4, -1074, by norm_num, by norm_num, by norm_num⟩
  have := (h 3 0 _ (by norm_num) (by norm_num) isF64_zero hF (by positivity)).1
  rw [C132_bad_bin] at this
  cases this

/-- The range from 1 to 2 with three bins. -/
example : binOf64 3 1 2 2 = some 3 := by
  have h1 : fsub 2 1 = 1 := by
    unfold fsub; rw [show (2 - 1 : ℚ) = 1 by norm_num]; exact round64_fix isF64_one
  refine (C132_partial 3 1 2 (by norm_num) (by norm_num) (by norm_num) ?_).1
  rw [h1]
  refine le_trans (zpow_le_zpow_right₀ (by norm_num) (by norm_num : (-1022 : ℤ) ≤ -2)) ?_
  norm_num

/-- Bins have equal width, up to a thousandth of a bin: with `s` the exact position of a value of the range, in bins, the computed bin
is `s` rounded down, unless `s` is within a thousandth of the next whole number. Missing: narrower ranges. -/
theorem C132_width_partial (bins : Nat) (mn mx v : ℚ) (hb : 0 < bins) (hb2 : bins ≤ 2 ^ 38) (hmn : IsF64 mn) (hmx : IsF64 mx) (hv : IsF64 v)
    (hwide : (2 : ℚ) ^ (-1022 : ℤ) ≤ fsub mx mn / bins) (h1 : mn < v) (h2 : v ≤ mx) (k : Int) (hk : binOf64 bins mn mx v = some k) :
    let s := (v - mn) / ((mx - mn) / bins)
    (k : ℚ) - 1 / 1000 ≤ s ∧ s < k + 1 + 1 / 1000 := by
  intro s
  have h : mn < mx := lt_of_lt_of_le h1 h2
  have hbQ : (0 : ℚ) < bins := by exact_mod_cast hb
  have hbQ2 : (bins : ℚ) ≤ 2 ^ 38 := by exact_mod_cast hb2
  have hbi : ofInt64 bins = bins := round64_fix (isF64_nat (hb2.trans (by norm_num)))
  have hp : (0 : ℚ) < 2 ^ (-1022 : ℤ) := two_zpow_pos _
  have hx0 : 0 < fsub mx mn / bins := lt_of_lt_of_le hp hwide
  have rel : ∀ a b : ℚ, IsF64 a → IsF64 b → b < a → (a - b) * (1 - 1 / 2 ^ 53) ≤ fsub a b ∧ fsub a b ≤ (a - b) * (1 + 1 / 2 ^ 53) := by
    intro a b ha hb hab
    have := fadd_rel ha (isF64_neg hb)
    unfold fadd at this
    rw [← sub_eq_add_neg, abs_of_pos (by linarith : 0 < a - b)] at this
    obtain ⟨e1, e2⟩ := abs_le.1 this
    unfold fsub
    constructor <;> linarith
  obtain ⟨w1, w2⟩ := rel mx mn hmx hmn h
  obtain ⟨x1, x2⟩ := rel v mn hv hmn h1
  have hrel := round64_rel (x := fsub mx mn / bins) (by rw [abs_of_pos hx0]; exact hwide)
  rw [abs_of_pos hx0] at hrel
  have hd : binWidth64 bins mn mx = round64 (fsub mx mn / bins) := by unfold binWidth64; rw [hbi]
  obtain ⟨r1, r2⟩ := abs_le.1 hrel
  rw [← hd] at r1 r2
  set d := binWidth64 bins mn mx with hddef
  have hWpos : 0 < mx - mn := by linarith
  have hxpos : 0 < v - mn := by linarith
  set D := (mx - mn) / bins with hD
  have hDpos : 0 < D := div_pos hWpos hbQ
  have w1' : D * (1 - 1 / 2 ^ 53) ≤ fsub mx mn / bins := by
    rw [hD, div_mul_eq_mul_div]; exact div_le_div_of_nonneg_right w1 hbQ.le
  have w2' : fsub mx mn / bins ≤ D * (1 + 1 / 2 ^ 53) := by
    rw [hD, div_mul_eq_mul_div]; exact div_le_div_of_nonneg_right w2 hbQ.le
  have d1 : D * (1 - 1 / 2 ^ 51) ≤ d := by
    have : D * (1 - 1 / 2 ^ 53) * (1 - 1 / 2 ^ 53) ≤ fsub mx mn / bins * (1 - 1 / 2 ^ 53) :=
      mul_le_mul_of_nonneg_right w1' (by norm_num)
    have e : D * (1 - 1 / 2 ^ 51) ≤ D * ((1 - 1 / 2 ^ 53) * (1 - 1 / 2 ^ 53)) := mul_le_mul_of_nonneg_left (by norm_num) hDpos.le
    linarith
  have d2 : d ≤ D * (1 + 1 / 2 ^ 51) := by
    have : fsub mx mn / bins * (1 + 1 / 2 ^ 53) ≤ D * (1 + 1 / 2 ^ 53) * (1 + 1 / 2 ^ 53) :=
      mul_le_mul_of_nonneg_right w2' (by norm_num)
    have e : D * ((1 + 1 / 2 ^ 53) * (1 + 1 / 2 ^ 53)) ≤ D * (1 + 1 / 2 ^ 51) := mul_le_mul_of_nonneg_left (by norm_num) hDpos.le
    linarith
  have hd0 : 0 < d := lt_of_lt_of_le (mul_pos hDpos (by norm_num)) d1
  have hs : s = (v - mn) / D := rfl
  have hs0 : 0 < s := div_pos hxpos hDpos
  have hsD : v - mn = s * D := by rw [hs]; field_simp
  have hsb : s ≤ 2 ^ 38 := by
    have : s ≤ bins := by
      rw [hs, div_le_iff₀ hDpos, hD]
      have : (bins : ℚ) * ((mx - mn) / bins) = mx - mn := by field_simp
      linarith
    linarith
  have q1 : s * (1 - 1 / 2 ^ 50) ≤ fsub v mn / d := by
    rw [le_div_iff₀ hd0]
    calc s * (1 - 1 / 2 ^ 50) * d ≤ s * (1 - 1 / 2 ^ 50) * (D * (1 + 1 / 2 ^ 51)) :=
          mul_le_mul_of_nonneg_left d2 (mul_nonneg hs0.le (by norm_num))
      _ = s * D * ((1 - 1 / 2 ^ 50) * (1 + 1 / 2 ^ 51)) := by ring
      _ ≤ s * D * (1 - 1 / 2 ^ 53) := mul_le_mul_of_nonneg_left (by norm_num) (mul_pos hs0 hDpos).le
      _ ≤ _ := by rw [← hsD]; exact x1
  have q2 : fsub v mn / d ≤ s * (1 + 1 / 2 ^ 50) := by
    rw [div_le_iff₀ hd0]
    calc fsub v mn ≤ s * D * (1 + 1 / 2 ^ 53) := by rw [← hsD]; exact x2
      _ ≤ s * D * ((1 + 1 / 2 ^ 50) * (1 - 1 / 2 ^ 51)) := mul_le_mul_of_nonneg_left (by norm_num) (mul_pos hs0 hDpos).le
      _ = s * (1 + 1 / 2 ^ 50) * (D * (1 - 1 / 2 ^ 51)) := by ring
      _ ≤ _ := mul_le_mul_of_nonneg_left d1 (mul_nonneg hs0.le (by norm_num))
  have hq0 : 0 ≤ fsub v mn / d := le_trans (mul_nonneg hs0.le (by norm_num)) q1
  have tiny : (2 : ℚ) ^ (-1075 : ℤ) ≤ 1 / 2 ^ 30 := by
    refine le_trans (zpow_le_zpow_right₀ (by norm_num) (by norm_num : (-1075 : ℤ) ≤ -30)) ?_
    norm_num
  have e1 := round64_abs_err (fsub v mn / d)
  rw [abs_of_nonneg hq0] at e1
  set q := round64 (fsub v mn / d) with hq
  have hqn : 0 ≤ q := round64_nonneg hq0
  obtain ⟨t1, t2⟩ := tenThousandth64_bounds
  have e2 := round64_abs_err (q + tenThousandth64)
  rw [abs_of_nonneg (by linarith : 0 ≤ q + tenThousandth64)] at e2
  change |fadd q tenThousandth64 - _| ≤ _ at e2
  have hk' : k = ⌊fadd q tenThousandth64⌋ := by
    rw [binOf64_high h1 hd0.ne'] at hk
    cases hk; rfl
  have f1 := Int.floor_le (fadd q tenThousandth64)
  have f2 := Int.lt_floor_add_one (fadd q tenThousandth64)
  rw [← hk'] at f1 f2
  obtain ⟨a1, a2⟩ := abs_le.1 e1
  obtain ⟨b1, b2⟩ := abs_le.1 e2
  norm_num at hsb q1 q2 tiny t1 t2 a1 a2 b1 b2 ⊢
  constructor <;> linarith

/-- The labels: the first edge is the smallest value, and edges never decrease. -/
theorem C132_edges (bins : Nat) (mn mx : ℚ) (hF : IsF64 mn) (h : mn ≤ mx) :
    binEdge64 bins mn mx 0 = mn ∧ ∀ i j, i ≤ j → binEdge64 bins mn mx i ≤ binEdge64 bins mn mx j := by
  have hw := binWidth64_nonneg bins h
  constructor
  · unfold binEdge64 ofInt64 fmul fadd
    simp only [Nat.cast_zero, round64_zero, zero_mul, zero_add]
    exact round64_fix hF
  · intro i j hij
    unfold binEdge64
    apply round64_mono
    have : fmul (ofInt64 i) (binWidth64 bins mn mx) ≤ fmul (ofInt64 j) (binWidth64 bins mn mx) := by
      apply round64_mono
      apply mul_le_mul_of_nonneg_right _ hw
      apply round64_mono
      exact_mod_cast hij
    linarith

end Golearn
