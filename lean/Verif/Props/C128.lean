import Verif.Props.C37
import Verif.Props.C38
import Verif.Proofs.FloatSum
import Verif.Model.Average64
import Verif.Proofs.FloatNear

/-! # C128: the metrics with `float64` rounding -/

namespace Golearn

/-- The model's rounding is the one of IEEE 754: the result is a `float64` and no other `float64` is
nearer to the exact value. -/
theorem C128_rounding (x : ℚ) : Nearest64 x (round64 x) := round64_nearest x

theorem fquo_nat {a b : Nat} (ha : a ≤ 2 ^ 53) (hb : b ≤ 2 ^ 53) :
    fquo (ofInt64 a) (ofInt64 b) = (fdiv a b).map round64 := by
  have e1 : ofInt64 a = (a : ℚ) := round64_fix (isF64_nat ha)
  have e2 : ofInt64 b = (b : ℚ) := round64_fix (isF64_nat hb)
  rw [e1, e2]
  unfold fquo fdiv
  split <;> rfl

theorem sum_filter_ne (l : List String) (cls : String) (f : String → Nat) :
    ((l.filter fun k => k ≠ cls).map f).sum = (l.map fun k => if k = cls then 0 else f k).sum := by
  induction l with
  | nil => rfl
  | cons x l ih =>
    by_cases h : x = cls
    · simp [h] at ih ⊢; exact ih
    · simp [h] at ih ⊢; exact ih

theorem truePos64_eq {c : ConfMat} {cls : String} (h : truePos cls c ≤ 2 ^ 53) : truePos64 cls c = truePos cls c :=
  round64_fix (isF64_nat h)

theorem falsePos64_eq {c : ConfMat} {cls : String} (h : falsePos cls c ≤ 2 ^ 53) : falsePos64 cls c = falsePos cls c := by
  have e := sum_filter_ne (c.map Prod.fst) cls fun k => c.at k cls
  have h' := fadds_nat (((c.map Prod.fst).filter fun k => k ≠ cls).map fun k => c.at k cls) (by rw [e]; exact h)
  rw [e, List.map_map] at h'
  exact h'

theorem falseNeg64_eq {c : ConfMat} {cls : String} (h : falseNeg cls c ≤ 2 ^ 53) : falseNeg64 cls c = falseNeg cls c := by
  have e := sum_filter_ne (c.rowKeys cls) cls fun k => c.at cls k
  have h' := fadds_nat (((c.rowKeys cls).filter fun k => k ≠ cls).map fun k => c.at cls k) (by rw [e]; exact h)
  rw [e, List.map_map] at h'
  exact h'

theorem fadd_nat {a b : Nat} (h : a + b ≤ 2 ^ 53) : fadd (a : ℚ) (b : ℚ) = ((a + b : Nat) : ℚ) := by
  unfold fadd
  rw [← Nat.cast_add]
  exact round64_fix (isF64_nat h)

theorem fquo_fdiv (a b : ℚ) : fquo a b = (fdiv a b).map round64 := by
  unfold fquo fdiv
  split <;> rfl

/-- With fewer than 2^53 rows, the counts the library works with are exact. -/
theorem C128_counts (c : ConfMat) (pairs : List (String × String)) (h : Counts c pairs) (hn : pairs.length ≤ 2 ^ 53)
    (cls : String) : truePos64 cls c = truePos cls c ∧ falsePos64 cls c = falsePos cls c ∧
    falseNeg64 cls c = falseNeg cls c := by
  obtain ⟨_, _, _, h4⟩ := C36_counts c pairs h cls
  exact ⟨truePos64_eq (by omega), falsePos64_eq (by omega), falseNeg64_eq (by omega)⟩

/-- Accuracy, precision and recall are the exact fractions rounded once: no error is added on the way. -/
theorem C128_correctly_rounded (c : ConfMat) (pairs : List (String × String)) (h : Counts c pairs)
    (hn : pairs.length ≤ 2 ^ 53) (cls : String) :
    accuracy64 c = (accuracy c).map round64 ∧ precision64 cls c = (precision cls c).map round64 ∧
    recall64 cls c = (recall cls c).map round64 := by
  obtain ⟨_, _, _, h4⟩ := C36_counts c pairs h cls
  obtain ⟨e1, e2, e3⟩ := C128_counts c pairs h hn cls
  refine ⟨?_, ?_, ?_⟩
  · unfold accuracy64 accuracy
    have ht := h.total
    unfold ConfMat.total at ht
    rw [h.right, ht]
    exact fquo_nat (le_trans List.countP_le_length hn) hn
  · unfold precision64 precision
    rw [e1, e2, fadd_nat (by omega), fquo_fdiv]
    push_cast; rfl
  · unfold recall64 recall
    rw [e1, e3, fadd_nat (by omega), fquo_fdiv]
    push_cast; rfl

/-- A fraction below 1 with a denominator of at most 53 bits is not rounded to 1. -/
theorem round64_frac {a b : Nat} (hb : b ≤ 2 ^ 53) (hb0 : b ≠ 0) (hab : a ≤ b) :
    0 ≤ round64 ((a : ℚ) / b) ∧ round64 ((a : ℚ) / b) ≤ 1 ∧ (round64 ((a : ℚ) / b) = 1 ↔ a = b) ∧
    (round64 ((a : ℚ) / b) = 0 ↔ a = 0) := by
  have hpos : (0 : ℚ) < b := by exact_mod_cast Nat.pos_of_ne_zero hb0
  have hbq : (b : ℚ) ≤ 2 ^ 53 := by exact_mod_cast hb
  have habq : (a : ℚ) ≤ b := by exact_mod_cast hab
  refine ⟨round64_nonneg (by positivity), round64_le isF64_one ((div_le_one hpos).2 habq), ⟨?_, ?_⟩, ⟨?_, ?_⟩⟩
  · intro h1
    by_contra hne
    have hlt : (a : ℚ) + 1 ≤ b := by exact_mod_cast (lt_of_le_of_ne hab hne)
    have hF : IsF64 (1 - 1 / 2 ^ 53) := ⟨2 ^ 53 - 1, -53, by norm_num, by norm_num, by norm_num⟩
    have : round64 ((a : ℚ) / b) ≤ 1 - 1 / 2 ^ 53 := by
      apply round64_le hF
      rw [div_le_iff₀ hpos]
      have : (b : ℚ) / 2 ^ 53 ≤ 1 := (div_le_one (by norm_num)).2 hbq
      linarith
    rw [h1] at this
    norm_num at this
  · rintro rfl
    rw [div_self hpos.ne']
    exact round64_fix isF64_one
  · intro h0
    by_contra hne
    have ha1 : (1 : ℚ) ≤ a := by exact_mod_cast Nat.pos_of_ne_zero hne
    have hF : IsF64 (1 / 2 ^ 53) := ⟨1, -53, by norm_num, by norm_num, by norm_num⟩
    have : 1 / 2 ^ 53 ≤ round64 ((a : ℚ) / b) := by
      apply le_round64 hF
      exact div_le_div₀ (by linarith) ha1 hpos hbq
    rw [h0] at this
    norm_num at this
  · rintro rfl
    rw [Nat.cast_zero, zero_div]
    exact round64_zero

/-- Accuracy as computed: undefined exactly without rows, in [0,1], 1 exactly when every prediction is
right and 0 exactly when none is. -/
theorem C128_accuracy (c : ConfMat) (pairs : List (String × String)) (h : Counts c pairs) (hn : pairs.length ≤ 2 ^ 53) :
    (accuracy64 c = none ↔ pairs = []) ∧
    ∀ x, accuracy64 c = some x → 0 ≤ x ∧ x ≤ 1 ∧ (x = 1 ↔ ∀ p ∈ pairs, p.1 = p.2) ∧
      (x = 0 ↔ ∀ p ∈ pairs, p.1 ≠ p.2) := by
  rw [(C128_correctly_rounded c pairs h hn "").1, accuracy_eq h]
  refine ⟨by rw [Option.map_eq_none_iff, fdiv_none, List.length_eq_zero_iff], ?_⟩
  intro x hx
  obtain ⟨y, hy, rfl⟩ := Option.map_eq_some_iff.1 hx
  obtain ⟨hb, e, _⟩ := fdiv_frac List.countP_le_length hy
  rw [e]
  obtain ⟨h1, h2, h3, h4⟩ := round64_frac hn hb (List.countP_le_length (p := fun p : String × String => p.1 == p.2))
  refine ⟨h1, h2, h3.trans ?_, h4.trans ?_⟩
  · rw [List.countP_eq_length]; simp
  · rw [List.countP_eq_zero]; simp

/-- Precision and recall as computed. -/
theorem C128_precision_recall (c : ConfMat) (pairs : List (String × String)) (h : Counts c pairs)
    (hn : pairs.length ≤ 2 ^ 53) (cls : String) :
    (precision64 cls c = none ↔ ∀ p ∈ pairs, p.2 ≠ cls) ∧
    (∀ x, precision64 cls c = some x → 0 ≤ x ∧ x ≤ 1 ∧ (x = 1 ↔ ∀ p ∈ pairs, p.2 = cls → p.1 = cls) ∧
      (x = 0 ↔ (cls, cls) ∉ pairs)) ∧
    (recall64 cls c = none ↔ ∀ p ∈ pairs, p.1 ≠ cls) ∧
    (∀ x, recall64 cls c = some x → 0 ≤ x ∧ x ≤ 1 ∧ (x = 1 ↔ ∀ p ∈ pairs, p.1 = cls → p.2 = cls) ∧
      (x = 0 ↔ (cls, cls) ∉ pairs)) := by
  obtain ⟨_, hp, hr⟩ := C128_correctly_rounded c pairs h hn cls
  obtain ⟨p1, p2, r1, r2⟩ := C37_precision_recall c pairs h cls
  obtain ⟨k1, k2, k3, k4⟩ := C36_counts c pairs h cls
  rw [hp, hr]
  refine ⟨by rw [Option.map_eq_none_iff, p1], ?_, by rw [Option.map_eq_none_iff, r1], ?_⟩
  · intro x hx
    obtain ⟨y, hy, rfl⟩ := Option.map_eq_some_iff.1 hx
    obtain ⟨e, _, _, e1⟩ := p2 y hy
    rw [precision_eq h] at hy
    obtain ⟨hb, _, _, _, e2⟩ := fdiv_frac (by omega) hy
    obtain ⟨h1, h2, h3, h4⟩ := round64_frac (a := pairs.count (cls, cls)) (b := predCount pairs cls) (by omega) hb (by omega)
    rw [← e1, e2, e]
    exact ⟨h1, h2, h3, by rw [h4, List.count_eq_zero]⟩
  · intro x hx
    obtain ⟨y, hy, rfl⟩ := Option.map_eq_some_iff.1 hx
    obtain ⟨e, _, _, e1⟩ := r2 y hy
    rw [recall_eq h] at hy
    obtain ⟨hb, _, _, _, e2⟩ := fdiv_frac (by omega) hy
    obtain ⟨h1, h2, h3, h4⟩ := round64_frac (a := pairs.count (cls, cls)) (b := refCount pairs cls) (by omega) hb (by omega)
    rw [← e1, e2, e]
    exact ⟨h1, h2, h3, by rw [h4, List.count_eq_zero]⟩

/-- F1 of two `float64` values of [0,1]. -/
theorem f1_range {p r f : ℚ} (hp : IsF64 p) (hr : IsF64 r) (p0 : 0 ≤ p) (r0 : 0 ≤ r) (p1 : p ≤ 1) (r1 : r ≤ 1)
    (hf : fquo (fmul 2 (fmul p r)) (fadd p r) = some f) : 0 ≤ f ∧ f ≤ 1 := by
  have hden : 0 ≤ fadd p r := round64_nonneg (add_nonneg p0 r0)
  have hpr0 : 0 ≤ fmul p r := round64_nonneg (mul_nonneg p0 r0)
  have e2 : fmul 2 (fmul p r) = 2 * fmul p r := round64_fix (isF64_double (round64_isF64 _))
  unfold fquo at hf
  split at hf
  · cases hf
  · rename_i hne
    rw [Option.some.injEq] at hf
    have hpos : 0 < fadd p r := lt_of_le_of_ne hden (Ne.symm hne)
    rw [← hf, e2]
    refine ⟨round64_nonneg (div_nonneg (by linarith) hden), round64_le isF64_one ((div_le_one hpos).2 ?_)⟩
    rcases le_total p r with hle | hle
    · have h1 : fmul p r ≤ p := round64_le hp (by nlinarith)
      have h2 : 2 * p ≤ fadd p r := le_round64 (isF64_double hp) (by linarith)
      linarith
    · have h1 : fmul p r ≤ r := round64_le hr (by nlinarith)
      have h2 : 2 * r ≤ fadd p r := le_round64 (isF64_double hr) (by linarith)
      linarith

theorem precision64_isF64 {c : ConfMat} {cls : String} {p : ℚ} (h : precision64 cls c = some p) : IsF64 p := by
  unfold precision64 fquo at h
  split at h
  · cases h
  · rw [Option.some.injEq] at h; rw [← h]; exact round64_isF64 _

theorem recall64_isF64 {c : ConfMat} {cls : String} {p : ℚ} (h : recall64 cls c = some p) : IsF64 p := by
  unfold recall64 fquo at h
  split at h
  · cases h
  · rw [Option.some.injEq] at h; rw [← h]; exact round64_isF64 _

/-- Rounding moves the ends of an interval of positive numbers by a factor. -/
theorem rel_bounds {y y' lo hi : ℚ} (h : |y' - y| ≤ y / 2 ^ 53) (hlo : lo ≤ y) (hhi : y ≤ hi) :
    lo * (1 - 1 / 2 ^ 53) ≤ y' ∧ y' ≤ hi * (1 + 1 / 2 ^ 53) := by
  obtain ⟨h1, h2⟩ := abs_le.1 h
  constructor
  · have : lo * (1 - 1 / 2 ^ 53) ≤ y * (1 - 1 / 2 ^ 53) := mul_le_mul_of_nonneg_right hlo (by norm_num)
    linarith
  · have : y * (1 + 1 / 2 ^ 53) ≤ hi * (1 + 1 / 2 ^ 53) := mul_le_mul_of_nonneg_right hhi (by norm_num)
    linarith

theorem rel_of_large {x : ℚ} (h : 1 / 2 ^ 200 ≤ x) : |round64 x - x| ≤ x / 2 ^ 53 := by
  have hx : 0 < x := lt_of_lt_of_le (by norm_num) h
  have := round64_rel (x := x) (by
    rw [abs_of_pos hx]
    refine le_trans ?_ h
    rw [show (1 : ℚ) / 2 ^ 200 = 2 ^ (-200 : ℤ) by norm_num]
    exact zpow_le_zpow_right₀ (by norm_num) (by norm_num))
  rwa [abs_of_pos hx] at this

theorem f1_error {p r f p' r' : ℚ} (p0 : 1 / 2 ^ 53 ≤ p) (r0 : 1 / 2 ^ 53 ≤ r)
    (hp : |p' - p| ≤ p / 2 ^ 53) (hr : |r' - r| ≤ r / 2 ^ 53)
    (hf : fquo (fmul 2 (fmul p' r')) (fadd p' r') = some f) :
    |f - 2 * (p * r) / (p + r)| ≤ (2 * (p * r) / (p + r)) / 2 ^ 50 := by
  have ppos : 0 < p := lt_of_lt_of_le (by norm_num) p0
  have rpos : 0 < r := lt_of_lt_of_le (by norm_num) r0
  obtain ⟨pl, pu⟩ := rel_bounds hp le_rfl le_rfl
  obtain ⟨rl, ru⟩ := rel_bounds hr le_rfl le_rfl
  have pl0 : 1 / 2 ^ 54 ≤ p' := le_trans (by norm_num) (le_trans (mul_le_mul_of_nonneg_right p0 (by norm_num)) pl)
  have rl0 : 1 / 2 ^ 54 ≤ r' := le_trans (by norm_num) (le_trans (mul_le_mul_of_nonneg_right r0 (by norm_num)) rl)
  have p'pos : 0 < p' := lt_of_lt_of_le (by norm_num) pl0
  have r'pos : 0 < r' := lt_of_lt_of_le (by norm_num) rl0
  -- the product
  have xl : p * r * (1 - 1 / 2 ^ 53) ^ 2 ≤ p' * r' := by
    have := mul_le_mul pl rl (by positivity) p'pos.le
    linarith
  have xu : p' * r' ≤ p * r * (1 + 1 / 2 ^ 53) ^ 2 := by
    have := mul_le_mul pu ru r'pos.le (by positivity)
    linarith
  have xbig : 1 / 2 ^ 200 ≤ p' * r' := le_trans (by norm_num) (mul_le_mul pl0 rl0 (by norm_num) p'pos.le)
  obtain ⟨x'l, x'u⟩ := rel_bounds (rel_of_large xbig) xl xu
  change _ ≤ fmul p' r' at x'l
  change fmul p' r' ≤ _ at x'u
  have e2 : fmul 2 (fmul p' r') = 2 * fmul p' r' := round64_fix (isF64_double (round64_isF64 _))
  -- the sum
  have sl : (p + r) * (1 - 1 / 2 ^ 53) ≤ p' + r' := by linarith
  have su : p' + r' ≤ (p + r) * (1 + 1 / 2 ^ 53) := by linarith
  have sbig : 1 / 2 ^ 200 ≤ p' + r' := by
    have : (1 : ℚ) / 2 ^ 200 ≤ 1 / 2 ^ 54 := by norm_num
    linarith
  obtain ⟨s'l, s'u⟩ := rel_bounds (rel_of_large sbig) sl su
  change _ ≤ fadd p' r' at s'l
  change fadd p' r' ≤ _ at s'u
  have spos : 0 < fadd p' r' := lt_of_lt_of_le (mul_pos (mul_pos (by linarith) (by norm_num)) (by norm_num)) s'l
  -- the quotient
  set g := 2 * (p * r) / (p + r) with hg
  have hsum : 0 < p + r := by linarith
  have gpos : 0 < g := by rw [hg]; positivity
  have hgp : g * (p + r) = 2 * (p * r) := by rw [hg]; field_simp
  have ql : g * ((1 - 1 / 2 ^ 53) ^ 3 / (1 + 1 / 2 ^ 53) ^ 2) ≤ 2 * fmul p' r' / fadd p' r' := by
    rw [le_div_iff₀ spos]
    calc g * ((1 - 1 / 2 ^ 53) ^ 3 / (1 + 1 / 2 ^ 53) ^ 2) * fadd p' r'
        ≤ g * ((1 - 1 / 2 ^ 53) ^ 3 / (1 + 1 / 2 ^ 53) ^ 2) * ((p + r) * (1 + 1 / 2 ^ 53) * (1 + 1 / 2 ^ 53)) :=
          mul_le_mul_of_nonneg_left s'u (mul_nonneg gpos.le (by norm_num))
      _ = g * (p + r) * (1 - 1 / 2 ^ 53) ^ 3 := by norm_num; ring
      _ = 2 * (p * r * (1 - 1 / 2 ^ 53) ^ 2 * (1 - 1 / 2 ^ 53)) := by rw [hgp]; ring
      _ ≤ 2 * fmul p' r' := by linarith
  have qu : 2 * fmul p' r' / fadd p' r' ≤ g * ((1 + 1 / 2 ^ 53) ^ 3 / (1 - 1 / 2 ^ 53) ^ 2) := by
    rw [div_le_iff₀ spos]
    calc 2 * fmul p' r' ≤ 2 * (p * r * (1 + 1 / 2 ^ 53) ^ 2 * (1 + 1 / 2 ^ 53)) := by linarith
      _ = g * (p + r) * (1 + 1 / 2 ^ 53) ^ 3 := by rw [hgp]; ring
      _ = g * ((1 + 1 / 2 ^ 53) ^ 3 / (1 - 1 / 2 ^ 53) ^ 2) * ((p + r) * (1 - 1 / 2 ^ 53) * (1 - 1 / 2 ^ 53)) := by
          norm_num; ring
      _ ≤ _ := mul_le_mul_of_nonneg_left s'l (mul_nonneg gpos.le (by norm_num))
  have gbig : 1 / 2 ^ 54 ≤ g := by
    rw [hg, le_div_iff₀ hsum]
    nlinarith
  have qbig : 1 / 2 ^ 200 ≤ 2 * fmul p' r' / fadd p' r' := by
    refine le_trans ?_ ql
    exact le_trans (by norm_num) (mul_le_mul_of_nonneg_right gbig (by norm_num))
  obtain ⟨fl, fu⟩ := rel_bounds (rel_of_large qbig) ql qu
  have hfe : f = round64 (2 * fmul p' r' / fadd p' r') := by
    unfold fquo at hf
    rw [if_neg spos.ne', e2, Option.some.injEq] at hf
    exact hf.symm
  rw [← hfe] at fl fu
  rw [abs_le]
  constructor
  · have : g * (1 - 1 / 2 ^ 50) ≤ g * ((1 - 1 / 2 ^ 53) ^ 3 / (1 + 1 / 2 ^ 53) ^ 2) * (1 - 1 / 2 ^ 53) := by
      rw [mul_assoc]; exact mul_le_mul_of_nonneg_left (by norm_num) gpos.le
    linarith
  · have : g * ((1 + 1 / 2 ^ 53) ^ 3 / (1 - 1 / 2 ^ 53) ^ 2) * (1 + 1 / 2 ^ 53) ≤ g * (1 + 1 / 2 ^ 50) := by
      rw [mul_assoc]; exact mul_le_mul_of_nonneg_left (by norm_num) gpos.le
    linarith

/-- A fraction of counts is 0 or at least 2^-53, and is rounded with a relative error. -/
theorem frac_large {a b : Nat} (hb : b ≤ 2 ^ 53) (hb0 : b ≠ 0) (ha : a ≠ 0) : (1 : ℚ) / 2 ^ 53 ≤ (a : ℚ) / b := by
  have hpos : (0 : ℚ) < b := by exact_mod_cast Nat.pos_of_ne_zero hb0
  have hbq : (b : ℚ) ≤ 2 ^ 53 := by exact_mod_cast hb
  have ha1 : (1 : ℚ) ≤ a := by exact_mod_cast Nat.pos_of_ne_zero ha
  exact div_le_div₀ (by linarith) ha1 hpos hbq

/-- F1 as computed: undefined exactly when the class has no correct prediction, otherwise in [0,1] and
off the exact value by a relative error of at most 2^-50. -/
theorem C128_f1 (c : ConfMat) (pairs : List (String × String)) (h : Counts c pairs) (hn : pairs.length ≤ 2 ^ 53)
    (cls : String) :
    (f1Score64 cls c = none ↔ pairs.count (cls, cls) = 0) ∧
    ∀ f, f1Score64 cls c = some f → 0 ≤ f ∧ f ≤ 1 ∧
      ∃ g, f1Score cls c = some g ∧ |f - g| ≤ g / 2 ^ 50 := by
  obtain ⟨_, hp, hr⟩ := C128_correctly_rounded c pairs h hn cls
  obtain ⟨_, hp64, _, hr64⟩ := C128_precision_recall c pairs h hn cls
  obtain ⟨k1, k2, k3, k4⟩ := C36_counts c pairs h cls
  obtain ⟨f1, f2⟩ := C37_f1 c pairs h cls
  obtain ⟨_, q2, _, r2⟩ := C37_precision_recall c pairs h cls
  by_cases ht : pairs.count (cls, cls) = 0
  · have hnone : f1Score64 cls c = none := by
      have hnot : (cls, cls) ∉ pairs := List.count_eq_zero.1 ht
      unfold f1Score64
      cases hpv : precision64 cls c with
      | none => rfl
      | some p =>
        cases hrv : recall64 cls c with
        | none => rfl
        | some r =>
          have e1 := (hp64 p hpv).2.2.2.2 hnot
          have e2 := (hr64 r hrv).2.2.2.2 hnot
          subst e1 e2
          simp [fquo, fadd, round64_zero]
    refine ⟨by simp [hnone, ht], ?_⟩
    intro f hf
    rw [hnone] at hf; cases hf
  · obtain ⟨g, hg⟩ : ∃ g, f1Score cls c = some g := by
      cases hg : f1Score cls c with
      | none => exact absurd (f1.1 hg) ht
      | some g => exact ⟨g, rfl⟩
    obtain ⟨p, r, hpe, hre, ppos, rpos, hharm, _⟩ := f2 g hg
    rw [hpe] at hp
    rw [hre] at hr
    have hp' : precision64 cls c = some (round64 p) := hp
    have hr' : recall64 cls c = some (round64 r) := hr
    have hgv : g = 2 * (p * r) / (p + r) := by rw [hharm]; field_simp; ring
    have pl : (1 : ℚ) / 2 ^ 53 ≤ p := by rw [(q2 p hpe).1]; exact frac_large (by omega) (by omega) ht
    have rl : (1 : ℚ) / 2 ^ 53 ≤ r := by rw [(r2 r hre).1]; exact frac_large (by omega) (by omega) ht
    have p'pos : 0 < round64 p := lt_of_lt_of_le (by norm_num)
      (le_round64 (b := 1 / 2 ^ 53) ⟨1, -53, by norm_num, by norm_num, by norm_num⟩ pl)
    have r'pos : 0 < round64 r := lt_of_lt_of_le (by norm_num)
      (le_round64 (b := 1 / 2 ^ 53) ⟨1, -53, by norm_num, by norm_num, by norm_num⟩ rl)
    have hden : fadd (round64 p) (round64 r) ≠ 0 := by
      have := le_round64 (round64_isF64 p) (x := round64 p + round64 r) (by linarith)
      exact (lt_of_lt_of_le p'pos this).ne'
    have hsome : f1Score64 cls c = some (round64 (fmul 2 (fmul (round64 p) (round64 r)) / fadd (round64 p) (round64 r))) := by
      unfold f1Score64
      rw [hp', hr']
      simp [fquo, hden]
    refine ⟨by simp [hsome, ht], ?_⟩
    intro f hf
    have hq : fquo (fmul 2 (fmul (round64 p) (round64 r))) (fadd (round64 p) (round64 r)) = some f := by
      rw [← hf, hsome]; simp [fquo, hden]
    obtain ⟨b1, b2⟩ := f1_range (round64_isF64 p) (round64_isF64 r) p'pos.le r'pos.le (hp64 _ hp').2.1 (hr64 _ hr').2.1 hq
    refine ⟨b1, b2, g, hg, ?_⟩
    rw [hgv]
    exact f1_error pl rl (rel_of_large (le_trans (by norm_num) pl)) (rel_of_large (le_trans (by norm_num) rl)) hq

/-! ### Averages -/

theorem map_abs_self {l : List ℚ} (h : ∀ x ∈ l, 0 ≤ x) : l.map abs = l := by
  induction l with
  | nil => rfl
  | cons x l ih => rw [List.map_cons, abs_of_nonneg (h x (by simp)), ih fun y hy => h y (by simp [hy])]

theorem faddsNaN_some (l : List ℚ) (a : ℚ) : faddsNaN a (l.map some) = some (l.foldl fadd a) := by
  induction l generalizing a with
  | nil => rfl
  | cons x l ih => exact ih _

theorem faddsNaN_cases (l : List (Option ℚ)) (a : ℚ) :
    (none ∈ l ∧ faddsNaN a l = none) ∨ ∃ v : List ℚ, l = v.map some ∧ faddsNaN a l = some (v.foldl fadd a) := by
  induction l generalizing a with
  | nil => exact Or.inr ⟨[], rfl, rfl⟩
  | cons x l ih =>
    cases x with
    | none => exact Or.inl ⟨by simp, rfl⟩
    | some y =>
      rcases ih (fadd a y) with ⟨h1, h2⟩ | ⟨v, h1, h2⟩
      · exact Or.inl ⟨by simp [h1], h2⟩
      · exact Or.inr ⟨y :: v, by rw [h1]; rfl, h2⟩

theorem foldl_fadd_range (l : List ℚ) (h : ∀ x ∈ l, 0 ≤ x ∧ x ≤ 1) (k : Nat) (hk : k + l.length ≤ 2 ^ 53) (a : ℚ)
    (h0 : 0 ≤ a) (h1 : a ≤ k) : 0 ≤ l.foldl fadd a ∧ l.foldl fadd a ≤ ((k + l.length : Nat) : ℚ) := by
  induction l generalizing a k with
  | nil => exact ⟨h0, h1⟩
  | cons x l ih =>
    obtain ⟨x0, x1⟩ := h x (by simp)
    rw [List.length_cons] at hk
    obtain ⟨i1, i2⟩ := ih (fun y hy => h y (by simp [hy])) (k + 1) (by omega) (fadd a x)
      (round64_nonneg (by linarith)) (round64_le (isF64_nat (by omega)) (by push_cast; linarith))
    refine ⟨i1, ?_⟩
    rw [List.length_cons, List.foldl_cons]
    rwa [show k + 1 + l.length = k + (l.length + 1) by omega] at i2

theorem mean64_range {l : List ℚ} (h : ∀ x ∈ l, 0 ≤ x ∧ x ≤ 1) (hl : l.length ≤ 2 ^ 53) :
    (mean64 l = none ↔ l = []) ∧ ∀ m, mean64 l = some m → 0 ≤ m ∧ m ≤ 1 := by
  have hlen : ofInt64 l.length = (l.length : ℚ) := round64_fix (isF64_nat hl)
  obtain ⟨s0, s1⟩ := foldl_fadd_range l h 0 (by omega) 0 le_rfl (by norm_num)
  rw [Nat.zero_add] at s1
  unfold mean64 fquo
  rw [hlen]
  refine ⟨?_, ?_⟩
  · split
    · rename_i h0
      have : l.length = 0 := by exact_mod_cast h0
      simp [List.length_eq_zero_iff.1 this]
    · rename_i h0
      simp only [reduceCtorEq, false_iff]
      rintro rfl
      simp at h0
  · intro m hm
    split at hm
    · cases hm
    · rename_i h0
      rw [Option.some.injEq] at hm
      have hpos : (0 : ℚ) < l.length := lt_of_le_of_ne (by positivity) (Ne.symm h0)
      rw [← hm]
      exact ⟨round64_nonneg (div_nonneg s0 hpos.le), round64_le isF64_one ((div_le_one hpos).2 s1)⟩

/-- How far a computed mean of `n` values is off the exact one: a relative error of about `(n + 1) * 2^-53`
of the mean of the absolute values, and at most 2^-1075 for a result too small for the format. -/
theorem mean64_error {l : List ℚ} (h : ∀ x ∈ l, IsF64 x) (hl : l.length ≤ 2 ^ 53) {m : ℚ} (hm : mean64 l = some m) :
    |m - meanOf l| ≤ ((1 + 1 / 2 ^ 53) ^ (l.length + 1) - 1) * meanOf (l.map abs) + 2 ^ (-1075 : ℤ) := by
  have hlen : ofInt64 l.length = (l.length : ℚ) := round64_fix (isF64_nat hl)
  unfold mean64 fquo at hm
  rw [hlen] at hm
  split at hm
  · cases hm
  · rename_i h0
    rw [Option.some.injEq] at hm
    have hpos : (0 : ℚ) < l.length := lt_of_le_of_ne (by positivity) (Ne.symm h0)
    have e1 := fadds_err l h
    have e2 := round64_abs_err (fadds l / l.length)
    rw [hm] at e2
    unfold unit64 at e1
    have hS : 0 ≤ (l.map abs).sum := List.sum_nonneg (by
      intro y hy
      obtain ⟨z, _, rfl⟩ := List.mem_map.1 hy
      exact abs_nonneg z)
    have hsumabs : ∀ k : List ℚ, |k.sum| ≤ (k.map abs).sum := by
      intro k
      induction k with
      | nil => simp
      | cons x k ih =>
        simp only [List.sum_cons, List.map_cons]
        exact (abs_add_le _ _).trans (by linarith)
    set M := meanOf (l.map abs) with hM
    set E := (1 + 1 / 2 ^ 53 : ℚ) ^ l.length with hE
    have hMe : M * l.length = (l.map abs).sum := by
      rw [hM]; unfold meanOf; rw [List.length_map]; field_simp
    have a1 : |fadds l / l.length - meanOf l| ≤ (E - 1) * M := by
      unfold meanOf
      rw [← sub_div, abs_div, abs_of_pos hpos, div_le_iff₀ hpos, mul_assoc, hMe]
      exact e1
    have a2 : |meanOf l| ≤ M := by
      rw [hM]; unfold meanOf
      rw [abs_div, abs_of_pos hpos, List.length_map]
      exact div_le_div_of_nonneg_right (hsumabs l) hpos.le
    have a3 : |fadds l / l.length| ≤ E * M := by
      have := abs_add_le (fadds l / l.length - meanOf l) (meanOf l)
      rw [sub_add_cancel] at this
      linarith
    have a4 : |m - meanOf l| ≤ |m - fadds l / l.length| + |fadds l / l.length - meanOf l| := abs_sub_le _ _ _
    have a5 : |fadds l / l.length| / 2 ^ 53 ≤ E * M / 2 ^ 53 := div_le_div_of_nonneg_right a3 (by norm_num)
    rw [pow_succ, ← hE]
    linarith

theorem macro_mean64 (ks : List String) (f : String → Option ℚ) :
    ((faddsNaN 0 (ks.map f)).bind fun s => fquo s (ofInt64 ks.length)) = none ∧ none ∈ ks.map f ∨
    ∃ v : List ℚ, ks.map f = v.map some ∧
      ((faddsNaN 0 (ks.map f)).bind fun s => fquo s (ofInt64 ks.length)) = mean64 v := by
  rcases faddsNaN_cases (ks.map f) 0 with ⟨h1, h2⟩ | ⟨v, h1, h2⟩
  · left; rw [h2]; exact ⟨rfl, h1⟩
  · right
    refine ⟨v, h1, ?_⟩
    rw [h2]
    have : ks.length = v.length := by simpa using congrArg List.length h1
    rw [this]; rfl

theorem Counts.length_le {c : ConfMat} {pairs : List (String × String)} (h : Counts c pairs) :
    c.length ≤ pairs.length := by
  have hsub : c.map Prod.fst ⊆ pairs.map Prod.fst := by
    intro a ha
    obtain ⟨b, hb⟩ := (h.row a).1 ha
    exact List.mem_map.2 ⟨_, hb, rfl⟩
  have := (List.subperm_of_subset h.keys hsub).length_le
  simpa using this

/-- The macro averages as computed: undefined exactly when there are no rows or one class has no value,
otherwise in [0,1], and off the mean of the classes' values by a relative error of about `(classes + 1) * 2^-53`. -/
theorem C128_macro (c : ConfMat) (pairs : List (String × String)) (h : Counts c pairs) (hn : pairs.length ≤ 2 ^ 53) :
    (macroPrecision64 c = none ↔ pairs = [] ∨ ∃ k ∈ c.map Prod.fst, precision64 k c = none) ∧
    (macroRecall64 c = none ↔ pairs = []) ∧
    (∀ x, macroPrecision64 c = some x → 0 ≤ x ∧ x ≤ 1 ∧ ∃ v : List ℚ,
      (c.map Prod.fst).map (fun k => precision64 k c) = v.map some ∧
      |x - meanOf v| ≤ ((1 + 1 / 2 ^ 53) ^ (c.length + 1) - 1) * meanOf v + 2 ^ (-1075 : ℤ)) ∧
    (∀ x, macroRecall64 c = some x → 0 ≤ x ∧ x ≤ 1 ∧ ∃ v : List ℚ,
      (c.map Prod.fst).map (fun k => recall64 k c) = v.map some ∧
      |x - meanOf v| ≤ ((1 + 1 / 2 ^ 53) ^ (c.length + 1) - 1) * meanOf v + 2 ^ (-1075 : ℤ)) := by
  have hlen : (c.map Prod.fst).length = c.length := List.length_map _
  have hcl := h.length_le
  have hempty : c.map Prod.fst = [] ↔ pairs = [] := by
    constructor
    · intro e
      rw [List.eq_nil_iff_forall_not_mem]
      rintro ⟨a, b⟩ hp
      have := (h.row a).2 ⟨b, hp⟩
      rw [e] at this; cases this
    · intro e
      rw [List.eq_nil_iff_forall_not_mem]
      intro a ha
      obtain ⟨b, hb⟩ := (h.row a).1 ha
      rw [e] at hb; cases hb
  have key : ∀ f : String → Option ℚ, (∀ k x, f k = some x → 0 ≤ x ∧ x ≤ 1 ∧ IsF64 x) →
      (((faddsNaN 0 ((c.map Prod.fst).map f)).bind fun s => fquo s (ofInt64 c.length)) = none ↔
        pairs = [] ∨ ∃ k ∈ c.map Prod.fst, f k = none) ∧
      ∀ x, ((faddsNaN 0 ((c.map Prod.fst).map f)).bind fun s => fquo s (ofInt64 c.length)) = some x →
        0 ≤ x ∧ x ≤ 1 ∧ ∃ v : List ℚ, (c.map Prod.fst).map f = v.map some ∧
        |x - meanOf v| ≤ ((1 + 1 / 2 ^ 53) ^ (c.length + 1) - 1) * meanOf v + 2 ^ (-1075 : ℤ) := by
    intro f hf
    have hm := macro_mean64 (c.map Prod.fst) f
    rw [hlen] at hm
    rcases hm with ⟨h1, h2⟩ | ⟨v, h1, h2⟩
    · rw [h1]
      refine ⟨⟨fun _ => Or.inr ?_, fun _ => rfl⟩, fun x hx => by cases hx⟩
      obtain ⟨k, hk, e⟩ := List.mem_map.1 h2
      exact ⟨k, hk, e⟩
    · have hv : ∀ x ∈ v, 0 ≤ x ∧ x ≤ 1 ∧ IsF64 x := by
        intro x hx
        have : some x ∈ (c.map Prod.fst).map f := by rw [h1]; exact List.mem_map.2 ⟨x, hx, rfl⟩
        obtain ⟨k, _, e⟩ := List.mem_map.1 this
        exact hf k x e
      have hvl : v.length = c.length := by
        have := congrArg List.length h1
        simpa using this.symm
      obtain ⟨r1, r2⟩ := mean64_range (l := v) (fun x hx => ⟨(hv x hx).1, (hv x hx).2.1⟩) (by omega)
      rw [h2]
      refine ⟨?_, ?_⟩
      · rw [r1]
        constructor
        · rintro rfl
          left
          rw [← hempty]
          exact List.map_eq_nil_iff.1 h1
        · rintro (e | ⟨k, hk, e⟩)
          · rw [← hempty] at e
            rw [e] at h1
            exact List.map_eq_nil_iff.1 h1.symm
          · exfalso
            have : none ∈ v.map some := by rw [← h1]; exact List.mem_map.2 ⟨k, hk, e⟩
            simp at this
      · intro x hx
        obtain ⟨x0, x1⟩ := r2 x hx
        refine ⟨x0, x1, v, h1, ?_⟩
        have he := mean64_error (l := v) (fun y hy => (hv y hy).2.2) (by omega) hx
        rw [hvl] at he
        have : v.map abs = v := map_abs_self fun y hy => (hv y hy).1
        rwa [this] at he
  have kp := key (fun k => precision64 k c) fun k x hx => by
    obtain ⟨a, b, _⟩ := (C128_precision_recall c pairs h hn k).2.1 x hx
    exact ⟨a, b, precision64_isF64 hx⟩
  have kr := key (fun k => recall64 k c) fun k x hx => by
    obtain ⟨a, b, _⟩ := (C128_precision_recall c pairs h hn k).2.2.2 x hx
    exact ⟨a, b, recall64_isF64 hx⟩
  refine ⟨kp.1, kr.1.trans ?_, kp.2, kr.2⟩
  constructor
  · rintro (e | ⟨k, hk, e⟩)
    · exact e
    · exfalso
      obtain ⟨b, hb⟩ := (h.row k).1 hk
      exact (C128_precision_recall c pairs h hn k).2.2.1.1 e _ hb rfl
  · exact Or.inl

/-- The micro averages are the exact fractions rounded once. -/
theorem C128_micro (c : ConfMat) (pairs : List (String × String)) (h : Counts c pairs) (hn : pairs.length ≤ 2 ^ 53) :
    microRecall64 c = (microRecall c).map round64 ∧ microPrecision64 c = (microPrecision c).map round64 := by
  have hf : ((c.map Prod.fst).map fun k => falsePos k c).sum =
      pairs.countP fun p => decide (p.2 ∈ c.map Prod.fst) && p.1 != p.2 := by
    rw [← sum_countP _ h.keys (fun p : String × String => p.2) (fun p => p.1 != p.2)]
    congr 1
    apply List.map_congr_left
    intro k _
    rw [h.falsePos]
    apply List.countP_congr
    rintro ⟨x, y⟩ _
    simp only [Bool.and_eq_true, beq_iff_eq, bne_iff_ne]
    constructor
    · rintro ⟨h2, rfl⟩; exact ⟨rfl, h2⟩
    · rintro ⟨rfl, h2⟩; exact ⟨h2, rfl⟩
  have hfn : ((c.map Prod.fst).map fun k => falseNeg k c).sum = pairs.countP fun p => p.1 != p.2 := by
    rw [← h.keySum]
    congr 1
    apply List.map_congr_left
    intro k _
    rw [h.falseNeg]
    apply List.countP_congr
    rintro ⟨x, y⟩ _
    simp only [Bool.and_eq_true, beq_iff_eq, bne_iff_ne]
    constructor
    · rintro ⟨rfl, h2⟩; exact ⟨rfl, fun e => h2 e.symm⟩
    · rintro ⟨rfl, h2⟩; exact ⟨rfl, fun e => h2 e.symm⟩
  have ht := micro_true h
  have hsplit : rightCount pairs + (pairs.countP fun p => p.1 != p.2) = pairs.length := by
    have := countP_split (fun p : String × String => p.1 == p.2) (fun p => p.1 != p.2) (fun _ => false)
      (fun _ => true) pairs (by rintro ⟨x, y⟩ _; by_cases h1 : x = y <;> simp [h1])
    simp at this
    simpa [rightCount] using this
  have hle : (pairs.countP fun p => decide (p.2 ∈ c.map Prod.fst) && p.1 != p.2) ≤ pairs.countP fun p => p.1 != p.2 := by
    apply List.countP_mono_left
    rintro ⟨x, y⟩ _ hh
    simp only [Bool.and_eq_true] at hh
    exact hh.2
  have sum64 : ∀ (g : String → ℚ) (f : String → Nat), (∀ k, g k = f k) → ((c.map Prod.fst).map f).sum ≤ 2 ^ 53 →
      fadds ((c.map Prod.fst).map g) = (((c.map Prod.fst).map f).sum : ℚ) := by
    intro g f hgf hle
    have hall : ∀ k ∈ c.map Prod.fst, f k ≤ 2 ^ 53 := by
      intro k hk
      exact le_trans (List.single_le_sum (by simp) _ (List.mem_map.2 ⟨k, hk, rfl⟩)) hle
    have e := fadds_nat ((c.map Prod.fst).map f) hle
    rw [List.map_map] at e
    rw [← e]
    congr 1
    apply List.map_congr_left
    intro k hk
    rw [hgf k]
    exact (round64_fix (isF64_nat (hall k hk))).symm
  have et := sum64 (fun k => truePos64 k c) (fun k => truePos k c) (fun k => (C128_counts c pairs h hn k).1) (by rw [ht]; omega)
  have ef := sum64 (fun k => falsePos64 k c) (fun k => falsePos k c) (fun k => (C128_counts c pairs h hn k).2.1) (by rw [hf]; omega)
  have en := sum64 (fun k => falseNeg64 k c) (fun k => falseNeg k c) (fun k => (C128_counts c pairs h hn k).2.2) (by rw [hfn]; omega)
  constructor
  · unfold microRecall64 microRecall
    simp only
    rw [et, en, fadd_nat (by rw [ht, hfn]; omega), fquo_fdiv]
    push_cast; rfl
  · unfold microPrecision64 microPrecision
    simp only
    rw [et, ef, fadd_nat (by rw [ht, hf]; omega), fquo_fdiv]
    push_cast; rfl

/-- The mean and the variance over the folds of scores of [0,1]: the mean is undefined exactly without
folds, otherwise in [0,1] and off the exact mean as stated; the variance is not negative. -/
theorem C128_cross_validated (scores : List ℚ) (hF : ∀ x ∈ scores, IsF64 x) (h : ∀ x ∈ scores, 0 ≤ x ∧ x ≤ 1)
    (hn : scores.length ≤ 2 ^ 53) :
    (crossMean64 (scores.map some) = none ↔ scores = []) ∧
    (∀ m, crossMean64 (scores.map some) = some m → 0 ≤ m ∧ m ≤ 1 ∧
      |m - meanOf scores| ≤ ((1 + 1 / 2 ^ 53) ^ (scores.length + 1) - 1) * meanOf scores + 2 ^ (-1075 : ℤ)) ∧
    (∀ v, crossVariance64 (scores.map some) = some v → 0 ≤ v ∧ v ≤ 1) := by
  have e : crossMean64 (scores.map some) = mean64 scores := by
    unfold crossMean64
    rw [faddsNaN_some, List.length_map]; rfl
  obtain ⟨r1, r2⟩ := mean64_range h hn
  rw [e]
  refine ⟨r1, ?_, ?_⟩
  · intro m hm
    obtain ⟨m0, m1⟩ := r2 m hm
    refine ⟨m0, m1, ?_⟩
    have he := mean64_error hF hn hm
    have : scores.map abs = scores := map_abs_self fun y hy => (h y hy).1
    rwa [this] at he
  · intro v hv
    unfold crossVariance64 at hv
    rw [e, Option.bind_eq_some_iff] at hv
    obtain ⟨m, hm, hv⟩ := hv
    obtain ⟨m0, m1⟩ := r2 m hm
    rw [List.map_map] at hv
    have e2 : scores.map ((fun s : Option ℚ => s.map fun x => fmul (fsub x m) (fsub x m)) ∘ some) =
        (scores.map fun x => fmul (fsub x m) (fsub x m)).map some := by
      rw [List.map_map]; rfl
    rw [e2, faddsNaN_some, List.length_map] at hv
    have hr : ∀ y ∈ scores.map fun x => fmul (fsub x m) (fsub x m), 0 ≤ y ∧ y ≤ 1 := by
      intro y hy
      obtain ⟨x, hx, rfl⟩ := List.mem_map.1 hy
      obtain ⟨x0, x1⟩ := h x hx
      have d1 : fsub x m ≤ 1 := round64_le isF64_one (by linarith)
      have d0 : -1 ≤ fsub x m := le_round64 (isF64_neg isF64_one) (by linarith)
      exact ⟨round64_nonneg (mul_self_nonneg _), round64_le isF64_one (by nlinarith)⟩
    have := (mean64_range hr (by rw [List.length_map]; exact hn)).2 v (by
      unfold mean64; rw [List.length_map]; exact hv)
    exact this

section Examples

/-- The variance over the folds is the mean of the squared deviations from the computed mean `m`, up to rounding. -/
theorem C128_variance (scores : List ℚ) (hF : ∀ x ∈ scores, IsF64 x) (hn : scores.length ≤ 2 ^ 53) :
    (crossVariance64 (scores.map some) = none ↔ scores = []) ∧
    ∀ m v, crossMean64 (scores.map some) = some m → crossVariance64 (scores.map some) = some v →
      |v - (scores.map fun x => (x - m) ^ 2).sum / scores.length| ≤
        ((1 + 1 / 2 ^ 53) ^ (scores.length + 4) - 1) * ((scores.map fun x => (x - m) ^ 2).sum / scores.length) +
          2 * 2 ^ (-1075 : ℤ) * (1 + 1 / 2 ^ 53) ^ (scores.length + 1) := by
  have e : crossMean64 (scores.map some) = mean64 scores := by
    unfold crossMean64
    rw [faddsNaN_some, List.length_map]; rfl
  have ev : crossVariance64 (scores.map some) = (mean64 scores).bind (meanSqErr64 scores) := by
    unfold crossVariance64
    rw [e]
    congr 1
    funext m
    have : ((scores.map some).map fun s : Option ℚ => s.map fun x => fmul (fsub x m) (fsub x m)) =
        (scores.map fun x => fmul (fsub x m) (fsub x m)).map some := by simp
    rw [this, faddsNaN_some, List.length_map]; rfl
  have hl : ofInt64 scores.length = scores.length := round64_fix (isF64_nat hn)
  rw [ev, e]
  constructor
  · by_cases h : scores = []
    · subst h; simp [mean64, fquo, hl, ofInt64, round64_zero]
    · have h0 : (scores.length : ℚ) ≠ 0 := by
        have : scores.length ≠ 0 := fun e => h (List.length_eq_zero_iff.1 e)
        exact_mod_cast this
      unfold mean64 meanSqErr64 fquo
      rw [hl, if_neg h0]
      simp [h]
  · intro m v hm hv
    rw [hm] at hv
    have hmF : IsF64 m := by
      unfold mean64 fquo at hm
      split at hm
      · cases hm
      · cases hm; exact round64_isF64 _
    exact meanSqErr64_near hF hmF hn hv

/-- One right prediction of three: the computed accuracy is the `float64` next to 1/3, which is not 1/3. -/
example : Counts [("x", [("x", 1), ("y", 2)])] [("x", "x"), ("x", "y"), ("x", "y")] ∧
    accuracy64 [("x", [("x", 1), ("y", 2)])] = some (6004799503160661 / 18014398509481984) ∧
    accuracy [("x", [("x", 1), ("y", 2)])] = some (1 / 3) := by
  have hc : Counts [("x", [("x", 1), ("y", 2)])] [("x", "x"), ("x", "y"), ("x", "y")] :=
    ((Counts.nil.step "x" "x").step "x" "y").step "x" "y"
  have ha : accuracy [("x", [("x", 1), ("y", 2)])] = some (1 / 3) := by decide +kernel
  refine ⟨hc, ?_, ha⟩
  rw [(C128_correctly_rounded _ _ hc (by norm_num) "").1, ha]
  have := round64_eq (x := 1 / 3) (-54) 6004799503160661 (by norm_num) (by norm_num) (by norm_num)
    (Or.inl (by norm_num [abs_lt]))
  simp only [Option.map_some, Option.some.injEq]
  rw [this]; norm_num

end Examples

end Golearn
