import Verif.Props.C129
import Verif.Props.C58
import Verif.Proofs.Cart

/-! # C130: thresholds computed in `float64` -/

namespace Golearn

/-- The threshold of a CART tree between two neighbouring values never leaves their range, and is their exact
middle if that is a `float64`. -/
theorem C130_midpoint (a b : ℚ) (ha : IsF64 a) (hb : IsF64 b) (hab : a ≤ b) :
    a ≤ midpoint64 a b ∧ midpoint64 a b ≤ b ∧ (IsF64 ((a + b) / 2) → midpoint64 a b = (a + b) / 2) := by
  refine ⟨?_, ?_, ?_⟩
  · apply le_round64 ha
    have := le_round64 (isF64_double ha) (x := a + b) (by linarith)
    unfold fadd; linarith
  · apply round64_le hb
    have := round64_le (isF64_double hb) (x := a + b) (by linarith)
    unfold fadd; linarith
  · intro h
    unfold midpoint64 fadd
    have h2 := isF64_double h
    rw [show 2 * ((a + b) / 2) = a + b by ring] at h2
    rw [round64_fix h2, round64_fix h]

/-- Full claim: the threshold lies above the lower of the two values, so that the split has rows on both sides. -/
def C130_full : Prop := ∀ a b : ℚ, IsF64 a → IsF64 b → a < b → a < midpoint64 a b

/-- Missing: values that are closer. Values further apart than a relative 2^-50 are separated. -/
theorem C130_separates_partial (a b : ℚ) (ha : IsF64 a) (hb : IsF64 b)
    (hgap : (max |a| |b|) / 2 ^ 50 + 2 ^ (-1073 : ℤ) < b - a) : a < midpoint64 a b ∧ midpoint64 a b < b := by
  set M := max |a| |b| with hM
  have h1 : |a| ≤ M := le_max_left _ _
  have h2 : |b| ≤ M := le_max_right _ _
  have hs : |a + b| ≤ 2 * M := (abs_add_le a b).trans (by linarith)
  have e1 := fadd_rel ha hb
  have e2 := round64_abs_err (fadd a b / 2)
  change |midpoint64 a b - fadd a b / 2| ≤ _ at e2
  have hM0 : 0 ≤ M := (abs_nonneg a).trans h1
  have e3 : |fadd a b - (a + b)| ≤ 2 * M / 2 ^ 53 := e1.trans (div_le_div_of_nonneg_right hs (by norm_num))
  have e4 : |fadd a b| ≤ 3 * M := by
    have := abs_add_le (fadd a b - (a + b)) (a + b)
    rw [sub_add_cancel] at this
    have : 2 * M / 2 ^ 53 ≤ M := by rw [div_le_iff₀ (by norm_num)]; linarith
    linarith
  have e5 : |fadd a b / 2| / 2 ^ 53 ≤ 2 * M / 2 ^ 53 := by
    apply div_le_div_of_nonneg_right _ (by norm_num)
    rw [abs_div, abs_of_pos (show (0 : ℚ) < 2 by norm_num)]
    linarith
  have hp : (2 : ℚ) ^ (-1073 : ℤ) = 4 * 2 ^ (-1075 : ℤ) := by
    rw [show (-1073 : ℤ) = 2 + -1075 by norm_num, zpow_add₀ (by norm_num)]; norm_num
  have hp0 : (0 : ℚ) < 2 ^ (-1075 : ℤ) := two_zpow_pos _
  rw [hp] at hgap
  have hM3 : 3 * (M / 2 ^ 53) ≤ M / 2 ^ 50 / 2 := by
    have : M / 2 ^ 50 / 2 = 4 * (M / 2 ^ 53) := by ring
    have : 0 ≤ M / 2 ^ 53 := div_nonneg hM0 (by norm_num)
    linarith
  obtain ⟨l1, u1⟩ := abs_le.1 e3
  obtain ⟨l2, u2⟩ := abs_le.1 e2
  constructor <;> linarith

/-- 1 and the next `float64`: the threshold is 1, and the split at it has no rows on the left. No other threshold
is tried for two rows, so a tree cannot tell these rows apart. -/
theorem C130_neighbours : let b : ℚ := 1 + 1 / 2 ^ 52
    IsF64 b ∧ midpoint64 1 b = 1 ∧
    createSplit [[(1 : ℚ)], [b]] 0 [(0 : Int), 1] (midpoint64 1 b) = Res.ok ⟨[], [[1], [b]], [], [0, 1]⟩ := by
  intro b
  have hb : IsF64 b := ⟨2 ^ 52 + 1, -52, by norm_num, by norm_num, by norm_num [b]⟩
  have hm : midpoint64 1 b = 1 := by
    unfold midpoint64 fadd
    rw [round64_eq (x := 1 + b) (-51) (2 ^ 52) (by norm_num [b, abs_of_pos]) (by norm_num [b, abs_of_pos]) (by norm_num)
      (Or.inr ⟨by norm_num [b, abs_of_pos], by norm_num⟩)]
    rw [show ((2 ^ 52 : ℤ) : ℚ) * 2 ^ (-51 : ℤ) / 2 = 1 by norm_num]
    exact round64_fix isF64_one
  refine ⟨hb, hm, ?_⟩
  rw [hm]
  decide +kernel

theorem C130_refuted : ¬ C130_full := by
  intro h
  obtain ⟨hb, hm, _⟩ := C130_neighbours
  have := h 1 _ isF64_one hb (by norm_num)
  rw [hm] at this
  exact lt_irrefl _ this

/-! ### Isolation forests -/

theorem fsub_exact_small {a b : ℚ} (ha : IsF64 a) (hb : IsF64 b) (h : |a - b| < 2 ^ (-1021 : ℤ)) : IsF64 (a - b) := by
  obtain ⟨n, hn⟩ := isF64_grid ha
  obtain ⟨m, hm⟩ := isF64_grid hb
  have hs : a - b = ((n - m : ℤ) : ℚ) * 2 ^ (-1074 : ℤ) := by rw [hn, hm]; push_cast; ring
  refine ⟨n - m, -1074, le_refl _, ?_, hs⟩
  rw [hs, abs_mul, abs_of_pos (two_zpow_pos _)] at h
  have e : (2 : ℚ) ^ (-1021 : ℤ) = 2 ^ 53 * 2 ^ (-1074 : ℤ) := by
    rw [show (-1021 : ℤ) = 53 + -1074 by norm_num, zpow_add₀ (by norm_num)]; norm_num
  rw [e] at h
  have h' := lt_of_mul_lt_mul_right h (two_zpow_pos _).le
  rw [← Int.cast_abs] at h'
  exact_mod_cast h'

/-- A number of at least 2^-1021 times at most `1 - 2^-53` is not rounded back to the number. -/
theorem fmul_lt {w u : ℚ} (hw : IsF64 w) (hbig : (2 : ℚ) ^ (-1021 : ℤ) ≤ w) (hu0 : 0 ≤ u) (hu : u ≤ 1 - 1 / 2 ^ 53) :
    fmul u w < w := by
  have hwpos : 0 < w := lt_of_lt_of_le (two_zpow_pos _) hbig
  have hx : u * w ≤ w - w / 2 ^ 53 := by
    have := mul_le_mul_of_nonneg_right hu hwpos.le
    linarith
  have hle : fmul u w ≤ w := round64_le hw (by
    have : 0 < w / 2 ^ 53 := div_pos hwpos (by norm_num)
    linarith)
  refine lt_of_le_of_ne hle ?_
  intro heq
  have hnear := (round64_nearest (u * w)).2
  change ∀ y, IsF64 y → |fmul u w - u * w| ≤ |y - u * w| at hnear
  rw [heq] at hnear
  have hd : 0 < w - u * w := by
    have : 0 < w / 2 ^ 53 := div_pos hwpos (by norm_num)
    linarith
  rw [abs_of_pos hd] at hnear
  -- the digits of the number
  have he : -1073 ≤ ulpExp w := by
    have : (-1021 : ℤ) ≤ Int.log 2 |w| := (Int.zpow_le_iff_le_log (b := 2) (by norm_num) (abs_pos.2 hwpos.ne')).1 (by
      rw [abs_of_pos hwpos]; exact_mod_cast hbig)
    unfold ulpExp; omega
  obtain ⟨m, hm⟩ : ∃ m : ℤ, w = m * 2 ^ ulpExp w := ⟨_, (round64_fix hw).symm⟩
  set e := ulpExp w with hee
  have hep := two_zpow_pos e
  have hlow : 2 ^ 52 * 2 ^ e ≤ w := by
    have := ulpExp_low hwpos.ne' (by omega)
    rwa [abs_of_pos hwpos] at this
  have hhigh : w < 2 ^ 53 * 2 ^ e := by
    have := ulpExp_bound w
    rwa [abs_of_pos hwpos] at this
  have hml : (2 : ℚ) ^ 52 ≤ m := le_of_mul_le_mul_right (by rw [← hm]; exact hlow) hep
  have hmh : (m : ℚ) < 2 ^ 53 := lt_of_mul_lt_mul_right (by rw [← hm]; exact hhigh) hep.le
  have hml' : (2 : ℤ) ^ 52 ≤ m := by exact_mod_cast hml
  have hmh' : m < 2 ^ 53 := by exact_mod_cast hmh
  rcases lt_or_eq_of_le hml' with hlt | heqm
  · have hq : IsF64 (((m - 1 : ℤ) : ℚ) * 2 ^ e) :=
      ⟨m - 1, e, by omega, by rw [abs_of_nonneg (by omega)]; omega, rfl⟩
    have h1 := hnear _ hq
    have e1 : ((m - 1 : ℤ) : ℚ) * 2 ^ e = w - 2 ^ e := by rw [hm]; push_cast; ring
    rw [e1] at h1
    have hbigd : 2 ^ e / 2 < w / 2 ^ 53 := by
      rw [lt_div_iff₀ (by norm_num)]
      have : (2 : ℚ) ^ 52 + 1 ≤ m := by exact_mod_cast hlt
      have h2 : (2 ^ 52 + 1) * 2 ^ e ≤ w := by rw [hm]; exact mul_le_mul_of_nonneg_right this hep.le
      linarith
    rcases abs_cases (w - 2 ^ e - u * w) with ⟨ha, _⟩ | ⟨ha, _⟩ <;> rw [ha] at h1 <;> linarith
  · have hq : IsF64 (((2 ^ 53 - 1 : ℤ) : ℚ) * 2 ^ (e - 1)) := ⟨2 ^ 53 - 1, e - 1, by omega, by norm_num, rfl⟩
    have h1 := hnear _ hq
    have e2 : (2 : ℚ) ^ e = 2 * 2 ^ (e - 1) := by
      rw [zpow_sub₀ (by norm_num), zpow_one]; ring
    have ew : w = 2 ^ 52 * 2 ^ e := by rw [hm, ← heqm]; push_cast; ring
    have e1 : ((2 ^ 53 - 1 : ℤ) : ℚ) * 2 ^ (e - 1) = w - w / 2 ^ 53 := by
      rw [ew, e2]; push_cast; ring
    rw [e1, abs_of_nonneg (by linarith)] at h1
    have : 0 < w / 2 ^ 53 := div_pos hwpos (by norm_num)
    linarith

/-- The drawn threshold never leaves the range of the values. `rand.Float64` returns multiples of 2^-53 below 1. -/
theorem C130_drawn (u mn mx : ℚ) (hu0 : 0 ≤ u) (hu : u ≤ 1 - 1 / 2 ^ 53) (hmn : IsF64 mn) (hmx : IsF64 mx) (h : mn ≤ mx) :
    mn ≤ drawn64 u mn mx ∧ drawn64 u mn mx ≤ mx := by
  have hw0 : 0 ≤ fsub mx mn := round64_nonneg (by linarith)
  have hu1 : u ≤ 1 := hu.trans (by norm_num)
  refine ⟨le_round64 hmn (by have := round64_nonneg (mul_nonneg hu0 hw0); unfold fmul; linarith), ?_⟩
  apply round64_le hmx
  have hle : fmul u (fsub mx mn) ≤ fsub mx mn := round64_le (round64_isF64 _) (by nlinarith)
  suffices fmul u (fsub mx mn) ≤ mx - mn by linarith
  rcases lt_or_ge |mx - mn| ((2 : ℚ) ^ (-1021 : ℤ)) with hs | hs
  · have := round64_fix (fsub_exact_small hmx hmn hs)
    change fsub mx mn = mx - mn at this
    linarith
  · rw [abs_of_nonneg (by linarith)] at hs
    have hbig : (2 : ℚ) ^ (-1021 : ℤ) ≤ fsub mx mn := le_round64 (isF64_pow (by norm_num)) hs
    have hlt := fmul_lt (round64_isF64 _) hbig hu0 hu
    have hnear := (round64_nearest (mx - mn)).2 (fmul u (fsub mx mn)) (round64_isF64 _)
    change |fsub mx mn - (mx - mn)| ≤ _ at hnear
    by_contra hc
    rw [not_le] at hc
    change fmul u (fsub mx mn) < fsub mx mn at hlt
    rw [abs_of_pos (by linarith), abs_of_pos (by linarith)] at hnear
    linarith

/-- Full claim: if values differ by more than the step 0.000001, the threshold leaves rows on both sides. -/
def C130_isolation_full : Prop :=
  ∀ (u : ℚ) (f : Nat) (data : List (List ℚ)) (mn mx : ℚ), 0 ≤ u → u ≤ 1 - 1 / 2 ^ 53 → IsF64 mn → IsF64 mx →
    (∀ x ∈ data, mn ≤ x.getD f 0 ∧ x.getD f 0 ≤ mx) → (∃ x ∈ data, x.getD f 0 = mn) → (∃ x ∈ data, x.getD f 0 = mx) →
    millionth64 < mx - mn →
    (splitData (selectValue64 u mn mx) f data).1 ≠ [] ∧ (splitData (selectValue64 u mn mx) f data).2 ≠ []

/-- Missing: thresholds that are rounded to an end of the range. Otherwise there are rows on both sides. -/
theorem C130_isolation_partial (u : ℚ) (f : Nat) (data : List (List ℚ)) (mn mx : ℚ) (hu0 : 0 ≤ u) (hu : u ≤ 1 - 1 / 2 ^ 53)
    (hmn : IsF64 mn) (hmx : IsF64 mx) (h : mn ≤ mx) (hx : ∃ x ∈ data, x.getD f 0 = mn) (hy : ∃ x ∈ data, x.getD f 0 = mx)
    (h1 : drawn64 u mn mx ≠ mn) (h2 : drawn64 u mn mx ≠ mx) :
    (splitData (selectValue64 u mn mx) f data).1 ≠ [] ∧ (splitData (selectValue64 u mn mx) f data).2 ≠ [] := by
  obtain ⟨l, r⟩ := C130_drawn u mn mx hu0 hu hmn hmx h
  have hs : selectValue64 u mn mx = drawn64 u mn mx := by unfold selectValue64; rw [if_neg h1, if_neg h2]
  obtain ⟨x, hx, ex⟩ := hx
  obtain ⟨y, hy, ey⟩ := hy
  rw [hs, splitData_spec]
  constructor
  · intro e
    have := List.filter_eq_nil_iff.1 e x hx
    simp only [decide_eq_true_eq] at this
    exact this (by rw [ex]; exact l)
  · intro e
    have := List.filter_eq_nil_iff.1 e y hy
    simp only [decide_eq_true_eq] at this
    exact this (by rw [ey]; exact lt_of_le_of_ne r h2)

/-- 2^40 and the next `float64`, 0.00024 apart: a draw of 7/8 is rounded to the larger one, and taking off 0.000001
changes nothing. All rows go to the left. -/
theorem C130_isolation_neighbours : let b : ℚ := 2 ^ 40 + 1 / 2 ^ 12
    IsF64 b ∧ drawn64 (7 / 8) (2 ^ 40) b = b ∧ selectValue64 (7 / 8) (2 ^ 40) b = b ∧ millionth64 < b - 2 ^ 40 ∧
    splitData (selectValue64 (7 / 8) (2 ^ 40) b) 0 [[(2 ^ 40 : ℚ)], [b]] = ([[2 ^ 40], [b]], []) := by
  intro b
  have hb : IsF64 b := ⟨2 ^ 52 + 1, -12, by norm_num, by norm_num, by norm_num [b]⟩
  have hd : drawn64 (7 / 8) (2 ^ 40) b = b := by
    have e1 : fsub b (2 ^ 40) = 1 / 2 ^ 12 := by
      unfold fsub
      rw [show b - 2 ^ 40 = 1 / 2 ^ 12 by norm_num [b]]
      exact round64_fix ⟨1, -12, by norm_num, by norm_num, by norm_num⟩
    have e2 : fmul (7 / 8) (1 / 2 ^ 12) = 7 / 2 ^ 15 := by
      unfold fmul
      rw [show (7 : ℚ) / 8 * (1 / 2 ^ 12) = 7 / 2 ^ 15 by norm_num]
      exact round64_fix ⟨7, -15, by norm_num, by norm_num, by norm_num⟩
    unfold drawn64
    rw [e1, e2]
    unfold fadd
    rw [round64_eq (x := 2 ^ 40 + 7 / 2 ^ 15) (-12) (2 ^ 52 + 1) (by norm_num [abs_of_pos]) (by norm_num [abs_of_pos]) (by norm_num)
      (Or.inl (by norm_num [abs_lt]))]
    norm_num [b]
  have hmil0 : 0 ≤ millionth64 := round64_nonneg (by norm_num)
  have hmil : millionth64 ≤ 1 / 2 ^ 19 := round64_le ⟨1, -19, by norm_num, by norm_num, by norm_num⟩ (by norm_num)
  have hsv : selectValue64 (7 / 8) (2 ^ 40) b = b := by
    unfold selectValue64
    rw [hd, if_neg (by norm_num [b]), if_pos rfl]
    unfold fsub
    have hx : b - millionth64 = b - millionth64 := rfl
    rw [round64_eq (x := b - millionth64) (-12) (2 ^ 52 + 1)]
    · norm_num [b]
    · rw [abs_of_pos (by norm_num [b] at hmil ⊢; linarith)]
      norm_num [b] at hmil ⊢; linarith
    · rw [abs_of_pos (by norm_num [b] at hmil ⊢; linarith)]
      norm_num [b] at hmil ⊢; linarith
    · norm_num
    · left
      rw [show ((2 ^ 52 + 1 : ℤ) : ℚ) - (b - millionth64) / 2 ^ (-12 : ℤ) = millionth64 * 2 ^ 12 by norm_num [b]; ring]
      rw [abs_of_nonneg (by linarith)]
      norm_num at hmil ⊢; linarith
  refine ⟨hb, hd, hsv, ?_, ?_⟩
  · norm_num [b] at hmil ⊢; linarith
  · rw [hsv]
    decide +kernel

theorem C130_isolation_refuted : ¬ C130_isolation_full := by
  intro h
  obtain ⟨hb, _, _, hg, hs⟩ := C130_isolation_neighbours
  have := (h (7 / 8) 0 [[(2 ^ 40 : ℚ)], [2 ^ 40 + 1 / 2 ^ 12]] (2 ^ 40) (2 ^ 40 + 1 / 2 ^ 12) (by norm_num) (by norm_num)
    ⟨1, 40, by norm_num, by norm_num, by norm_num⟩ hb (by
      intro x hx
      simp only [List.mem_cons, List.not_mem_nil, or_false] at hx
      rcases hx with rfl | rfl <;> norm_num [List.getD]) ⟨[2 ^ 40], by simp, rfl⟩ ⟨[2 ^ 40 + 1 / 2 ^ 12], by simp, rfl⟩ hg).2
  rw [hs] at this
  exact this rfl

section Examples

/-- Values 1 and 2 are separated, in a CART tree at 3/2. -/
example : midpoint64 1 2 = 3 / 2 ∧ 1 < midpoint64 1 2 ∧ midpoint64 1 2 < 2 := by
  have h := (C130_midpoint 1 2 isF64_one ⟨1, 1, by norm_num, by norm_num, by norm_num⟩ (by norm_num)).2.2
    ⟨3, -1, by norm_num, by norm_num, by norm_num⟩
  rw [h]; norm_num

example : drawn64 (1 / 2) 1 3 = 2 := by
  have e1 : fsub 3 1 = 2 := by unfold fsub; exact (by norm_num : (3 : ℚ) - 1 = 2) ▸ round64_fix ⟨1, 1, by norm_num, by norm_num, by norm_num⟩
  have e2 : fmul (1 / 2) 2 = 1 := by unfold fmul; rw [show (1 : ℚ) / 2 * 2 = 1 by norm_num]; exact round64_fix isF64_one
  unfold drawn64
  rw [e1, e2]
  unfold fadd
  rw [show (1 : ℚ) + 1 = 2 by norm_num]
  exact round64_fix ⟨1, 1, by norm_num, by norm_num, by norm_num⟩

end Examples

end Golearn
