import Verif.Props.C129
import Verif.Props.C132
import Verif.Proofs.CartLoss

/-! # C133: impurities of a CART classification tree with `float64` rounding -/

namespace Golearn

theorem share64_eq {labels y : List Int} (hn : y.length ≤ 2 ^ 53) (l : Int) :
    share64 (convertToMap y labels) y.length l = round64 ((y.count l : ℚ) / y.length) := by
  unfold share64
  rw [convertToMap_get]
  have h1 : ofInt64 (y.count l) = y.count l := round64_fix (isF64_nat ((List.count_le_length ..).trans hn))
  have h2 : ofInt64 y.length = y.length := round64_fix (isF64_nat hn)
  rw [h1, h2]

/-- The computed share of a label is in [0,1]; it is 0 exactly for a label that does not occur, and 1 exactly if there is no other. -/
theorem share64_facts {labels y : List Int} (hne : y ≠ []) (hn : y.length ≤ 2 ^ 53) (l : Int) :
    let p := share64 (convertToMap y labels) y.length l
    IsF64 p ∧ 0 ≤ p ∧ p ≤ 1 ∧ (p = 0 ↔ l ∉ y) ∧ (p = 1 ↔ ∀ c ∈ y, c = l) ∧
      (l ∈ y → (2 : ℚ) ^ (-53 : ℤ) ≤ p) ∧ ((∃ c ∈ y, c ≠ l) → p ≤ 1 - 2 ^ (-53 : ℤ)) := by
  intro p
  have e : p = round64 ((y.count l : ℚ) / y.length) := share64_eq hn l
  have hl : 0 < y.length := List.length_pos_iff.2 hne
  have hlQ : (0 : ℚ) < y.length := by exact_mod_cast hl
  have hnQ : (y.length : ℚ) ≤ 2 ^ 53 := by exact_mod_cast hn
  have hcQ : (y.count l : ℚ) ≤ y.length := by exact_mod_cast List.count_le_length
  have hF : IsF64 p := e ▸ round64_isF64 _
  have h0 : 0 ≤ p := e ▸ round64_nonneg (by positivity)
  have h1 : p ≤ 1 := e ▸ round64_le isF64_one ((div_le_one hlQ).2 hcQ)
  have hp53 : (0 : ℚ) < 2 ^ (-53 : ℤ) := two_zpow_pos _
  have e53 : (2 : ℚ) ^ (-53 : ℤ) = 1 / 2 ^ 53 := by norm_num
  have hlow : l ∈ y → (2 : ℚ) ^ (-53 : ℤ) ≤ p := by
    intro hm
    rw [e]
    refine le_round64 (isF64_pow (by norm_num)) ?_
    have : (1 : ℚ) ≤ y.count l := by exact_mod_cast List.count_pos_iff.2 hm
    rw [e53, div_le_div_iff₀ (by norm_num) hlQ]
    nlinarith
  have hhigh : (∃ c ∈ y, c ≠ l) → p ≤ 1 - 2 ^ (-53 : ℤ) := by
    rintro ⟨c, hc, hcl⟩
    rw [e]
    refine round64_le ⟨2 ^ 53 - 1, -53, by norm_num, by norm_num, by norm_num⟩ ?_
    have hlt : y.count l < y.length := by
      rcases lt_or_eq_of_le (List.count_le_length (a := l) (l := y)) with h | h
      · exact h
      · exact absurd (List.count_eq_length.1 h c hc).symm hcl
    have : (y.count l : ℚ) + 1 ≤ y.length := by exact_mod_cast hlt
    rw [e53, div_le_iff₀ hlQ]
    have : (1 / 2 ^ 53 : ℚ) * y.length ≤ 1 := by
      rw [one_div, inv_mul_le_iff₀ (by norm_num)]; linarith
    linarith
  refine ⟨hF, h0, h1, ?_, ?_, hlow, hhigh⟩
  · constructor
    · intro hp hm
      have := hlow hm
      rw [hp] at this
      linarith
    · intro hm
      rw [e, List.count_eq_zero_of_not_mem hm]
      simp [round64_zero]
  · constructor
    · intro hp
      by_contra hc
      push Not at hc
      have := hhigh hc
      rw [hp] at this
      linarith
    · intro hall
      have : y.count l = y.length := List.count_eq_length.2 fun b hb => (hall b hb).symm
      rw [e, this, div_self hlQ.ne']
      exact round64_fix isF64_one

/-- All rows have the same label. -/
def OneLabel (y : List Int) : Prop := ∃ c, ∀ l ∈ y, l = c

theorem fadds_zero_iff {l : List ℚ} (h : ∀ x ∈ l, 0 ≤ x ∧ IsF64 x) : fadds l = 0 ↔ ∀ x ∈ l, x = 0 := by
  constructor
  · intro h0 x hx
    have := (foldl_fadd_ge l h 0 le_rfl isF64_zero).2 x hx
    unfold fadds at h0
    rw [h0] at this
    exact le_antisymm this (h x hx).1
  · exact foldl_fadd_zero l

theorem fadds_nonneg64 {l : List ℚ} (h : ∀ x ∈ l, 0 ≤ x) : 0 ≤ fadds l := foldl_fadd_nonneg l 0 le_rfl h

/-- The common part of both impurities: a term per label that is not negative and zero exactly for shares 0 and 1. -/
theorem impurity64 {labels y : List Int} (hne : y ≠ []) (hn : y.length ≤ 2 ^ 53) (hsub : ∀ l ∈ y, l ∈ labels) (f : ℚ → ℚ)
    (hf0 : ∀ p, IsF64 p → 0 ≤ p → p ≤ 1 → 0 ≤ f p ∧ IsF64 (f p)) (hz0 : f 0 = 0) (hz1 : f 1 = 0)
    (hpos : ∀ p, IsF64 p → (2 : ℚ) ^ (-53 : ℤ) ≤ p → p ≤ 1 - 2 ^ (-53 : ℤ) → f p ≠ 0) :
    0 ≤ fadds (labels.map fun l => f (share64 (convertToMap y labels) y.length l)) ∧
    (fadds (labels.map fun l => f (share64 (convertToMap y labels) y.length l)) = 0 ↔ OneLabel y) := by
  have hall : ∀ x ∈ labels.map (fun l => f (share64 (convertToMap y labels) y.length l)), 0 ≤ x ∧ IsF64 x := by
    intro x hx
    obtain ⟨l, _, rfl⟩ := List.mem_map.1 hx
    obtain ⟨a, b, c, _⟩ := share64_facts (labels := labels) hne hn l
    exact hf0 _ a b c
  refine ⟨fadds_nonneg64 fun x hx => (hall x hx).1, ?_⟩
  rw [fadds_zero_iff hall]
  constructor
  · intro hz
    obtain ⟨c0, hc0⟩ := List.exists_mem_of_ne_nil y hne
    refine ⟨c0, ?_⟩
    by_contra hc
    push Not at hc
    obtain ⟨c1, hc1, hne1⟩ := hc
    obtain ⟨a, _, _, _, _, b, c⟩ := share64_facts (labels := labels) hne hn c0
    exact hpos _ a (b hc0) (c ⟨c1, hc1, hne1⟩) (hz _ (List.mem_map.2 ⟨c0, hsub c0 hc0, rfl⟩))
  · rintro ⟨c, hc⟩ x hx
    obtain ⟨l, _, rfl⟩ := List.mem_map.1 hx
    obtain ⟨_, _, _, a, b, _⟩ := share64_facts (labels := labels) hne hn l
    by_cases hlc : l = c
    · rw [b.2 (by rw [hlc]; exact hc)]; exact hz1
    · rw [a.2 fun hm => hlc (hc l hm)]; exact hz0

theorem fsub_one_facts {p : ℚ} (hp : IsF64 p) (h1 : p ≤ 1) : 0 ≤ fsub 1 p := round64_nonneg (by linarith)

/-- The Gini impurity as computed is never negative, and zero exactly if all rows of the node have the same label. -/
theorem C133_gini (labels y : List Int) (hne : y ≠ []) (hn : y.length ≤ 2 ^ 53) (hsub : ∀ l ∈ y, l ∈ labels) :
    0 ≤ gini64 labels y ∧ (gini64 labels y = 0 ↔ OneLabel y) := by
  apply impurity64 hne hn hsub (fun p => fmul p (fsub 1 p))
  · intro p hp h0 h1
    exact ⟨round64_nonneg (mul_nonneg h0 (fsub_one_facts hp h1)), round64_isF64 _⟩
  · unfold fmul; rw [zero_mul]; exact round64_zero
  · unfold fmul fsub; rw [sub_self, round64_zero, mul_zero]; exact round64_zero
  · intro p hp h0 h1 hz
    have a : (2 : ℚ) ^ (-53 : ℤ) ≤ fsub 1 p := le_round64 (isF64_pow (by norm_num)) (by linarith)
    have hp53 : (0 : ℚ) < 2 ^ (-53 : ℤ) := two_zpow_pos _
    have : (2 : ℚ) ^ (-106 : ℤ) ≤ fmul p (fsub 1 p) := by
      refine le_round64 (isF64_pow (by norm_num)) ?_
      rw [show (-106 : ℤ) = -53 + -53 by norm_num, zpow_add₀ (by norm_num)]
      exact mul_le_mul h0 a hp53.le (by linarith)
    have hz' : fmul p (fsub 1 p) = 0 := hz
    rw [hz'] at this
    exact absurd (two_zpow_pos (-106)) (not_lt.2 this)

/-- What is assumed of `math.Log2` on `float64`s of (0,1]: it gives `float64`s, 0 for 1, and at most -2^-53 below 1. -/
def Log64 (lg : ℚ → ℚ) : Prop :=
  lg 1 = 0 ∧ ∀ p, IsF64 p → 0 < p → p < 1 → IsF64 (lg p) ∧ lg p ≤ -(2 ^ (-53 : ℤ))

/-- The same of the entropy. -/
theorem C133_entropy (lg : ℚ → ℚ) (hlg : Log64 lg) (labels y : List Int) (hne : y ≠ []) (hn : y.length ≤ 2 ^ 53)
    (hsub : ∀ l ∈ y, l ∈ labels) :
    0 ≤ entropy64 lg labels y ∧ (entropy64 lg labels y = 0 ↔ OneLabel y) := by
  have hp53 : (0 : ℚ) < 2 ^ (-53 : ℤ) := two_zpow_pos _
  apply impurity64 hne hn hsub (fun p => fmul (-p) (if p = 0 then 0 else lg p))
  · intro p hp h0 h1
    refine ⟨round64_nonneg ?_, round64_isF64 _⟩
    split
    · simp
    · rename_i hp0
      rcases eq_or_lt_of_le h1 with rfl | h1
      · rw [hlg.1]; simp
      · have := (hlg.2 p hp (lt_of_le_of_ne h0 (Ne.symm hp0)) h1).2
        nlinarith
  · unfold fmul; simp [round64_zero]
  · unfold fmul; simp [hlg.1, round64_zero]
  · intro p hp h0 h1 hz
    have hpp : 0 < p := lt_of_lt_of_le hp53 h0
    have hl := (hlg.2 p hp hpp (by linarith)).2
    have : (2 : ℚ) ^ (-106 : ℤ) ≤ fmul (-p) (lg p) := by
      refine le_round64 (isF64_pow (by norm_num)) ?_
      rw [show (-106 : ℤ) = -53 + -53 by norm_num, zpow_add₀ (by norm_num), neg_mul_comm]
      exact mul_le_mul h0 (by linarith) hp53.le hpp.le
    have hz' : fmul (-p) (lg p) = 0 := by
      have : (if p = 0 then 0 else lg p) = lg p := if_neg hpp.ne'
      rw [← this]; exact hz
    rw [hz'] at this
    exact absurd (two_zpow_pos (-106)) (not_lt.2 this)

/-- The exact Gini impurity is missed by little: for `k` labels by at most `k * (4 * 2^-53 + ((1 + 2^-53)^k - 1))`. -/
theorem C133_gini_error (labels y : List Int) (hne : y ≠ []) (hn : y.length ≤ 2 ^ 53) :
    |gini64 labels y - (labels.map fun l => (y.count l : ℚ) / y.length * (1 - (y.count l : ℚ) / y.length)).sum| ≤
      labels.length * (4 / 2 ^ 53 + ((1 + 1 / 2 ^ 53) ^ labels.length - 1)) := by
  have hu : unit64 = 1 / 2 ^ 53 := rfl
  set f := fun l => fmul (share64 (convertToMap y labels) y.length l) (fsub 1 (share64 (convertToMap y labels) y.length l)) with hf
  set g := fun l : Int => (y.count l : ℚ) / y.length * (1 - (y.count l : ℚ) / y.length) with hg
  have hlQ : (0 : ℚ) < y.length := by exact_mod_cast List.length_pos_iff.2 hne
  have term : ∀ l, 0 ≤ f l ∧ f l ≤ 1 ∧ |f l - g l| ≤ 4 / 2 ^ 53 := by
    intro l
    obtain ⟨hF, h0, h1, _⟩ := share64_facts (labels := labels) hne hn l
    have e := share64_eq (labels := labels) hn l
    have hcQ : (y.count l : ℚ) ≤ y.length := by exact_mod_cast List.count_le_length
    have hx0 : 0 ≤ (y.count l : ℚ) / y.length := by positivity
    have hx1 : (y.count l : ℚ) / y.length ≤ 1 := (div_le_one hlQ).2 hcQ
    have herr : |share64 (convertToMap y labels) y.length l - (y.count l : ℚ) / y.length| ≤ 1 / 2 ^ 53 := by
      rw [e]
      by_cases hc : y.count l = 0
      · rw [hc]; simp [round64_zero]
      · have hc1 : (1 : ℚ) ≤ y.count l := by exact_mod_cast Nat.one_le_iff_ne_zero.2 hc
        have hnQ : (y.length : ℚ) ≤ 2 ^ 53 := by exact_mod_cast hn
        have := round64_rel (x := (y.count l : ℚ) / y.length) (by
          rw [abs_of_nonneg hx0]
          refine le_trans (zpow_le_zpow_right₀ (by norm_num) (by norm_num : (-1022 : ℤ) ≤ -53)) ?_
          rw [show (2 : ℚ) ^ (-53 : ℤ) = 1 / 2 ^ 53 by norm_num, div_le_div_iff₀ (by norm_num) hlQ]
          nlinarith)
        rw [abs_of_nonneg hx0] at this
        refine this.trans ?_
        exact div_le_div_of_nonneg_right hx1 (by norm_num)
    set p := share64 (convertToMap y labels) y.length l with hp
    have hs0 := fsub_one_facts hF h1
    have hs1 : fsub 1 p ≤ 1 := round64_le isF64_one (by linarith)
    have hse : |fsub 1 p - (1 - p)| ≤ 1 / 2 ^ 53 := by
      have := fadd_rel isF64_one (isF64_neg hF)
      unfold fadd at this
      rw [← sub_eq_add_neg, abs_of_nonneg (by linarith : 0 ≤ 1 - p)] at this
      refine this.trans (div_le_div_of_nonneg_right (by linarith) (by norm_num))
    have hpe : |fmul p (fsub 1 p) - p * fsub 1 p| ≤ 2 / 2 ^ 53 := by
      have := round64_abs_err (p * fsub 1 p)
      rw [abs_of_nonneg (mul_nonneg h0 hs0)] at this
      have hle : p * fsub 1 p ≤ 1 := mul_le_one₀ h1 hs0 hs1
      have t : (2 : ℚ) ^ (-1075 : ℤ) ≤ 1 / 2 ^ 53 := by
        refine le_trans (zpow_le_zpow_right₀ (by norm_num) (by norm_num : (-1075 : ℤ) ≤ -53)) ?_
        norm_num
      have : p * fsub 1 p / 2 ^ 53 ≤ 1 / 2 ^ 53 := div_le_div_of_nonneg_right hle (by norm_num)
      unfold fmul
      linarith
    refine ⟨round64_nonneg (mul_nonneg h0 hs0), round64_le isF64_one (mul_le_one₀ h1 hs0 hs1), ?_⟩
    set x := (y.count l : ℚ) / y.length with hx
    have m1 : |p * (fsub 1 p - (1 - p))| ≤ 1 / 2 ^ 53 := by
      rw [abs_mul, abs_of_nonneg h0]
      calc p * |fsub 1 p - (1 - p)| ≤ 1 * |fsub 1 p - (1 - p)| := mul_le_mul_of_nonneg_right h1 (abs_nonneg _)
        _ ≤ _ := by rw [one_mul]; exact hse
    have m2 : |(p - x) * (1 - p - x)| ≤ 1 / 2 ^ 53 := by
      rw [abs_mul]
      have : |1 - p - x| ≤ 1 := by rw [abs_le]; constructor <;> linarith
      calc |p - x| * |1 - p - x| ≤ |p - x| * 1 := mul_le_mul_of_nonneg_left this (abs_nonneg _)
        _ ≤ _ := by rw [mul_one]; exact herr
    have e1 : f l - g l = (fmul p (fsub 1 p) - p * fsub 1 p) + p * (fsub 1 p - (1 - p)) + (p - x) * (1 - p - x) := by
      change fmul p (fsub 1 p) - x * (1 - x) = _
      ring
    rw [e1]
    have a1 := abs_add_le (fmul p (fsub 1 p) - p * fsub 1 p + p * (fsub 1 p - (1 - p))) ((p - x) * (1 - p - x))
    have a2 := abs_add_le (fmul p (fsub 1 p) - p * fsub 1 p) (p * (fsub 1 p - (1 - p)))
    linarith
  have h1 := fadds_err (labels.map f) (by
    intro x hx
    obtain ⟨l, _, rfl⟩ := List.mem_map.1 hx
    exact round64_isF64 _)
  rw [List.length_map] at h1
  have h2 : ((labels.map f).map abs).sum ≤ labels.length ∧
      |(labels.map f).sum - (labels.map g).sum| ≤ labels.length * (4 / 2 ^ 53) := by
    clear h1 hf
    clear_value f g
    induction labels with
    | nil => simp
    | cons l ls ih =>
      obtain ⟨i1, i2⟩ := ih
      obtain ⟨t0, t1, t2⟩ := term l
      simp only [List.map_cons, List.sum_cons, List.length_cons]
      push_cast
      constructor
      · rw [abs_of_nonneg t0]; linarith
      · have h3 : |f l + (ls.map f).sum - (g l + (ls.map g).sum)| ≤ |f l - g l| + |(ls.map f).sum - (ls.map g).sum| := by
          have := abs_add_le (f l - g l) ((ls.map f).sum - (ls.map g).sum)
          rwa [show f l - g l + ((ls.map f).sum - (ls.map g).sum) = f l + (ls.map f).sum - (g l + (ls.map g).sum) by ring] at this
        linarith
  obtain ⟨h2, h3⟩ := h2
  have hk := sub_nonneg.2 (unit64_pow_ge labels.length)
  have h4 := mul_le_mul_of_nonneg_left h2 hk
  have h5 : |gini64 labels y - (labels.map g).sum| ≤ |fadds (labels.map f) - (labels.map f).sum| + |(labels.map f).sum - (labels.map g).sum| := by
    have := abs_add_le (fadds (labels.map f) - (labels.map f).sum) ((labels.map f).sum - (labels.map g).sum)
    rwa [sub_add_sub_cancel] at this
  rw [← hu]
  refine h5.trans ?_
  calc _ ≤ ((1 + unit64) ^ labels.length - 1) * labels.length + labels.length * (4 / 2 ^ 53) := by linarith
    _ = _ := by ring

/-- A split of the rows of a node: its weighted loss, with a loss of zero for an empty side (the error is ignored,
trees/cart_classifier.go:254-258). -/
def splitLoss64 (loss : List Int → ℚ) (left right : List Int) : Option ℚ :=
  subLoss64 (if left = [] then 0 else loss left) (if right = [] then 0 else loss right) left.length right.length
    (left.length + right.length)

/-- A node whose rows all have the same label is never split; and a node with different labels is improved by a split that leaves one
label on each side. -/
theorem C133_splits (lg : ℚ → ℚ) (hlg : Log64 lg) (labels left right y : List Int) (hy : List.Perm y (left ++ right)) (hne : y ≠ [])
    (hn : y.length ≤ 2 ^ 53) (hsub : ∀ l ∈ y, l ∈ labels) (loss : List Int → ℚ) (hl : loss = gini64 labels ∨ loss = entropy64 lg labels) :
    (∀ s, OneLabel y → splitLoss64 loss left right = some s → ¬ s < loss y) ∧
    (¬ OneLabel y → OneLabel left → OneLabel right → splitLoss64 loss left right = some 0 ∧ 0 < loss y) := by
  have hloss : ∀ z : List Int, z ≠ [] → z.length ≤ 2 ^ 53 → (∀ l ∈ z, l ∈ labels) → 0 ≤ loss z ∧ (loss z = 0 ↔ OneLabel z) := by
    intro z h1 h2 h3
    rcases hl with rfl | rfl
    · exact C133_gini labels z h1 h2 h3
    · exact C133_entropy lg hlg labels z h1 h2 h3
  have hlen := hy.length_eq
  rw [List.length_append] at hlen
  have hL : ∀ l ∈ left, l ∈ labels := fun l h => hsub l (hy.mem_iff.2 (List.mem_append_left _ h))
  have hR : ∀ l ∈ right, l ∈ labels := fun l h => hsub l (hy.mem_iff.2 (List.mem_append_right _ h))
  have hLn : 0 ≤ (if left = [] then 0 else loss left) := by
    split
    · exact le_rfl
    · rename_i h; exact (hloss left h (by omega) hL).1
  have hRn : 0 ≤ (if right = [] then 0 else loss right) := by
    split
    · exact le_rfl
    · rename_i h; exact (hloss right h (by omega) hR).1
  obtain ⟨hy0, hyz⟩ := hloss y hne hn hsub
  constructor
  · intro s ho hs
    rw [hyz.2 ho]
    exact not_lt.2 ((C129_losses []).2.2.1 _ _ _ _ _ _ hLn hRn hs)
  · intro ho hol hor
    refine ⟨?_, lt_of_le_of_ne hy0 fun e => ho (hyz.1 e.symm)⟩
    have e1 : (if left = [] then 0 else loss left) = 0 := by
      split
      · rfl
      · rename_i h; exact (hloss left h (by omega) hL).2.2 hol
    have e2 : (if right = [] then 0 else loss right) = 0 := by
      split
      · rfl
      · rename_i h; exact (hloss right h (by omega) hR).2.2 hor
    unfold splitLoss64 subLoss64 fquo fmul
    have hz : ofInt64 (left.length + right.length) ≠ 0 := by
      unfold ofInt64
      rw [← hlen, round64_fix (isF64_nat hn)]
      have : y.length ≠ 0 := fun e => hne (List.length_eq_zero_iff.1 e)
      exact_mod_cast this
    rw [e1, e2, zero_mul, zero_mul, round64_zero, if_neg hz]
    simp [fadd, round64_zero]

/-- Four rows of three labels, divided perfectly on one side only. -/
example : ¬ OneLabel [1, 1, 2, 3] ∧ OneLabel [1, 1] ∧ (∀ l ∈ [1, 1, 2, 3], l ∈ [1, 2, (3 : Int)]) := by
  refine ⟨?_, ⟨1, by simp⟩, by simp⟩
  rintro ⟨c, hc⟩
  have h1 := hc 1 (by simp)
  have h2 := hc 2 (by simp)
  omega

/-- A logarithm as assumed: the one rounded down to a whole number. -/
example : Log64 fun p => (Int.log 2 p : ℚ) := by
  refine ⟨by norm_num, ?_⟩
  intro p hp h0 h1
  have hneg : Int.log 2 p ≤ -1 := by
    have := (Int.lt_zpow_iff_log_lt (b := 2) (x := 0) (by norm_num) h0).1 (by simpa using h1)
    omega
  have hlow : -1074 ≤ Int.log 2 p := by
    apply (Int.zpow_le_iff_le_log (b := 2) (by norm_num) h0).1
    obtain ⟨n, rfl⟩ := isF64_grid hp
    have hpos : (0 : ℚ) < 2 ^ (-1074 : ℤ) := two_zpow_pos _
    have : (0 : ℚ) < n := by
      by_contra hc
      exact absurd h0 (not_lt.2 (mul_nonpos_of_nonpos_of_nonneg (not_lt.1 hc) hpos.le))
    have h1 : 0 < n := by exact_mod_cast this
    have : (1 : ℚ) ≤ n := by exact_mod_cast h1
    push_cast
    nlinarith
  constructor
  · apply isF64_int
    rw [abs_le]
    constructor <;> omega
  · have : (Int.log 2 p : ℚ) ≤ -1 := by exact_mod_cast hneg
    refine this.trans ?_
    have : (2 : ℚ) ^ (-53 : ℤ) ≤ 1 := by norm_num
    linarith

end Golearn
