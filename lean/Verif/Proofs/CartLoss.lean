import Verif.Proofs.Cart
import Verif.Spec.Entropy
import Mathlib.Algebra.BigOperators.Ring.Finset
import Mathlib.Algebra.BigOperators.Field
import Verif.Proofs.Regression
import Mathlib.Algebra.Order.BigOperators.Ring.Finset
import Mathlib.Algebra.Order.BigOperators.Group.List
import Mathlib.Tactic.FieldSimp
import Mathlib.Tactic.Ring

/-! # The losses of CART trees -/

namespace Golearn

section
variable {K : Type} [Field K] [LinearOrder K]

theorem countFold_get (y : List Int) (m : GoMap Int Nat) (c : Int) :
    ((y.foldl (fun m v => m.set v ((m.get? v).getD 0 + 1)) m).get? c).getD 0 = (m.get? c).getD 0 + y.count c := by
  induction y generalizing m with
  | nil => simp
  | cons v vs ih =>
    rw [List.foldl_cons, ih, GoMap.get?_set, List.count_cons]
    by_cases h : c = v
    · subst h; simp; omega
    · have h' : ¬ v = c := fun e => h e.symm
      simp [h, h']

theorem labelFold_get (labels : List Int) (m : GoMap Int Nat) (c : Int) (hm : (m.get? c).getD 0 = 0) :
    ((labels.foldl (fun m l => m.set l 0) m).get? c).getD 0 = 0 := by
  induction labels generalizing m with
  | nil => exact hm
  | cons l ls ih =>
    rw [List.foldl_cons]
    apply ih
    rw [GoMap.get?_set]
    split
    · rfl
    · exact hm

/-- The counts of the labels. -/
theorem convertToMap_get (y labels : List Int) (c : Int) : ((convertToMap y labels).get? c).getD 0 = y.count c := by
  unfold convertToMap
  rw [countFold_get, labelFold_get _ _ _ (by rfl), Nat.zero_add]

theorem modeStep_fold (m : GoMap Int Nat) (labels : List Int) (best : Int) :
    (m.get? best).getD 0 ≤ (m.get? (labels.foldl (modeStep m) best)).getD 0 ∧
    ∀ l ∈ labels, (m.get? l).getD 0 ≤ (m.get? (labels.foldl (modeStep m) best)).getD 0 := by
  induction labels generalizing best with
  | nil => exact ⟨le_rfl, by simp⟩
  | cons l ls ih =>
    rw [List.foldl_cons]
    obtain ⟨h1, h2⟩ := ih (modeStep m best l)
    have h3 : (m.get? best).getD 0 ≤ (m.get? (modeStep m best l)).getD 0 ∧
        (m.get? l).getD 0 ≤ (m.get? (modeStep m best l)).getD 0 := by
      unfold modeStep
      split <;> constructor <;> omega
    refine ⟨h3.1.trans h1, ?_⟩
    intro l' hl'
    rcases List.mem_cons.1 hl' with rfl | hl'
    · exact h3.2.trans h1
    · exact h2 l' hl'

/-- The label reported with a loss is a mode. -/
theorem mode_spec {labels y : List Int} (hne : y ≠ []) (hsub : ∀ l ∈ y, l ∈ labels) :
    IsMode y (labels.foldl (modeStep (convertToMap y labels)) 0) := by
  obtain ⟨_, h⟩ := modeStep_fold (convertToMap y labels) labels 0
  simp only [convertToMap_get] at h
  obtain ⟨c0, hc0⟩ := List.exists_mem_of_ne_nil y hne
  refine ⟨?_, ?_⟩
  · have := h c0 (hsub c0 hc0)
    exact List.count_pos_iff.1 ((List.count_pos_iff.2 hc0).trans_le this)
  · intro c
    by_cases hc : c ∈ y
    · exact h c (hsub c hc)
    · rw [List.count_eq_zero_of_not_mem hc]; exact Nat.zero_le _

theorem pairFold {α : Type} (ls : List α) (g : α → K) {β : Type} (s : β → α → β) (k : K) (b : β) :
    ls.foldl (fun (acc : K × β) l => (acc.1 + g l, s acc.2 l)) (k, b) = (k + (ls.map g).sum, ls.foldl s b) := by
  induction ls generalizing k b with
  | nil => simp
  | cons l ls ih => rw [List.foldl_cons, ih]; simp [add_assoc]

theorem sum_dedup_eq {α : Type} [DecidableEq α] (ls : List α) (f : α → K) :
    (ls.dedup.map f).sum = ∑ c ∈ ls.toFinset, f c := by
  rw [← List.sum_toFinset f (List.nodup_dedup ls)]
  congr 1
  ext x; simp

/-- Sums over the known labels are sums over the labels that occur. -/
theorem sum_labels {α : Type} [DecidableEq α] {labels y : List α} (hn : labels.Nodup) (hsub : ∀ l ∈ y, l ∈ labels)
    (f : α → K) (h0 : ∀ l, l ∉ y → f l = 0) : (labels.map f).sum = (y.dedup.map f).sum := by
  rw [sum_dedup_eq, ← List.sum_toFinset f hn]
  symm
  apply Finset.sum_subset
  · intro c hc
    rw [List.mem_toFinset] at hc ⊢
    exact hsub c hc
  · intro c _ hc
    rw [List.mem_toFinset] at hc
    exact h0 c hc

variable [IsStrictOrderedRing K]

theorem sum_proportion {α : Type} [DecidableEq α] {y : List α} (hne : y ≠ []) :
    (y.dedup.map (proportion (K := K) y)).sum = 1 := by
  have hl : (y.length : K) ≠ 0 := by
    have := List.length_pos_of_ne_nil hne
    have h : (0 : K) < y.length := by exact_mod_cast this
    exact h.ne'
  rw [sum_dedup_eq]
  unfold proportion
  rw [← Finset.sum_div, ← Nat.cast_sum, List.sum_toFinset_count_eq_length, div_self hl]

theorem proportion_bounds {α : Type} [DecidableEq α] {y : List α} (c : α) :
    0 ≤ proportion (K := K) y c ∧ proportion (K := K) y c ≤ 1 := by
  unfold proportion
  have h0 : (0 : K) ≤ (y.length : K) := by exact_mod_cast Nat.zero_le _
  have h1 : (0 : K) ≤ (y.count c : K) := by exact_mod_cast Nat.zero_le _
  refine ⟨div_nonneg h1 h0, div_le_one_of_le₀ (by exact_mod_cast List.count_le_length) h0⟩

theorem proportion_pos {α : Type} [DecidableEq α] {y : List α} {c : α} (hc : c ∈ y) : 0 < proportion (K := K) y c := by
  unfold proportion
  have h1 : (0 : K) < (y.count c : K) := by exact_mod_cast List.count_pos_iff.2 hc
  have h2 : (0 : K) < (y.length : K) := by exact_mod_cast List.length_pos_of_mem hc
  exact div_pos h1 h2

theorem proportion_one {α : Type} [DecidableEq α] {y : List α} (hne : y ≠ []) {c : α} :
    proportion (K := K) y c = 1 ↔ ∀ l ∈ y, l = c := by
  have h2 : (y.length : K) ≠ 0 := by
    have h : (0 : K) < y.length := by exact_mod_cast List.length_pos_of_ne_nil hne
    exact h.ne'
  unfold proportion
  rw [div_eq_one_iff_eq h2, Nat.cast_inj, List.count_eq_length]
  exact ⟨fun h l hl => (h l hl).symm, fun h l hl => (h l hl).symm⟩

theorem giniImpurity_eq {α : Type} [DecidableEq α] {y : List α} (hne : y ≠ []) :
    giniImpurity (K := K) y = (y.dedup.map fun c => proportion (K := K) y c * (1 - proportion y c)).sum := by
  unfold giniImpurity
  have h1 := sum_proportion (K := K) hne
  rw [sum_dedup_eq] at h1 ⊢
  rw [sum_dedup_eq]
  conv_lhs => rw [← h1, ← Finset.sum_sub_distrib]
  apply Finset.sum_congr rfl
  intro c _
  ring

theorem giniLoss_spec {labels y : List Int} (hn : labels.Nodup) (hne : y ≠ []) (hsub : ∀ l ∈ y, l ∈ labels) :
    (giniLoss (K := K) labels y).1 = giniImpurity y ∧ IsMode y (giniLoss (K := K) labels y).2 := by
  have e : giniLoss (K := K) labels y = _ := pairFold labels
    (fun l => (((convertToMap y labels).get? l).getD 0 : K) / (y.length : K) *
      (1 - (((convertToMap y labels).get? l).getD 0 : K) / (y.length : K))) (modeStep (convertToMap y labels)) 0 0
  rw [e]
  refine ⟨?_, mode_spec hne hsub⟩
  simp only [convertToMap_get]
  rw [giniImpurity_eq hne, zero_add]
  apply sum_labels hn hsub
  intro l hl
  rw [List.count_eq_zero_of_not_mem hl]
  simp

theorem entropyLoss_spec (lg : K → K) {labels y : List Int} (hn : labels.Nodup) (hne : y ≠ []) (hsub : ∀ l ∈ y, l ∈ labels) :
    (entropyLoss lg labels y).1 = entropyImpurity lg y ∧ IsMode y (entropyLoss lg labels y).2 := by
  have e : entropyLoss lg labels y = _ := pairFold labels
    (fun l => -((((convertToMap y labels).get? l).getD 0 : K) / (y.length : K)) *
      (if (((convertToMap y labels).get? l).getD 0 : K) / (y.length : K) = 0 then 0
        else lg ((((convertToMap y labels).get? l).getD 0 : K) / (y.length : K)))) (modeStep (convertToMap y labels)) 0 0
  rw [e]
  refine ⟨?_, mode_spec hne hsub⟩
  simp only [convertToMap_get]
  rw [zero_add, sum_labels hn hsub _ (by
    intro l hl
    rw [List.count_eq_zero_of_not_mem hl]
    simp)]
  unfold entropyImpurity
  rw [sum_dedup_eq, sum_dedup_eq, ← Finset.sum_neg_distrib]
  apply Finset.sum_congr rfl
  intro c hc
  have : proportion (K := K) y c ≠ 0 := (proportion_pos (List.mem_toFinset.1 hc)).ne'
  have h' : ((y.count c : Nat) : K) / (y.length : K) ≠ 0 := this
  rw [if_neg h']
  unfold proportion
  ring

theorem proportion_perm {α : Type} [DecidableEq α] {y y' : List α} (h : y.Perm y') (c : α) :
    proportion (K := K) y c = proportion y' c := by
  unfold proportion
  rw [h.count_eq, h.length_eq]

theorem gini_perm {α : Type} [DecidableEq α] {y y' : List α} (h : y.Perm y') :
    giniImpurity (K := K) y = giniImpurity y' := by
  unfold giniImpurity
  rw [sum_dedup_eq, sum_dedup_eq, List.toFinset_eq_of_perm _ _ h]
  simp only [proportion_perm h]

theorem entropy_perm {α : Type} [DecidableEq α] (lg : K → K) {y y' : List α} (h : y.Perm y') :
    entropyImpurity lg y = entropyImpurity lg y' := by
  unfold entropyImpurity
  rw [sum_dedup_eq, sum_dedup_eq, List.toFinset_eq_of_perm _ _ h]
  simp only [proportion_perm h]

theorem gini_nonneg {α : Type} [DecidableEq α] {y : List α} (hne : y ≠ []) : 0 ≤ giniImpurity (K := K) y := by
  rw [giniImpurity_eq hne, sum_dedup_eq]
  apply Finset.sum_nonneg
  intro c _
  obtain ⟨h1, h2⟩ := proportion_bounds (K := K) (y := y) c
  exact mul_nonneg h1 (sub_nonneg.2 h2)

theorem gini_lt_one {α : Type} [DecidableEq α] {y : List α} (hne : y ≠ []) : giniImpurity (K := K) y < 1 := by
  unfold giniImpurity
  rw [sum_dedup_eq]
  obtain ⟨c, hc⟩ := List.exists_mem_of_ne_nil y hne
  have : 0 < ∑ c ∈ y.toFinset, proportion (K := K) y c * proportion y c := by
    apply Finset.sum_pos
    · intro c hc
      have := proportion_pos (K := K) (List.mem_toFinset.1 hc)
      exact mul_pos this this
    · exact ⟨c, List.mem_toFinset.2 hc⟩
  linarith

theorem gini_zero {α : Type} [DecidableEq α] {y : List α} (hne : y ≠ []) :
    giniImpurity (K := K) y = 0 ↔ ∃ c, ∀ l ∈ y, l = c := by
  rw [giniImpurity_eq hne, sum_dedup_eq, Finset.sum_eq_zero_iff_of_nonneg (by
    intro c _
    obtain ⟨h1, h2⟩ := proportion_bounds (K := K) (y := y) c
    exact mul_nonneg h1 (sub_nonneg.2 h2))]
  constructor
  · intro h
    obtain ⟨c, hc⟩ := List.exists_mem_of_ne_nil y hne
    refine ⟨c, ?_⟩
    have := h c (List.mem_toFinset.2 hc)
    rcases mul_eq_zero.1 this with h | h
    · exact absurd h (proportion_pos hc).ne'
    · exact (proportion_one hne).1 (sub_eq_zero.1 h).symm
  · rintro ⟨c, hc⟩ d hd
    have : d = c := hc d (List.mem_toFinset.1 hd)
    subst this
    rw [(proportion_one hne).2 hc]
    ring

theorem entropy_term {α : Type} [DecidableEq α] {lg : K → K} (hlg : Logarithm lg) {y : List α} {c : α} (hc : c ∈ y) :
    proportion (K := K) y c * lg (proportion y c) ≤ 0 ∧
      (proportion (K := K) y c * lg (proportion y c) = 0 → proportion (K := K) y c = 1) := by
  have h1 := proportion_pos (K := K) hc
  rcases (proportion_bounds (K := K) (y := y) c).2.eq_or_lt with h | h
  · refine ⟨?_, fun _ => h⟩
    have : lg 1 = 0 := by
      have := hlg.mul 1 1 one_pos one_pos
      rw [mul_one] at this
      linarith
    rw [h, this, mul_zero]
  · have := hlg.neg _ h1 h
    have h3 := mul_neg_of_pos_of_neg h1 this
    exact ⟨h3.le, fun e => absurd e h3.ne⟩

theorem entropy_nonneg {α : Type} [DecidableEq α] {lg : K → K} (hlg : Logarithm lg) (y : List α) :
    0 ≤ entropyImpurity lg y := by
  unfold entropyImpurity
  rw [sum_dedup_eq, ← Finset.sum_neg_distrib]
  apply Finset.sum_nonneg
  intro c hc
  have := (entropy_term hlg (List.mem_toFinset.1 hc)).1
  linarith

theorem entropy_zero {α : Type} [DecidableEq α] {lg : K → K} (hlg : Logarithm lg) {y : List α} (hne : y ≠ []) :
    entropyImpurity lg y = 0 ↔ ∃ c, ∀ l ∈ y, l = c := by
  unfold entropyImpurity
  rw [sum_dedup_eq, neg_eq_zero, Finset.sum_eq_zero_iff_of_nonpos fun c hc =>
    (entropy_term hlg (List.mem_toFinset.1 hc)).1]
  constructor
  · intro h
    obtain ⟨c, hc⟩ := List.exists_mem_of_ne_nil y hne
    exact ⟨c, (proportion_one hne).1 ((entropy_term hlg hc).2 (h c (List.mem_toFinset.2 hc)))⟩
  · rintro ⟨c, hc⟩ d hd
    have : d = c := hc d (List.mem_toFinset.1 hd)
    subst this
    rw [(proportion_one hne).2 hc]
    have : lg 1 = 0 := by
      have := hlg.mul 1 1 one_pos one_pos
      rw [mul_one] at this
      linarith
    rw [this, mul_zero]

theorem isMode_perm {y y' : List Int} {l : Int} (h : y.Perm y') (hm : IsMode y l) : IsMode y' l :=
  ⟨h.mem_iff.1 hm.1, fun c => by rw [← h.count_eq, ← h.count_eq]; exact hm.2 c⟩

theorem computes_gini (lg : K → K) {labels : List Int} (hn : labels.Nodup) :
    Computes (classLoss lg labels .gini) giniImpurity IsMode (· ∈ labels) where
  total y hne hok := by
    obtain ⟨h1, h2⟩ := giniLoss_spec (K := K) hn hne hok
    refine ⟨_, ?_, h2⟩
    simp only [classLoss, hne, if_false]
    rw [← h1]
  perm _ _ h := gini_perm h
  nonneg _ h := gini_nonneg h
  pickPerm _ _ _ h hm := isMode_perm h hm

theorem computes_entropy {lg : K → K} (hlg : Logarithm lg) {labels : List Int} (hn : labels.Nodup) :
    Computes (classLoss lg labels .entropy) (entropyImpurity lg) IsMode (· ∈ labels) where
  total y hne hok := by
    obtain ⟨h1, h2⟩ := entropyLoss_spec lg hn hne hok
    refine ⟨_, ?_, h2⟩
    simp only [classLoss, hne, if_false]
    rw [← h1]
  perm _ _ h := entropy_perm lg h
  nonneg y _ := entropy_nonneg hlg y
  pickPerm _ _ _ h hm := isMode_perm h hm

/-! ## Regression -/

omit [IsStrictOrderedRing K] [LinearOrder K] in
theorem averageOf_eq (y : List K) : averageOf y = meanK y := by
  unfold averageOf meanK
  rw [foldl_add_sum, zero_add]

theorem foldl_map_sum {α : Type} (l : List α) (g : α → K) (a : K) :
    l.foldl (fun e t => e + g t) a = a + (l.map g).sum := by
  induction l generalizing a with
  | nil => simp
  | cons x xs ih => rw [List.foldl_cons, ih, List.map_cons, List.sum_cons, add_assoc]

theorem meanAbsErr_eq (y : List K) : meanAbsErr y (averageOf y) = maeImpurity y := by
  unfold meanAbsErr maeImpurity
  rw [foldl_map_sum, zero_add, averageOf_eq]
  conv_rhs => rw [meanK]
  rw [List.length_map]
  congr 2
  apply List.map_congr_left
  intro x _
  split
  · rename_i h; rw [abs_of_neg h]
  · rename_i h; rw [abs_of_nonneg (not_lt.1 h)]

theorem meanSqErr_eq (y : List K) : meanSqErr y (averageOf y) = mseImpurity y := by
  unfold meanSqErr mseImpurity
  rw [foldl_map_sum, zero_add, averageOf_eq]
  conv_rhs => rw [meanK]
  rw [List.length_map]

omit [IsStrictOrderedRing K] [LinearOrder K] in
theorem meanK_perm {y y' : List K} (h : y.Perm y') : meanK y = meanK y' := by
  unfold meanK
  rw [h.sum_eq, h.length_eq]

theorem meanK_nonneg {y : List K} (h : ∀ x ∈ y, 0 ≤ x) : 0 ≤ meanK y :=
  div_nonneg (List.sum_nonneg h) (by exact_mod_cast Nat.zero_le _)

theorem meanK_zero {y : List K} (hne : y ≠ []) (h : ∀ x ∈ y, 0 ≤ x) : meanK y = 0 ↔ ∀ x ∈ y, x = 0 := by
  have hl : (y.length : K) ≠ 0 := by
    have h : (0 : K) < y.length := by exact_mod_cast List.length_pos_of_ne_nil hne
    exact h.ne'
  unfold meanK
  rw [div_eq_zero_iff, or_iff_left hl]
  clear hne hl
  induction y with
  | nil => simp
  | cons x xs ih =>
    have hxs : ∀ z ∈ xs, 0 ≤ z := fun z hz => h z (by simp [hz])
    rw [List.sum_cons, add_eq_zero_iff_of_nonneg (h x (by simp)) (List.sum_nonneg hxs), List.forall_mem_cons]
    exact and_congr Iff.rfl (ih hxs)

theorem mae_perm {y y' : List K} (h : y.Perm y') : maeImpurity y = maeImpurity y' := by
  unfold maeImpurity
  rw [meanK_perm h]
  exact meanK_perm (h.map _)

theorem mse_perm {y y' : List K} (h : y.Perm y') : mseImpurity y = mseImpurity y' := by
  unfold mseImpurity
  rw [meanK_perm h]
  exact meanK_perm (h.map _)

theorem mae_nonneg (y : List K) : 0 ≤ maeImpurity y :=
  meanK_nonneg fun x hx => by obtain ⟨z, _, rfl⟩ := List.mem_map.1 hx; exact abs_nonneg _

theorem mse_nonneg (y : List K) : 0 ≤ mseImpurity y :=
  meanK_nonneg fun x hx => by obtain ⟨z, _, rfl⟩ := List.mem_map.1 hx; exact mul_self_nonneg _

theorem meanK_const {y : List K} (hne : y ≠ []) {c : K} (h : ∀ x ∈ y, x = c) : meanK y = c := by
  have hl : (y.length : K) ≠ 0 := by
    have h : (0 : K) < y.length := by exact_mod_cast List.length_pos_of_ne_nil hne
    exact h.ne'
  rw [List.eq_replicate_of_mem h] at hl ⊢
  unfold meanK
  rw [List.sum_replicate, nsmul_eq_mul, List.length_replicate]
  rw [List.length_replicate] at hl
  field_simp

theorem mae_zero {y : List K} (hne : y ≠ []) : maeImpurity y = 0 ↔ ∃ c, ∀ x ∈ y, x = c := by
  unfold maeImpurity
  rw [meanK_zero (by simpa using hne) fun x hx => by
    obtain ⟨z, _, rfl⟩ := List.mem_map.1 hx; exact abs_nonneg _]
  constructor
  · intro h
    refine ⟨meanK y, fun x hx => ?_⟩
    have := h _ (List.mem_map.2 ⟨x, hx, rfl⟩)
    rwa [abs_eq_zero, sub_eq_zero] at this
  · rintro ⟨c, hc⟩ z hz
    obtain ⟨x, hx, rfl⟩ := List.mem_map.1 hz
    rw [meanK_const hne hc, hc x hx, sub_self, abs_zero]

theorem mse_zero {y : List K} (hne : y ≠ []) : mseImpurity y = 0 ↔ ∃ c, ∀ x ∈ y, x = c := by
  unfold mseImpurity
  rw [meanK_zero (by simpa using hne) fun x hx => by
    obtain ⟨z, _, rfl⟩ := List.mem_map.1 hx; exact mul_self_nonneg _]
  constructor
  · intro h
    refine ⟨meanK y, fun x hx => ?_⟩
    have := h _ (List.mem_map.2 ⟨x, hx, rfl⟩)
    rwa [mul_self_eq_zero, sub_eq_zero] at this
  · rintro ⟨c, hc⟩ z hz
    obtain ⟨x, hx, rfl⟩ := List.mem_map.1 hz
    rw [meanK_const hne hc, hc x hx, sub_self, mul_zero]

theorem computes_mae : Computes (K := K) (regLoss .mae) maeImpurity (fun y l => l = meanK y) (fun _ => True) where
  total y hne _ := ⟨meanK y, by simp only [regLoss, hne, if_false]; rw [meanAbsErr_eq, averageOf_eq], rfl⟩
  perm _ _ h := mae_perm h
  nonneg y _ := mae_nonneg y
  pickPerm _ _ _ h hm := hm.trans (meanK_perm h)

theorem computes_mse : Computes (K := K) (regLoss .mse) mseImpurity (fun y l => l = meanK y) (fun _ => True) where
  total y hne _ := ⟨meanK y, by simp only [regLoss, hne, if_false]; rw [meanSqErr_eq, averageOf_eq], rfl⟩
  perm _ _ h := mse_perm h
  nonneg y _ := mse_nonneg y
  pickPerm _ _ _ h hm := hm.trans (meanK_perm h)
end

end Golearn
