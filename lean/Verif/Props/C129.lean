import Verif.Props.C128
import Verif.Props.C45
import Verif.Proofs.FloatNear

/-! # C129: averages and regression losses with `float64` rounding -/

namespace Golearn

theorem mean64_some {y : List ℚ} (hne : y ≠ []) (hl : y.length ≤ 2 ^ 53) :
    mean64 y = some (round64 (fadds y / y.length)) := by
  have hlen : ofInt64 y.length = (y.length : ℚ) := round64_fix (isF64_nat hl)
  unfold mean64 fquo
  rw [hlen, if_neg]
  simpa using hne

/-- The prediction of a k-nearest-neighbours regressor is the computed average of the values of `k` nearest
rows. -/
theorem C129_knn (sortKeys : (Nat → ℚ) → List Nat → List Nat) (hs : SortsKeys sortKeys) (dist : List ℚ → List ℚ → ℚ)
    (data : List (List ℚ)) (values : List ℚ) (x : List ℚ) (k : Nat) (hk : k ≤ data.length) :
    ∃ out : List (Nat × ℚ), Nearest data (fun a b => dist b a) x k out ∧
      knnRegress64 sortKeys dist data values x k = Res.ok (mean64 (out.map fun p => values.getD p.1 0)) := by
  obtain ⟨out, h1, h2, hsl⟩ := regress_nearest sortKeys hs dist data x k hk
  refine ⟨out, h1, ?_⟩
  unfold knnRegress64 mean64
  simp only [hsl]
  rw [if_neg (by omega), List.length_map, h1.length, ← h2, List.map_map]
  rfl

/-- Full claim: the average of `float64` values lies between bounds of the values. -/
def C129_full : Prop :=
  ∀ (y : List ℚ) (lo hi m : ℚ), (∀ v ∈ y, IsF64 v ∧ lo ≤ v ∧ v ≤ hi) → y.length ≤ 2 ^ 53 → mean64 y = some m →
    lo ≤ m ∧ m ≤ hi


/-- Missing: the full claim, which fails (`C129_refuted`). What holds for all values: the computed average is off
the exact mean by a relative error of about `(n + 1) * 2^-53` of the mean of the absolute values; it has the sign
of the values. -/
theorem C129_error_partial (y : List ℚ) (hF : ∀ v ∈ y, IsF64 v) (hl : y.length ≤ 2 ^ 53) (m : ℚ) (hm : mean64 y = some m) :
    |m - meanOf y| ≤ ((1 + 1 / 2 ^ 53) ^ (y.length + 1) - 1) * meanOf (y.map abs) + 2 ^ (-1075 : ℤ) ∧
    ((∀ v ∈ y, 0 ≤ v) → 0 ≤ m) ∧ ((∀ v ∈ y, v ≤ 0) → m ≤ 0) := by
  refine ⟨mean64_error hF hl hm, ?_, ?_⟩
  · intro h
    have hs : ∀ (l : List ℚ) (a : ℚ), 0 ≤ a → (∀ v ∈ l, 0 ≤ v) → 0 ≤ l.foldl fadd a := by
      intro l
      induction l with
      | nil => intro a ha _; exact ha
      | cons v l ih =>
        intro a ha hv
        exact ih _ (round64_nonneg (add_nonneg ha (hv v (by simp)))) fun w hw => hv w (by simp [hw])
    have hy : y ≠ [] := by
      rintro rfl
      simp [mean64, fquo, ofInt64, round64_zero] at hm
    rw [mean64_some hy hl, Option.some.injEq] at hm
    rw [← hm]
    exact round64_nonneg (div_nonneg (hs y 0 le_rfl h) (by positivity))
  · intro h
    have hs : ∀ (l : List ℚ) (a : ℚ), a ≤ 0 → (∀ v ∈ l, v ≤ 0) → l.foldl fadd a ≤ 0 := by
      intro l
      induction l with
      | nil => intro a ha _; exact ha
      | cons v l ih =>
        intro a ha hv
        exact ih _ (round64_le isF64_zero (add_nonpos ha (hv v (by simp)))) fun w hw => hv w (by simp [hw])
    have hy : y ≠ [] := by
      rintro rfl
      simp [mean64, fquo, ofInt64, round64_zero] at hm
    rw [mean64_some hy hl, Option.some.injEq] at hm
    rw [← hm]
    exact round64_le isF64_zero (div_nonpos_of_nonpos_of_nonneg (hs y 0 le_rfl h) (by positivity))

/-- Missing: values that are not whole. The average of whole numbers is the exact mean rounded once, and lies between
the values, if the absolute values add up to at most 2^53. -/
theorem C129_whole_partial (z : List ℤ) (hz : (z.map abs).sum ≤ 2 ^ 53) (hne : z ≠ []) (hl : z.length ≤ 2 ^ 53) :
    mean64 (z.map fun n : ℤ => (n : ℚ)) = some (round64 (meanOf (z.map fun n : ℤ => (n : ℚ)))) ∧
    ∀ lo hi : ℤ, (∀ n ∈ z, lo ≤ n ∧ n ≤ hi) → ∀ m, mean64 (z.map fun n : ℤ => (n : ℚ)) = some m → (lo : ℚ) ≤ m ∧ m ≤ hi := by
  have hpos : (0 : ℚ) < z.length := by exact_mod_cast List.length_pos_iff.2 hne
  have hsum : fadds (z.map fun n : ℤ => (n : ℚ)) = (z.sum : ℚ) := by
    have := foldl_fadd_int z 0 (by rw [abs_zero, zero_add]; exact hz)
    simpa [fadds] using this
  have hcast : ∀ l : List ℤ, (l.map fun n : ℤ => (n : ℚ)).sum = ((l.sum : ℤ) : ℚ) := by
    intro l
    induction l with
    | nil => simp
    | cons a l ih => rw [List.map_cons, List.sum_cons, ih, List.sum_cons]; push_cast; rfl
  have hm : mean64 (z.map fun n : ℤ => (n : ℚ)) = some (round64 (meanOf (z.map fun n : ℤ => (n : ℚ)))) := by
    rw [mean64_some (by simpa using hne) (by rw [List.length_map]; exact hl), hsum]
    unfold meanOf
    rw [hcast]
  refine ⟨hm, ?_⟩
  intro lo hi hb m hme
  rw [hm, Option.some.injEq] at hme
  have habs : ∀ n ∈ z, |n| ≤ 2 ^ 53 := by
    intro n hn
    exact le_trans (List.single_le_sum (by
      intro y hy
      obtain ⟨w, _, rfl⟩ := List.mem_map.1 hy
      exact abs_nonneg w) _ (List.mem_map.2 ⟨n, hn, rfl⟩)) hz
  -- the tightest bounds are values, so they are `float64`s
  obtain ⟨mn, hmn, hmn'⟩ : ∃ mn ∈ z, ∀ n ∈ z, mn ≤ n := by
    have : ∀ l : List ℤ, l ≠ [] → ∃ mn ∈ l, ∀ n ∈ l, mn ≤ n := by
      intro l
      induction l with
      | nil => intro h; exact absurd rfl h
      | cons a l ih =>
        intro _
        by_cases hl : l = []
        · exact ⟨a, by simp, by simp [hl]⟩
        · obtain ⟨b, hb, hb'⟩ := ih hl
          rcases le_total a b with h | h
          · exact ⟨a, by simp, by
              intro n hn
              rcases List.mem_cons.1 hn with rfl | hn
              · exact le_rfl
              · exact h.trans (hb' n hn)⟩
          · exact ⟨b, by simp [hb], by
              intro n hn
              rcases List.mem_cons.1 hn with rfl | hn
              · exact h
              · exact hb' n hn⟩
    exact this z hne
  obtain ⟨mx, hmx, hmx'⟩ : ∃ mx ∈ z, ∀ n ∈ z, n ≤ mx := by
    have : ∀ l : List ℤ, l ≠ [] → ∃ mn ∈ l, ∀ n ∈ l, n ≤ mn := by
      intro l
      induction l with
      | nil => intro h; exact absurd rfl h
      | cons a l ih =>
        intro _
        by_cases hl : l = []
        · exact ⟨a, by simp, by simp [hl]⟩
        · obtain ⟨b, hb, hb'⟩ := ih hl
          rcases le_total b a with h | h
          · exact ⟨a, by simp, by
              intro n hn
              rcases List.mem_cons.1 hn with rfl | hn
              · exact le_rfl
              · exact (hb' n hn).trans h⟩
          · exact ⟨b, by simp [hb], by
              intro n hn
              rcases List.mem_cons.1 hn with rfl | hn
              · exact h
              · exact hb' n hn⟩
    exact this z hne
  have kq : (z.length : ℚ) * mn ≤ ((z.sum : ℤ) : ℚ) ∧ ((z.sum : ℤ) : ℚ) ≤ z.length * mx := by
    have : ∀ l : List ℤ, (∀ n ∈ l, mn ≤ n ∧ n ≤ mx) → (l.length : ℤ) * mn ≤ l.sum ∧ l.sum ≤ l.length * mx := by
      intro l
      induction l with
      | nil => intro _; simp
      | cons a l ih =>
        intro hl
        obtain ⟨i1, i2⟩ := ih fun n hn => hl n (by simp [hn])
        obtain ⟨a1, a2⟩ := hl a (by simp)
        rw [List.length_cons, List.sum_cons]
        push_cast
        constructor <;> linarith
    obtain ⟨k1, k2⟩ := this z fun n hn => ⟨hmn' n hn, hmx' n hn⟩
    constructor
    · exact_mod_cast k1
    · exact_mod_cast k2
  have hmv : meanOf (z.map fun n : ℤ => (n : ℚ)) = (z.sum : ℤ) / (z.length : ℚ) := by
    unfold meanOf
    rw [hcast, List.length_map]
  rw [← hme, hmv]
  constructor
  · have : (mn : ℚ) ≤ round64 ((z.sum : ℤ) / (z.length : ℚ)) :=
      le_round64 (isF64_int (habs mn hmn)) (by rw [le_div_iff₀ hpos, mul_comm]; exact kq.1)
    exact le_trans (by exact_mod_cast (hb mn hmn).1) this
  · have : round64 ((z.sum : ℤ) / (z.length : ℚ)) ≤ (mx : ℚ) :=
      round64_le (isF64_int (habs mx hmx)) (by rw [div_le_iff₀ hpos, mul_comm]; exact kq.2)
    exact le_trans this (by exact_mod_cast (hb mx hmx).2)

/-- Missing: more than two values. The average of one or two values lies between them. -/
theorem C129_two_partial (a b : ℚ) (ha : IsF64 a) (hb : IsF64 b) (hab : a ≤ b) :
    mean64 [a] = some a ∧ ∃ m, mean64 [a, b] = some m ∧ mean64 [b, a] = some m ∧ a ≤ m ∧ m ≤ b := by
  have h1 : ofInt64 1 = 1 := by
    have := round64_fix (isF64_nat (n := 1) (by norm_num))
    simpa [ofInt64] using this
  have h2 : ofInt64 2 = 2 := by
    have := round64_fix (isF64_nat (n := 2) (by norm_num))
    simpa [ofInt64] using this
  have z : ∀ x, IsF64 x → fadd 0 x = x := fun x hx => by unfold fadd; rw [zero_add]; exact round64_fix hx
  have m2 : ∀ x y, IsF64 x → mean64 [x, y] = some (round64 (fadd x y / 2)) := by
    intro x y hx
    simp only [mean64, fadds, List.foldl_cons, List.foldl_nil, List.length_cons, List.length_nil, z x hx]
    norm_num [fquo, h2]
  refine ⟨?_, midpoint64 a b, m2 a b ha, ?_, ?_, ?_⟩
  · simp only [mean64, fadds, List.foldl_cons, List.foldl_nil, List.length_cons, List.length_nil, z a ha]
    norm_num [fquo, h1, round64_fix ha]
  · rw [m2 b a hb]; unfold midpoint64 fadd; rw [add_comm]
  · apply le_round64 ha
    have := le_round64 (isF64_double ha) (x := a + b) (by linarith)
    unfold fadd; linarith
  · apply round64_le hb
    have := round64_le (isF64_double hb) (x := a + b) (by linarith)
    unfold fadd; linarith

/-- The `float64` written 0.1. -/
def tenth64 : ℚ := 3602879701896397 / 2 ^ 55

theorem tenth64_isF64 : IsF64 tenth64 := ⟨3602879701896397, -55, by norm_num, by norm_num, by norm_num [tenth64]⟩

theorem tenth64_is : round64 (1 / 10) = tenth64 := by
  rw [round64_eq (x := 1 / 10) (-56) 7205759403792794 (by norm_num) (by norm_num) (by norm_num)
    (Or.inl (by norm_num [abs_lt]))]
  norm_num [tenth64]

/-- Three values 0.1: the sum is rounded up, and so is the quotient. -/
theorem three_tenths : mean64 [tenth64, tenth64, tenth64] = some (7205759403792795 / 2 ^ 56) := by
  have h3 : ofInt64 3 = 3 := by
    have := round64_fix (isF64_nat (n := 3) (by norm_num))
    simpa [ofInt64] using this
  have s1 : fadd 0 tenth64 = tenth64 := by unfold fadd; rw [zero_add]; exact round64_fix tenth64_isF64
  have s2 : fadd tenth64 tenth64 = 2 * tenth64 := by
    unfold fadd; rw [← two_mul]; exact round64_fix (isF64_double tenth64_isF64)
  have s3 : fadd (2 * tenth64) tenth64 = 1351079888211149 / 2 ^ 52 := by
    unfold fadd
    rw [round64_eq (-54) 5404319552844596 (by norm_num [tenth64, abs_of_pos]) (by norm_num [tenth64, abs_of_pos]) (by norm_num)
      (Or.inr ⟨by norm_num [tenth64, abs_of_pos], by norm_num⟩)]
    norm_num
  have s4 : round64 (1351079888211149 / 2 ^ 52 / 3) = 7205759403792795 / 2 ^ 56 := by
    rw [round64_eq (-56) 7205759403792795 (by norm_num [abs_of_pos]) (by norm_num [abs_of_pos]) (by norm_num)
      (Or.inl (by norm_num [abs_lt]))]
    norm_num
  simp only [mean64, fadds, List.foldl_cons, List.foldl_nil, List.length_cons, List.length_nil, s1, s2, s3]
  norm_num [fquo, h3]
  norm_num at s4
  exact s4

/-- The full claim fails: the average of three times 0.1 is greater than 0.1. -/
theorem C129_refuted : ¬ C129_full := by
  intro h
  have := (h [tenth64, tenth64, tenth64] tenth64 tenth64 _ (by
    intro v hv
    have : v = tenth64 := by simpa using hv
    subst this
    exact ⟨tenth64_isF64, le_rfl, le_rfl⟩) (by norm_num) three_tenths).2
  norm_num [tenth64] at this

/-! ### Losses of regression trees -/

theorem foldl_fadd_nonneg (l : List ℚ) (a : ℚ) (ha : 0 ≤ a) (h : ∀ v ∈ l, 0 ≤ v) : 0 ≤ l.foldl fadd a := by
  induction l generalizing a with
  | nil => exact ha
  | cons v l ih => exact ih _ (round64_nonneg (add_nonneg ha (h v (by simp)))) fun w hw => h w (by simp [hw])

theorem fquo_nonneg {a b x : ℚ} (ha : 0 ≤ a) (hb : 0 ≤ b) (h : fquo a b = some x) : 0 ≤ x := by
  unfold fquo at h
  split at h
  · cases h
  · rw [Option.some.injEq] at h
    rw [← h]
    exact round64_nonneg (div_nonneg ha hb)

theorem ofInt64_nonneg (n : Nat) : 0 ≤ ofInt64 n := round64_nonneg (by positivity)

/-- Both losses, and the weighted loss of a split, are never negative; a node of one row has loss zero, and so has a
node of two rows with the same value. -/
theorem C129_losses (y : List ℚ) :
    (∀ e, maeLoss64 y = some e → 0 ≤ e) ∧ (∀ e, mseLoss64 y = some e → 0 ≤ e) ∧
    (∀ l r s nl nr n, 0 ≤ l → 0 ≤ r → subLoss64 l r nl nr n = some s → 0 ≤ s) ∧
    ∀ v, IsF64 v → (y = [v] ∨ y = [v, v]) → maeLoss64 y = some 0 ∧ mseLoss64 y = some 0 := by
  refine ⟨?_, ?_, ?_, ?_⟩
  · intro e he
    obtain ⟨m, _, he⟩ := Option.bind_eq_some_iff.1 he
    exact fquo_nonneg (foldl_fadd_nonneg _ 0 le_rfl (by
      intro v hv
      obtain ⟨t, _, rfl⟩ := List.mem_map.1 hv
      exact abs_nonneg _)) (ofInt64_nonneg _) he
  · intro e he
    obtain ⟨m, _, he⟩ := Option.bind_eq_some_iff.1 he
    exact fquo_nonneg (foldl_fadd_nonneg _ 0 le_rfl (by
      intro v hv
      obtain ⟨t, _, rfl⟩ := List.mem_map.1 hv
      exact round64_nonneg (mul_self_nonneg _))) (ofInt64_nonneg _) he
  · intro l r s nl nr n hl hr hs
    obtain ⟨a, ha, hs⟩ := Option.bind_eq_some_iff.1 hs
    obtain ⟨b, hb, rfl⟩ := Option.map_eq_some_iff.1 hs
    exact round64_nonneg (add_nonneg
      (fquo_nonneg (round64_nonneg (mul_nonneg hl (ofInt64_nonneg _))) (ofInt64_nonneg _) ha)
      (fquo_nonneg (round64_nonneg (mul_nonneg hr (ofInt64_nonneg _))) (ofInt64_nonneg _) hb))
  · intro v hv hy
    have h1 : ofInt64 1 = 1 := by
      have := round64_fix (isF64_nat (n := 1) (by norm_num))
      simpa [ofInt64] using this
    have h2 : ofInt64 2 = 2 := by
      have := round64_fix (isF64_nat (n := 2) (by norm_num))
      simpa [ofInt64] using this
    have hm : mean64 y = some v := by
      obtain ⟨e1, m, e2, _, l1, l2⟩ := C129_two_partial v v hv hv le_rfl
      rcases hy with rfl | rfl
      · exact e1
      · rw [e2, le_antisymm l2 l1]
    have hz : fadd 0 0 = 0 := by unfold fadd; rw [add_zero]; exact round64_zero
    have hmul : fmul 0 0 = 0 := by unfold fmul; rw [mul_zero]; exact round64_zero
    have hsub : fsub v v = 0 := by unfold fsub; rw [sub_self]; exact round64_zero
    unfold maeLoss64 mseLoss64
    rw [hm]
    rcases hy with rfl | rfl <;>
      simp [meanAbsErr64, meanSqErr64, fadds, hsub, hmul, hz, fquo, h1, h2, round64_zero]

/-- The losses are what their names say, up to rounding: the mean of the absolute, of the squared deviations from the
computed average `m`, and the mean of the losses of two sides weighted by their numbers of rows. -/
theorem C129_losses_error (y : List ℚ) (hF : ∀ t ∈ y, IsF64 t) (hn : y.length ≤ 2 ^ 53) :
    (maeLoss64 y = none ↔ y = []) ∧ (mseLoss64 y = none ↔ y = []) ∧
    (∀ m e, mean64 y = some m → maeLoss64 y = some e →
      |e - (y.map fun t => |t - m|).sum / y.length| ≤
        ((1 + 1 / 2 ^ 53) ^ (y.length + 2) - 1) * ((y.map fun t => |t - m|).sum / y.length) + 2 ^ (-1075 : ℤ)) ∧
    (∀ m e, mean64 y = some m → mseLoss64 y = some e →
      |e - (y.map fun t => (t - m) ^ 2).sum / y.length| ≤
        ((1 + 1 / 2 ^ 53) ^ (y.length + 4) - 1) * ((y.map fun t => (t - m) ^ 2).sum / y.length) +
          2 * 2 ^ (-1075 : ℤ) * (1 + 1 / 2 ^ 53) ^ (y.length + 1)) ∧
    ∀ l r s nl nr n, 0 ≤ l → 0 ≤ r → nl ≤ 2 ^ 53 → nr ≤ 2 ^ 53 → n ≤ 2 ^ 53 → subLoss64 l r nl nr n = some s →
      |s - (l * nl + r * nr) / n| ≤ ((1 + 1 / 2 ^ 53) ^ 3 - 1) * ((l * nl + r * nr) / n) + 2 ^ (-1072 : ℤ) := by
  have hl : ofInt64 y.length = y.length := round64_fix (isF64_nat hn)
  have hq : ∀ a : ℚ, fquo a (ofInt64 y.length) = none ↔ y = [] := by
    intro a
    unfold fquo
    rw [hl]
    by_cases h : y = []
    · simp [h]
    · have : (y.length : ℚ) ≠ 0 := by
        have : y.length ≠ 0 := fun e => h (List.length_eq_zero_iff.1 e)
        exact_mod_cast this
      simp [h]
  have hmF : ∀ m, mean64 y = some m → IsF64 m := by
    intro m hm
    unfold mean64 fquo at hm
    split at hm
    · cases hm
    · cases hm; exact round64_isF64 _
  have hloss : ∀ f : ℚ → ℚ, ((mean64 y).bind fun m => fquo (f m) (ofInt64 y.length)) = none ↔ y = [] := by
    intro f
    rcases h : mean64 y with _ | m
    · simp [(hq _).1 h]
    · have hne : y ≠ [] := by
        intro e
        have := (hq (fadds y)).2 e
        unfold mean64 at h
        rw [this] at h
        cases h
      rw [Option.bind_some, hq]
  refine ⟨hloss _, hloss _, ?_, ?_, ?_⟩
  · intro m e hm he
    unfold maeLoss64 at he
    rw [hm] at he
    exact meanAbsErr64_near hF (hmF m hm) hn he
  · intro m e hm he
    unfold mseLoss64 at he
    rw [hm] at he
    exact meanSqErr64_near hF (hmF m hm) hn he
  · intro l r s nl nr n hl hr h1 h2 h3 hs
    exact subLoss64_near hl hr h1 h2 h3 hs

/-- Full claim: a node in which all rows have the same value has loss zero, so that no split of it is an improvement. -/
def C129_constant_full : Prop :=
  ∀ (n : Nat) (v e : ℚ), IsF64 v → maeLoss64 (List.replicate n v) = some e → e = 0

/-- It fails for three rows with the value 0.1: the loss is positive, and splitting off one row gives loss zero,
which the tree takes for an improvement. -/
theorem C129_constant_refuted :
    (∃ e, maeLoss64 [tenth64, tenth64, tenth64] = some e ∧ 0 < e ∧ ∃ l r s, maeLoss64 [tenth64] = some l ∧
      maeLoss64 [tenth64, tenth64] = some r ∧ subLoss64 l r 1 2 3 = some s ∧ s < e) ∧ ¬ C129_constant_full := by
  have h3 : ofInt64 3 = 3 := by
    have := round64_fix (isF64_nat (n := 3) (by norm_num))
    simpa [ofInt64] using this
  have d : fsub tenth64 (7205759403792795 / 2 ^ 56) = -(1 / 2 ^ 56) := by
    unfold fsub
    rw [show tenth64 - 7205759403792795 / 2 ^ 56 = -(1 / 2 ^ 56) by norm_num [tenth64]]
    exact round64_fix ⟨-1, -56, by norm_num, by norm_num, by norm_num⟩
  have hpos : ∃ e, maeLoss64 [tenth64, tenth64, tenth64] = some e ∧ 0 < e := by
    have a1 : fadd 0 (1 / 2 ^ 56) = 1 / 2 ^ 56 := by
      unfold fadd; rw [zero_add]; exact round64_fix ⟨1, -56, by norm_num, by norm_num, by norm_num⟩
    have a2 : fadd (1 / 2 ^ 56) (1 / 2 ^ 56) = 1 / 2 ^ 55 := by
      unfold fadd
      rw [show (1 : ℚ) / 2 ^ 56 + 1 / 2 ^ 56 = 1 / 2 ^ 55 by norm_num]
      exact round64_fix ⟨1, -55, by norm_num, by norm_num, by norm_num⟩
    have a3 : fadd (1 / 2 ^ 55) (1 / 2 ^ 56) = 3 / 2 ^ 56 := by
      unfold fadd
      rw [show (1 : ℚ) / 2 ^ 55 + 1 / 2 ^ 56 = 3 / 2 ^ 56 by norm_num]
      exact round64_fix ⟨3, -56, by norm_num, by norm_num, by norm_num⟩
    refine ⟨round64 (3 / 2 ^ 56 / 3), ?_, ?_⟩
    · unfold maeLoss64
      rw [three_tenths]
      simp only [Option.bind_some, meanAbsErr64, List.map_cons, List.map_nil, d, abs_neg, abs_of_pos (show (0 : ℚ) < 1 / 2 ^ 56 by norm_num),
        fadds, List.foldl_cons, List.foldl_nil, a1, a2, a3, List.length_cons, List.length_nil]
      rw [show 0 + 1 + 1 + 1 = 3 from rfl, h3]
      unfold fquo
      rw [if_neg (by norm_num)]
    · rw [show (3 : ℚ) / 2 ^ 56 / 3 = 1 / 2 ^ 56 by norm_num,
        round64_fix ⟨1, -56, by norm_num, by norm_num, by norm_num⟩]
      norm_num
  obtain ⟨e, he, hpe⟩ := hpos
  refine ⟨⟨e, he, hpe, 0, 0, 0, ?_, ?_, ?_, hpe⟩, ?_⟩
  · exact ((C129_losses [tenth64]).2.2.2 _ tenth64_isF64 (Or.inl rfl)).1
  · exact ((C129_losses [tenth64, tenth64]).2.2.2 _ tenth64_isF64 (Or.inr rfl)).1
  · simp [subLoss64, fmul, fadd, fquo, h3, round64_zero]
  · intro h
    exact hpe.ne' (h 3 tenth64 e tenth64_isF64 he)

section Examples

/-- Whole numbers: the average of 1, 2 and 4 is 7/3 rounded once. -/
example : mean64 (([1, 2, 4] : List ℤ).map fun n : ℤ => (n : ℚ)) = some (round64 (7 / 3)) := by
  rw [(C129_whole_partial [1, 2, 4] (by decide) (by decide) (by decide)).1]
  norm_num [meanOf]

/-- A regressor with three rows and two neighbours. -/
example : ∃ m, knnRegress64 keySort (fun a b => (List.zipWith (fun x y => |x - y|) a b).sum) [[0], [5], [1]] [10, 20, 13] [1] 2 =
    Res.ok (some m) := by
  obtain ⟨out, h1, h2⟩ := C129_knn keySort (keySort_sorts) (fun a b => (List.zipWith (fun x y => |x - y|) a b).sum) [[0], [5], [1]] [10, 20, 13] [1] 2
    (by decide)
  rw [h2]
  have hl : (out.map fun p => ([10, 20, 13] : List ℚ).getD p.1 0).length = 2 := by rw [List.length_map, h1.length]
  rw [mean64_some (by intro e; rw [e] at hl; cases hl) (by rw [hl]; norm_num)]
  exact ⟨_, rfl⟩

end Examples

end Golearn
