import Verif.Props.C128
import Verif.Spec.Metrics64

/-! # C131: the distances with `float64` rounding -/

namespace Golearn

theorem mem_entries64 {r c : Nat} {g : Nat → Nat → ℚ} {v : ℚ} :
    v ∈ entries64 r c g ↔ ∃ i j, i < r ∧ j < c ∧ g i j = v := by
  unfold entries64
  simp only [List.mem_flatMap, List.mem_map, List.mem_range]
  constructor
  · rintro ⟨i, hi, j, hj, e⟩; exact ⟨i, j, hi, hj, e⟩
  · rintro ⟨i, j, hi, hj, e⟩; exact ⟨i, hi, j, hj, e⟩

theorem entries64_congr {r c : Nat} {g g' : Nat → Nat → ℚ} (h : ∀ i j, g i j = g' i j) :
    entries64 r c g = entries64 r c g' := by
  have : g = g' := funext fun i => funext fun j => h i j
  rw [this]

theorem entries64_length (r c : Nat) (g : Nat → Nat → ℚ) : (entries64 r c g).length = r * c := by
  unfold entries64
  induction r with
  | zero => simp
  | succ r ih =>
    rw [List.range_succ, List.flatMap_append, List.length_append, ih]
    simp [Nat.succ_mul]

theorem fsub_comm_abs (a b : ℚ) : |fsub a b| = |fsub b a| := by
  unfold fsub
  rw [show a - b = -(b - a) by ring, round64_neg, abs_neg]

/-- Different `float64`s have a difference that is not rounded to zero. -/
theorem fsub_eq_zero {a b : ℚ} (ha : IsF64 a) (hb : IsF64 b) : fsub a b = 0 ↔ a = b := by
  constructor
  · intro h
    have := fadd_rel ha (isF64_neg hb)
    unfold fadd at this
    rw [← sub_eq_add_neg] at this
    change |fsub a b - (a - b)| ≤ _ at this
    rw [h, zero_sub, abs_neg] at this
    have h0 : |a - b| = 0 := by
      have hn := abs_nonneg (a - b)
      by_contra hne
      have hpos : 0 < |a - b| := lt_of_le_of_ne hn (Ne.symm hne)
      have : |a - b| / 2 ^ 53 < |a - b| := div_lt_self hpos (by norm_num)
      linarith
    linarith [abs_eq_zero.1 h0]
  · rintro rfl
    unfold fsub; rw [sub_self]; exact round64_zero

theorem foldl_fadd_ge (l : List ℚ) (h : ∀ x ∈ l, 0 ≤ x ∧ IsF64 x) (a : ℚ) (ha : 0 ≤ a) (hF : IsF64 a) :
    a ≤ l.foldl fadd a ∧ ∀ x ∈ l, x ≤ l.foldl fadd a := by
  induction l generalizing a with
  | nil => exact ⟨le_rfl, by simp⟩
  | cons y l ih =>
    obtain ⟨y0, yF⟩ := h y (by simp)
    have h1 : a ≤ fadd a y := le_round64 hF (by linarith)
    have h2 : y ≤ fadd a y := le_round64 yF (by linarith)
    obtain ⟨i1, i2⟩ := ih (fun x hx => h x (by simp [hx])) (fadd a y) (ha.trans h1) (fadd_isF64 _ _)
    refine ⟨h1.trans i1, ?_⟩
    intro x hx
    rcases List.mem_cons.1 hx with rfl | hx
    · exact h2.trans i1
    · exact i2 x hx

theorem foldl_fadd_zero (l : List ℚ) (h : ∀ x ∈ l, x = 0) : l.foldl fadd 0 = 0 := by
  induction l with
  | nil => rfl
  | cons y l ih =>
    rw [List.foldl_cons, h y (by simp)]
    have : fadd 0 0 = 0 := by unfold fadd; rw [add_zero]; exact round64_zero
    rw [this]
    exact ih fun x hx => h x (by simp [hx])

theorem same_iff_entries {x y : Mat64} (hx : x.Ok) (hy : y.Ok) (h : x.sameShape y = true) :
    x.Same y ↔ ∀ v ∈ entries64 x.rows x.cols (fun i j => |fsub (x.entry i j) (y.entry i j)|), v = 0 := by
  unfold Mat64.sameShape at h
  simp only [Bool.and_eq_true, beq_iff_eq] at h
  constructor
  · rintro ⟨_, _, hs⟩ v hv
    obtain ⟨i, j, hi, hj, rfl⟩ := mem_entries64.1 hv
    rw [abs_eq_zero, fsub_eq_zero (hx i j hi hj) (hy i j (h.1 ▸ hi) (h.2 ▸ hj))]
    exact hs i j hi hj
  · intro hz
    refine ⟨h.1, h.2, ?_⟩
    intro i j hi hj
    have := hz _ (mem_entries64.2 ⟨i, j, hi, hj, rfl⟩)
    rwa [abs_eq_zero, fsub_eq_zero (hx i j hi hj) (hy i j (h.1 ▸ hi) (h.2 ▸ hj))] at this

theorem sameShape_symm (x y : Mat64) : x.sameShape y = y.sameShape x := by
  unfold Mat64.sameShape
  rw [show (x.rows == y.rows) = (y.rows == x.rows) from Bool.beq_comm ..,
    show (x.cols == y.cols) = (y.cols == x.cols) from Bool.beq_comm ..]

theorem sameShape_eq {x y : Mat64} (h : x.sameShape y = true) : x.rows = y.rows ∧ x.cols = y.cols := by
  unfold Mat64.sameShape at h
  simpa using h

theorem same_shape {x y : Mat64} (h : x.Same y) : x.sameShape y = true := by
  unfold Mat64.sameShape
  simp [h.1, h.2.1]

/-- The Manhattan distance as computed: not negative, symmetric, zero exactly for equal matrices; matrices of
different shapes panic. -/
theorem C131_manhattan : IsDistance manhattan64 := by
  have hF : ∀ x y : Mat64, ∀ v ∈ entries64 x.rows x.cols (fun i j => |fsub (x.entry i j) (y.entry i j)|), 0 ≤ v ∧ IsF64 v := by
    intro x y v hv
    obtain ⟨i, j, _, _, rfl⟩ := mem_entries64.1 hv
    exact ⟨abs_nonneg _, isF64_abs (round64_isF64 _)⟩
  refine ⟨?_, ?_, ?_, ?_, ?_⟩
  · intro x y h; exact ⟨_, by unfold manhattan64; rw [if_pos h]⟩
  · intro x y h; unfold manhattan64; rw [h]; rfl
  · intro x y d h
    unfold manhattan64 at h
    split at h
    · cases h
      exact (foldl_fadd_ge _ (hF x y) 0 le_rfl isF64_zero).1
    · cases h
  · intro x y hx hy
    constructor
    · intro h
      unfold manhattan64 at h
      split at h
      · rename_i hs
        rw [same_iff_entries hx hy hs]
        intro v hv
        have h0 : fadds (entries64 x.rows x.cols fun i j => |fsub (x.entry i j) (y.entry i j)|) = 0 := by
          injection h
        have := (foldl_fadd_ge _ (hF x y) 0 le_rfl isF64_zero).2 v hv
        unfold fadds at h0
        rw [h0] at this
        exact le_antisymm this (hF x y v hv).1
      · cases h
    · intro hs
      have hsh := same_shape hs
      unfold manhattan64
      rw [if_pos hsh]
      have := foldl_fadd_zero _ ((same_iff_entries hx hy hsh).1 hs)
      unfold fadds
      rw [this]
  · intro x y
    unfold manhattan64
    rw [sameShape_symm x y]
    split
    · rename_i hs
      obtain ⟨e1, e2⟩ := sameShape_eq hs
      rw [e1, e2, entries64_congr fun i j => fsub_comm_abs (x.entry i j) (y.entry i j)]
    · rfl

theorem foldl_max_spec (l : List ℚ) (a : ℚ) :
    a ≤ l.foldl max a ∧ (∀ x ∈ l, x ≤ l.foldl max a) ∧ (l.foldl max a = a ∨ l.foldl max a ∈ l) := by
  induction l generalizing a with
  | nil => simp
  | cons y l ih =>
    obtain ⟨h1, h2, h3⟩ := ih (max a y)
    refine ⟨(le_max_left a y).trans h1, ?_, ?_⟩
    · intro x hx
      rcases List.mem_cons.1 hx with rfl | hx
      · exact (le_max_right a x).trans h1
      · exact h2 x hx
    · rw [List.foldl_cons]
      rcases h3 with h3 | h3
      · rcases max_choice a y with h | h
        · rw [h3, h]; exact Or.inl rfl
        · rw [h3, h]; exact Or.inr (by simp)
      · exact Or.inr (by simp [h3])

/-- The same of the Chebyshev distance. -/
theorem C131_chebyshev : IsDistance chebyshev64 := by
  refine ⟨?_, ?_, ?_, ?_, ?_⟩
  · intro x y h; exact ⟨_, by unfold chebyshev64; rw [if_pos h]⟩
  · intro x y h; unfold chebyshev64; rw [h]; rfl
  · intro x y d h
    unfold chebyshev64 at h
    split at h
    · cases h
      exact (foldl_max_spec _ 0).1
    · cases h
  · intro x y hx hy
    constructor
    · intro h
      unfold chebyshev64 at h
      split at h
      · rename_i hs
        rw [same_iff_entries hx hy hs]
        intro v hv
        have h0 : (entries64 x.rows x.cols fun i j => |fsub (x.entry i j) (y.entry i j)|).foldl max 0 = 0 := by
          injection h
        have := (foldl_max_spec _ 0).2.1 v hv
        rw [h0] at this
        obtain ⟨i, j, _, _, rfl⟩ := mem_entries64.1 hv
        exact le_antisymm this (abs_nonneg _)
      · cases h
    · intro hs
      have hsh := same_shape hs
      unfold chebyshev64
      rw [if_pos hsh]
      have hz := (same_iff_entries hx hy hsh).1 hs
      rcases (foldl_max_spec (entries64 x.rows x.cols fun i j => |fsub (x.entry i j) (y.entry i j)|) 0).2.2 with h | h
      · rw [h]
      · rw [hz _ h]
  · intro x y
    unfold chebyshev64
    rw [sameShape_symm x y]
    split
    · rename_i hs
      obtain ⟨e1, e2⟩ := sameShape_eq hs
      rw [e1, e2, entries64_congr fun i j => fsub_comm_abs (x.entry i j) (y.entry i j)]
    · rfl

/-- The Euclidean distance as computed, for any order of the library's sum: defined for the same shapes and a panic
otherwise, not negative, symmetric, and zero for equal matrices. Missing: that it is zero only for equal matrices, which fails
(`C131_euclidean_refuted`). It is positive if two entries are at least 2^-537 apart. -/
theorem C131_euclidean_partial (msum : List ℚ → ℚ) (hm : SumsUp msum) (sqrt : ℚ → ℚ) (hq : RootLike sqrt) (x y : Mat64) :
    (x.sameShape y = true → ∃ d, euclidean64 msum sqrt x y = Res.ok d ∧ 0 ≤ d) ∧
    (x.sameShape y = false → euclidean64 msum sqrt x y = Res.panic) ∧
    euclidean64 msum sqrt x y = euclidean64 msum sqrt y x ∧
    (x.Same y → euclidean64 msum sqrt x y = Res.ok 0) ∧
    (x.sameShape y = true → (∃ i j, i < x.rows ∧ j < x.cols ∧ (2 : ℚ) ^ (-537 : ℤ) ≤ |x.entry i j - y.entry i j|) →
      euclidean64 msum sqrt x y ≠ Res.ok 0) := by
  have hn : ∀ x y : Mat64, ∀ v ∈ entries64 x.rows x.cols (fun i j =>
      fmul (fsub (x.entry i j) (y.entry i j)) (fsub (x.entry i j) (y.entry i j))), 0 ≤ v ∧ IsF64 v := by
    intro x y v hv
    obtain ⟨i, j, _, _, rfl⟩ := mem_entries64.1 hv
    exact ⟨round64_nonneg (mul_self_nonneg _), round64_isF64 _⟩
  refine ⟨?_, ?_, ?_, ?_, ?_⟩
  · intro h
    exact ⟨_, by unfold euclidean64; rw [if_pos h], (hq _ (hm _ (hn x y)).1 (hm _ (hn x y)).2.1).1⟩
  · intro h; unfold euclidean64; rw [h]; rfl
  · unfold euclidean64
    rw [sameShape_symm x y]
    split
    · rename_i hs
      obtain ⟨e1, e2⟩ := sameShape_eq hs
      rw [e1, e2, entries64_congr (g' := fun i j => fmul (fsub (y.entry i j) (x.entry i j)) (fsub (y.entry i j) (x.entry i j)))]
      intro i j
      unfold fmul
      have : ∀ a b : ℚ, fsub a b * fsub a b = fsub b a * fsub b a := by
        intro a b
        unfold fsub
        rw [show a - b = -(b - a) by ring, round64_neg]; ring
      rw [this]
    · rfl
  · intro hs
    have hsh := same_shape hs
    unfold euclidean64
    rw [if_pos hsh]
    have : msum (entries64 x.rows x.cols fun i j =>
        fmul (fsub (x.entry i j) (y.entry i j)) (fsub (x.entry i j) (y.entry i j))) = 0 := by
      apply (hm _ (hn x y)).2.2.2
      intro v hv
      obtain ⟨i, j, hi, hj, rfl⟩ := mem_entries64.1 hv
      rw [hs.2.2 i j hi hj]
      unfold fmul fsub
      rw [sub_self, round64_zero, mul_zero, round64_zero]
    rw [this, (hq 0 isF64_zero le_rfl).2.2 rfl]
  · rintro hsh ⟨i, j, hi, hj, hd⟩ h0
    unfold euclidean64 at h0
    rw [if_pos hsh] at h0
    have h0' := Res.ok.inj h0
    rw [(hq _ (hm _ (hn x y)).1 (hm _ (hn x y)).2.1).2] at h0'
    have hle := (hm _ (hn x y)).2.2.1 _ (mem_entries64.2 ⟨i, j, hi, hj, rfl⟩)
    rw [h0'] at hle
    have hd' : (2 : ℚ) ^ (-537 : ℤ) ≤ |fsub (x.entry i j) (y.entry i j)| := by
      unfold fsub
      rw [round64_abs]
      exact le_round64 (isF64_pow (by norm_num)) hd
    have hsq : (2 : ℚ) ^ (-1074 : ℤ) ≤ fsub (x.entry i j) (y.entry i j) * fsub (x.entry i j) (y.entry i j) := by
      rw [← abs_mul_abs_self, show (-1074 : ℤ) = -537 + -537 by norm_num, zpow_add₀ (by norm_num)]
      exact mul_le_mul hd' hd' (two_zpow_pos _).le (abs_nonneg _)
    have := le_round64 (isF64_pow (e := -1074) le_rfl) hsq
    change _ ≤ fmul _ _ at this
    have hp : (0 : ℚ) < 2 ^ (-1074 : ℤ) := two_zpow_pos _
    linarith

/-- Two points at a distance of 2^-600 have the computed distance zero: the square is too small for a `float64`. -/
theorem C131_euclidean_refuted (msum : List ℚ → ℚ) (hm : SumsUp msum) (sqrt : ℚ → ℚ) (hq : RootLike sqrt) :
    ¬ IsDistance (euclidean64 msum sqrt) := by
  intro h
  have hF : IsF64 ((2 : ℚ) ^ (-600 : ℤ)) := isF64_pow (by norm_num)
  have hz := (h.zero ⟨1, 1, fun _ _ => 2 ^ (-600 : ℤ)⟩ ⟨1, 1, fun _ _ => 0⟩ (fun _ _ _ _ => hF) (fun _ _ _ _ => isF64_zero)).1 (by
    unfold euclidean64
    refine (if_pos (by rfl)).trans ?_
    have hs : fsub ((2 : ℚ) ^ (-600 : ℤ)) 0 = 2 ^ (-600 : ℤ) := by unfold fsub; rw [sub_zero]; exact round64_fix hF
    have hmul : fmul ((2 : ℚ) ^ (-600 : ℤ)) (2 ^ (-600 : ℤ)) = 0 := by
      unfold fmul
      rw [← zpow_add₀ (by norm_num)]
      have he := round64_err ((2 : ℚ) ^ (-600 + -600 : ℤ))
      have hn := (round64_nearest ((2 : ℚ) ^ (-600 + -600 : ℤ))).2 0 isF64_zero
      have hp : (0 : ℚ) < 2 ^ (-600 + -600 : ℤ) := two_zpow_pos _
      rw [zero_sub, abs_neg, abs_of_pos hp] at hn
      have h1 : round64 ((2 : ℚ) ^ (-600 + -600 : ℤ)) ≤ 2 * 2 ^ (-600 + -600 : ℤ) := by
        have := (abs_le.1 hn).2
        linarith
      obtain ⟨n, hg⟩ := isF64_grid (round64_isF64 ((2 : ℚ) ^ (-600 + -600 : ℤ)))
      have h0 : 0 ≤ round64 ((2 : ℚ) ^ (-600 + -600 : ℤ)) := round64_nonneg hp.le
      rw [hg] at h1 h0 ⊢
      have h2 : 2 * (2 : ℚ) ^ (-600 + -600 : ℤ) < 2 ^ (-1074 : ℤ) := by
        rw [show (2 : ℚ) * 2 ^ (-600 + -600 : ℤ) = 2 ^ (-1199 : ℤ) by
          rw [show (-1199 : ℤ) = 1 + (-600 + -600) by norm_num, zpow_add₀ (by norm_num) 1]; norm_num]
        exact zpow_lt_zpow_right₀ (by norm_num) (by norm_num)
      have hp2 : (0 : ℚ) < 2 ^ (-1074 : ℤ) := two_zpow_pos _
      have h3 : (n : ℚ) < 1 := by
        have : (n : ℚ) * 2 ^ (-1074 : ℤ) < 1 * 2 ^ (-1074 : ℤ) := by linarith
        exact lt_of_mul_lt_mul_right this hp2.le
      have h4 : (0 : ℚ) ≤ n := by
        by_contra hc
        rw [not_le] at hc
        have := mul_neg_of_neg_of_pos hc hp2
        linarith
      have h5 : n = 0 := by
        have a : n < 1 := by exact_mod_cast h3
        have b : 0 ≤ n := by exact_mod_cast h4
        omega
      rw [h5]; simp
    have e : entries64 1 1 (fun i j => fmul (fsub ((2 : ℚ) ^ (-600 : ℤ)) 0) (fsub ((2 : ℚ) ^ (-600 : ℤ)) 0)) = [0] := by
      rw [hs, hmul]; rfl
    rw [e, (hm [0] (by simp [isF64_zero])).2.2.2 (by simp), (hq 0 isF64_zero le_rfl).2.2 rfl])
  have := hz.2.2 0 0 (by norm_num) (by norm_num)
  exact (two_zpow_pos (-600)).ne' this

/-- Adding from left to right is such a sum. -/
theorem fadds_sumsUp : SumsUp fadds := by
  intro l hl
  obtain ⟨h1, h2⟩ := foldl_fadd_ge l hl 0 le_rfl isF64_zero
  refine ⟨?_, h1, h2, foldl_fadd_zero l⟩
  have : ∀ (l : List ℚ) (a : ℚ), IsF64 a → IsF64 (l.foldl fadd a) := by
    intro l
    induction l with
    | nil => intro a ha; exact ha
    | cons y l ih => intro a _; exact ih _ (fadd_isF64 _ _)
  exact this l 0 isF64_zero

/-- A square root computed with integers. -/
def root64 (x : ℚ) : ℚ := round64 ((Nat.sqrt (⌊x * 2 ^ 2148⌋.toNat) : ℚ) * 2 ^ (-1074 : ℤ))

theorem root64_rootLike : RootLike root64 := by
  intro x hx h0
  have hp : (0 : ℚ) < 2 ^ (-1074 : ℤ) := two_zpow_pos _
  refine ⟨round64_nonneg (mul_nonneg (by positivity) hp.le), ?_, ?_⟩
  · intro h
    by_contra hne
    obtain ⟨n, rfl⟩ := isF64_grid hx
    have hn : 1 ≤ n := by
      by_contra hc
      have : n = 0 ∨ n < 0 := by omega
      rcases this with rfl | hneg
      · simp at hne
      · have : (n : ℚ) < 0 := by exact_mod_cast hneg
        exact absurd h0 (not_le.2 (mul_neg_of_neg_of_pos this hp))
    have hfl : ⌊(n : ℚ) * 2 ^ (-1074 : ℤ) * 2 ^ 2148⌋ = n * 2 ^ 1074 := by
      have : (n : ℚ) * 2 ^ (-1074 : ℤ) * 2 ^ 2148 = ((n * 2 ^ 1074 : ℤ) : ℚ) := by
        rw [mul_assoc, ← zpow_natCast, ← zpow_add₀ (by norm_num)]
        push_cast
        congr 1
      rw [this, Int.floor_intCast]
    have hs : 1 ≤ Nat.sqrt (⌊(n : ℚ) * 2 ^ (-1074 : ℤ) * 2 ^ 2148⌋.toNat) := by
      rw [hfl, Nat.succ_le_iff, Nat.sqrt_pos]
      have : 0 < n * 2 ^ 1074 := by positivity
      omega
    have hs' : (1 : ℚ) ≤ (Nat.sqrt (⌊(n : ℚ) * 2 ^ (-1074 : ℤ) * 2 ^ 2148⌋.toNat) : ℚ) := by exact_mod_cast hs
    have := le_round64 (isF64_pow (e := -1074) le_rfl)
      (show (2 : ℚ) ^ (-1074 : ℤ) ≤ (Nat.sqrt (⌊(n : ℚ) * 2 ^ (-1074 : ℤ) * 2 ^ 2148⌋.toNat) : ℚ) * 2 ^ (-1074 : ℤ) by
        nlinarith)
    unfold root64 at h
    rw [h] at this
    linarith
  · rintro rfl
    unfold root64
    simp [round64_zero]

/-- The hypotheses on the library can be met. -/
example : ¬ IsDistance (euclidean64 fadds root64) := C131_euclidean_refuted _ fadds_sumsUp _ root64_rootLike

/-- The indices that the two loops visit. -/
def indices64 (r c : Nat) : List (Nat × Nat) := (List.range r).flatMap fun i => (List.range c).map fun j => (i, j)

theorem entries64_eq (r c : Nat) (g : Nat → Nat → ℚ) : entries64 r c g = (indices64 r c).map fun p => g p.1 p.2 := by
  unfold entries64 indices64
  rw [List.map_flatMap]
  simp [List.map_map, Function.comp_def]

theorem mem_indices64 {r c : Nat} {p : Nat × Nat} : p ∈ indices64 r c ↔ p.1 < r ∧ p.2 < c := by
  unfold indices64
  obtain ⟨i, j⟩ := p
  simp

theorem sum_map_abs_sub_le {α : Type} (l : List α) (f g : α → ℚ) (u : ℚ) (h : ∀ a ∈ l, |f a - g a| ≤ u * g a) :
    |(l.map f).sum - (l.map g).sum| ≤ u * (l.map g).sum := by
  induction l with
  | nil => simp
  | cons a l ih =>
    have h1 := h a (by simp)
    have h2 := ih fun b hb => h b (by simp [hb])
    simp only [List.map_cons, List.sum_cons]
    rw [show f a + (l.map f).sum - (g a + (l.map g).sum) = (f a - g a) + ((l.map f).sum - (l.map g).sum) by ring]
    calc _ ≤ |f a - g a| + |(l.map f).sum - (l.map g).sum| := abs_add_le _ _
      _ ≤ u * g a + u * (l.map g).sum := by linarith
      _ = _ := by ring

theorem exactManhattan_nonneg (x y : Mat64) : 0 ≤ exactManhattan x y := by
  unfold exactManhattan
  apply List.sum_nonneg
  intro v hv
  obtain ⟨i, j, _, _, rfl⟩ := mem_entries64.1 hv
  exact abs_nonneg _

/-- How far the computed Manhattan distance of `n` entries is off the exact one: a relative error of about
`(n + 1) * 2^-53`. -/
theorem C131_manhattan_error (x y : Mat64) (hx : x.Ok) (hy : y.Ok) (d : ℚ) (h : manhattan64 x y = Res.ok d) :
    |d - exactManhattan x y| ≤ ((1 + 1 / 2 ^ 53) ^ (x.rows * x.cols + 1) - 1) * exactManhattan x y := by
  unfold manhattan64 at h
  split at h
  swap
  · cases h
  rename_i hs
  obtain ⟨e1, e2⟩ := sameShape_eq hs
  cases h
  have hu := unit64_pos
  have hE := exactManhattan_nonneg x y
  set L := entries64 x.rows x.cols fun i j => |fsub (x.entry i j) (y.entry i j)| with hL
  have hLF : ∀ v ∈ L, IsF64 v := by
    intro v hv
    obtain ⟨i, j, _, _, rfl⟩ := mem_entries64.1 hv
    exact isF64_abs (round64_isF64 _)
  have hLabs : L.map abs = L := by
    have : ∀ v ∈ L, |v| = v := by
      intro v hv
      obtain ⟨i, j, _, _, rfl⟩ := mem_entries64.1 hv
      exact abs_abs _
    exact (List.map_congr_left this).trans (List.map_id' L)
  have h1 := fadds_err L hLF
  rw [hLabs, hL, entries64_length, ← hL] at h1
  have h2 : |L.sum - exactManhattan x y| ≤ unit64 * exactManhattan x y := by
    unfold exactManhattan
    rw [hL, entries64_eq, entries64_eq]
    apply sum_map_abs_sub_le
    intro p hp
    obtain ⟨hi, hj⟩ := mem_indices64.1 hp
    have := fadd_rel (hx _ _ hi hj) (isF64_neg (hy p.1 p.2 (e1 ▸ hi) (e2 ▸ hj)))
    rw [← sub_eq_add_neg] at this
    have h3 := abs_abs_sub_abs_le (fsub (x.entry p.1 p.2) (y.entry p.1 p.2)) (x.entry p.1 p.2 - y.entry p.1 p.2)
    have h4 : fadd (x.entry p.1 p.2) (-(y.entry p.1 p.2)) = fsub (x.entry p.1 p.2) (y.entry p.1 p.2) := by
      unfold fadd fsub; rw [sub_eq_add_neg]
    rw [h4] at this
    refine h3.trans (this.trans (le_of_eq ?_))
    unfold unit64; ring
  have h3 : L.sum ≤ (1 + unit64) * exactManhattan x y := by linarith [(abs_le.1 h2).2]
  have hk : 0 ≤ (1 + unit64) ^ (x.rows * x.cols) - 1 := by
    have : 1 ≤ (1 + unit64) ^ (x.rows * x.cols) := one_le_pow₀ (by linarith)
    linarith
  change _ ≤ ((1 + unit64) ^ (x.rows * x.cols + 1) - 1) * _
  calc |fadds L - exactManhattan x y|
      = |(fadds L - L.sum) + (L.sum - exactManhattan x y)| := by congr 1; ring
    _ ≤ |fadds L - L.sum| + |L.sum - exactManhattan x y| := abs_add_le _ _
    _ ≤ ((1 + unit64) ^ (x.rows * x.cols) - 1) * ((1 + unit64) * exactManhattan x y) + unit64 * exactManhattan x y := by
        have := mul_le_mul_of_nonneg_left h3 hk
        linarith
    _ = _ := by rw [pow_succ]; ring

theorem exactManhattan_triangle (x y z : Mat64) (h : x.rows = y.rows ∧ x.cols = y.cols) :
    exactManhattan x z ≤ exactManhattan x y + exactManhattan y z := by
  unfold exactManhattan
  rw [← h.1, ← h.2, entries64_eq, entries64_eq, entries64_eq]
  generalize indices64 x.rows x.cols = l
  induction l with
  | nil => simp
  | cons p l ih =>
    simp only [List.map_cons, List.sum_cons]
    have := abs_sub_le (x.entry p.1 p.2) (y.entry p.1 p.2) (z.entry p.1 p.2)
    linarith

theorem manhattan64_shape {x y : Mat64} {a : ℚ} (h : manhattan64 x y = Res.ok a) :
    x.rows = y.rows ∧ x.cols = y.cols := by
  unfold manhattan64 at h
  split at h
  · rename_i hs; exact sameShape_eq hs
  · cases h

/-- So the triangle inequality holds up to such an error. Missing: the inequality itself, which fails
(`C131_triangle_refuted`). -/
theorem C131_triangle_partial (x y z : Mat64) (hx : x.Ok) (hy : y.Ok) (hz : z.Ok) (a b c : ℚ)
    (h1 : manhattan64 x y = Res.ok a) (h2 : manhattan64 y z = Res.ok b) (h3 : manhattan64 x z = Res.ok c) :
    c * (2 - (1 + 1 / 2 ^ 53) ^ (x.rows * x.cols + 1)) ≤ (a + b) * (1 + 1 / 2 ^ 53) ^ (x.rows * x.cols + 1) := by
  have hs1 := manhattan64_shape h1
  have e1 := C131_manhattan_error x y hx hy a h1
  have e2 := C131_manhattan_error y z hy hz b h2
  have e3 := C131_manhattan_error x z hx hz c h3
  have hc := C131_manhattan.nonneg _ _ _ h3
  have ha := C131_manhattan.nonneg _ _ _ h1
  have hb := C131_manhattan.nonneg _ _ _ h2
  rw [← hs1.1, ← hs1.2] at e2
  have ht := exactManhattan_triangle x y z hs1
  have hk1 : (1 : ℚ) ≤ (1 + 1 / 2 ^ 53) ^ (x.rows * x.cols + 1) := one_le_pow₀ (by norm_num)
  generalize (1 + 1 / 2 ^ 53 : ℚ) ^ (x.rows * x.cols + 1) = k at *
  have E1 := exactManhattan_nonneg x y
  have E2 := exactManhattan_nonneg y z
  have E3 := exactManhattan_nonneg x z
  rcases le_or_gt 0 (2 - k) with hk | hk
  · have c1 : c ≤ k * exactManhattan x z := by linarith [(abs_le.1 e3).2]
    have a1 : (2 - k) * exactManhattan x y ≤ a := by linarith [(abs_le.1 e1).1]
    have b1 : (2 - k) * exactManhattan y z ≤ b := by linarith [(abs_le.1 e2).1]
    calc c * (2 - k) ≤ k * exactManhattan x z * (2 - k) := mul_le_mul_of_nonneg_right c1 hk
      _ ≤ k * (exactManhattan x y + exactManhattan y z) * (2 - k) :=
          mul_le_mul_of_nonneg_right (mul_le_mul_of_nonneg_left ht (by linarith)) hk
      _ = k * ((2 - k) * exactManhattan x y + (2 - k) * exactManhattan y z) := by ring
      _ ≤ k * (a + b) := mul_le_mul_of_nonneg_left (by linarith) (by linarith)
      _ = _ := by ring
  · have : c * (2 - k) ≤ 0 := mul_nonpos_of_nonneg_of_nonpos hc hk.le
    have : 0 ≤ (a + b) * k := mul_nonneg (by linarith) (by linarith)
    linarith

/-- The matrix with one entry. -/
def dot64 (v : ℚ) : Mat64 := ⟨1, 1, fun _ _ => v⟩

theorem dot64_ok {v : ℚ} (h : IsF64 v) : (dot64 v).Ok := fun _ _ _ _ => h

theorem manhattan64_dot (a b : ℚ) : manhattan64 (dot64 a) (dot64 b) = Res.ok |fsub a b| := by
  unfold manhattan64
  refine (if_pos (by rfl)).trans ?_
  change Res.ok (fadd 0 |fsub a b|) = _
  unfold fadd
  have hF : IsF64 |fsub a b| := isF64_abs (round64_isF64 _)
  rw [zero_add, round64_fix hF]

theorem chebyshev64_dot (a b : ℚ) : chebyshev64 (dot64 a) (dot64 b) = Res.ok |fsub a b| := by
  unfold chebyshev64
  refine (if_pos (by rfl)).trans ?_
  change Res.ok (max 0 |fsub a b|) = _
  rw [max_eq_right (abs_nonneg _)]

/-- The triangle inequality fails, for one coordinate already: the distances from 1 to -2^-53 and from there to -2^-52
are computed as 1 and 2^-53, the distance from 1 to -2^-52 is exactly 1 + 2^-52. -/
theorem C131_triangle_refuted : ¬ Triangle manhattan64 ∧ ¬ Triangle chebyshev64 := by
  have F1 : IsF64 (-(1 / 2 ^ 53 : ℚ)) := ⟨-1, -53, by norm_num, by norm_num, by norm_num⟩
  have F2 : IsF64 (-(1 / 2 ^ 52 : ℚ)) := ⟨-1, -52, by norm_num, by norm_num, by norm_num⟩
  have d1 : |fsub 1 (-(1 / 2 ^ 53))| = 1 := by
    unfold fsub
    rw [round64_eq (x := 1 - -(1 / 2 ^ 53)) (-52) (2 ^ 52) (by norm_num [abs_of_pos]) (by norm_num [abs_of_pos]) (by norm_num)
      (Or.inr ⟨by norm_num [abs_of_pos], by norm_num⟩)]
    norm_num
  have d2 : |fsub (-(1 / 2 ^ 53)) (-(1 / 2 ^ 52))| = 1 / 2 ^ 53 := by
    unfold fsub
    rw [show (-(1 / 2 ^ 53) - -(1 / 2 ^ 52) : ℚ) = 1 / 2 ^ 53 by norm_num,
      round64_fix ⟨1, -53, by norm_num, by norm_num, by norm_num⟩]
    norm_num
  have d3 : |fsub 1 (-(1 / 2 ^ 52))| = 1 + 1 / 2 ^ 52 := by
    unfold fsub
    rw [show (1 - -(1 / 2 ^ 52) : ℚ) = 1 + 1 / 2 ^ 52 by norm_num,
      round64_fix ⟨2 ^ 52 + 1, -52, by norm_num, by norm_num, by norm_num⟩]
    norm_num
  constructor
  · intro h
    have := h _ _ _ _ _ _ (dot64_ok isF64_one) (dot64_ok F1) (dot64_ok F2) (manhattan64_dot _ _) (manhattan64_dot _ _) (manhattan64_dot _ _)
    rw [d1, d2, d3] at this
    norm_num at this
  · intro h
    have := h _ _ _ _ _ _ (dot64_ok isF64_one) (dot64_ok F1) (dot64_ok F2) (chebyshev64_dot _ _) (chebyshev64_dot _ _) (chebyshev64_dot _ _)
    rw [d1, d2, d3] at this
    norm_num at this

/-- The matrices of the counterexample meet the hypotheses of the other theorems. -/
example : (dot64 1).Ok ∧ (dot64 (-(1 / 2 ^ 52))).Ok ∧ ∃ d, manhattan64 (dot64 1) (dot64 (-(1 / 2 ^ 52))) = Res.ok d ∧ 0 < d := by
  refine ⟨dot64_ok isF64_one, dot64_ok ⟨-1, -52, by norm_num, by norm_num, by norm_num⟩, _, manhattan64_dot _ _, ?_⟩
  unfold fsub
  rw [show (1 - -(1 / 2 ^ 52) : ℚ) = 1 + 1 / 2 ^ 52 by norm_num,
    round64_fix ⟨2 ^ 52 + 1, -52, by norm_num, by norm_num, by norm_num⟩]
  norm_num

end Golearn
