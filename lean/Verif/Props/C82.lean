import Verif.Proofs.Metrics

/-! # C82: similarity measures are in range -/

namespace Golearn
open Finset

/-- A matrix with an entry that is not zero. -/
def Mat.NonZero (x : Mat) : Prop := ∃ i j, i < x.rows ∧ j < x.cols ∧ x.entry i j ≠ 0

theorem inner_vec {x y : Mat} {r c : Nat} :
    ∑ i ∈ range r, ∑ j ∈ range c, x.entry i j * y.entry i j = inner ℝ (y.vec r c) (x.vec r c) := by
  rw [sum_entries, PiLp.inner_apply]
  rfl

theorem sqrt_inner_self (x : Mat) (r c : Nat) :
    Real.sqrt (∑ i ∈ range r, ∑ j ∈ range c, x.entry i j * x.entry i j) = ‖x.vec r c‖ := by
  rw [inner_vec, real_inner_self_eq_norm_sq, Real.sqrt_sq (norm_nonneg _)]

theorem vec_ne_zero {x : Mat} {r c : Nat} (hr : x.rows = r) (hc : x.cols = c) : x.NonZero ↔ x.vec r c ≠ 0 := by
  subst hr; subst hc
  constructor
  · rintro ⟨i, j, hi, hj, h⟩ hz
    have : (x.vec x.rows x.cols).ofLp (⟨i, hi⟩, ⟨j, hj⟩) = 0 := by rw [hz]; rfl
    exact h this
  · intro h
    by_contra hn
    apply h
    unfold Mat.NonZero at hn
    push Not at hn
    ext p
    exact hn p.1 p.2 p.1.isLt p.2.isLt

theorem cosineDist_ok {x y : Mat} (h : x.sameShape y = true) :
    cosineDist x y = Res.ok (open Classical in
      if ‖x.vec x.rows x.cols‖ * ‖y.vec x.rows x.cols‖ = 0 then none
      else some (1 - inner ℝ (y.vec x.rows x.cols) (x.vec x.rows x.cols) /
        (‖x.vec x.rows x.cols‖ * ‖y.vec x.rows x.cols‖))) := by
  have hs := Mat.sameShape_iff.1 h
  unfold cosineDist
  rw [innerProduct_ok h, innerProduct_ok (x := x) (by simp [Mat.sameShape]), innerProduct_ok (x := y) (by simp [Mat.sameShape])]
  simp only [Res.bind_ok, Res.map_ok]
  rw [← hs.1, ← hs.2, sqrt_inner_self, sqrt_inner_self, inner_vec]

/-- The cosine distance of matrices that are not zero lies between 0 and 2. With a zero matrix it is NaN, and for
different shapes it panics. -/
theorem C82_cosine_range (x y : Mat) :
    (x.sameShape y = true → x.NonZero → y.NonZero →
      ∃ d, cosineDist x y = Res.ok (some d) ∧ 0 ≤ d ∧ d ≤ 2) ∧
    (x.sameShape y = true → (¬ x.NonZero ∨ ¬ y.NonZero) → cosineDist x y = Res.ok none) ∧
    (x.sameShape y = false → cosineDist x y = Res.panic) := by
  refine ⟨?_, ?_, ?_⟩
  · intro h hx hy
    have hs := Mat.sameShape_iff.1 h
    rw [vec_ne_zero rfl rfl] at hx
    rw [vec_ne_zero hs.1.symm hs.2.symm] at hy
    have hpos : 0 < ‖x.vec x.rows x.cols‖ * ‖y.vec x.rows x.cols‖ := mul_pos (norm_pos_iff.2 hx) (norm_pos_iff.2 hy)
    rw [cosineDist_ok h, if_neg (ne_of_gt hpos)]
    have hb := abs_real_inner_le_norm (y.vec x.rows x.cols) (x.vec x.rows x.cols)
    rw [mul_comm, abs_le] at hb
    refine ⟨_, rfl, ?_, ?_⟩
    · have := (div_le_one hpos).2 hb.2
      linarith
    · have : -1 ≤ inner ℝ (y.vec x.rows x.cols) (x.vec x.rows x.cols) / (‖x.vec x.rows x.cols‖ * ‖y.vec x.rows x.cols‖) := by
        rw [le_div_iff₀ hpos]; linarith [hb.1]
      linarith
  · intro h hz
    have hs := Mat.sameShape_iff.1 h
    rw [vec_ne_zero rfl rfl, vec_ne_zero hs.1.symm hs.2.symm, not_not, not_not] at hz
    rw [cosineDist_ok h, if_pos]
    rcases hz with hz | hz
    · rw [hz]; simp
    · rw [hz]; simp
  · intro h
    unfold cosineDist innerProduct Mat.mulElem
    rw [h]; rfl

theorem cosineDist_symm (x y : Mat) : cosineDist x y = cosineDist y x := by
  by_cases h : x.sameShape y = true
  · have hs := Mat.sameShape_iff.1 h
    rw [cosineDist_ok h, cosineDist_ok (x := y) (y := x) (by rw [Mat.sameShape_symm]; exact h), ← hs.1, ← hs.2,
      mul_comm ‖y.vec _ _‖, real_inner_comm]
  · rw [Bool.not_eq_true] at h
    rw [(C82_cosine_range x y).2.2 h, (C82_cosine_range y x).2.2 (by rw [Mat.sameShape_symm]; exact h)]

/-- The cosine distance is symmetric, and zero from a non-zero matrix to itself. -/
theorem C82_cosine_symm (x y : Mat) :
    cosineDist x y = cosineDist y x ∧ (x.NonZero → cosineDist x x = Res.ok (some 0)) := by
  refine ⟨cosineDist_symm x y, ?_⟩
  intro hx
  rw [vec_ne_zero rfl rfl] at hx
  rw [cosineDist_ok (by simp [Mat.sameShape]), if_neg (mul_ne_zero (norm_ne_zero_iff.2 hx) (norm_ne_zero_iff.2 hx)),
    real_inner_self_eq_norm_mul_norm, div_self (mul_ne_zero (norm_ne_zero_iff.2 hx) (norm_ne_zero_iff.2 hx)), sub_self]

theorem cranberraStep_spec (a b : ℝ) :
    let s := cranberraStep |a - b| (|a| + |b|)
    0 ≤ s ∧ s ≤ 1 ∧ (s = 0 ↔ a = b) := by
  intro s
  have hnn : 0 ≤ |a| + |b| := add_nonneg (abs_nonneg _) (abs_nonneg _)
  have hle : |a - b| ≤ |a| + |b| := by
    rw [sub_eq_add_neg, ← abs_neg b]
    exact abs_add_le a (-b)
  by_cases hz : |a - b| = 0 ∧ |a| + |b| = 0
  · have hs : s = 0 := if_pos hz
    rw [hs]
    exact ⟨le_refl _, zero_le_one, fun _ => sub_eq_zero.1 (abs_eq_zero.1 hz.1), fun _ => rfl⟩
  · have hs : s = |a - b| / (|a| + |b|) := if_neg hz
    have hpos : 0 < |a| + |b| := by
      refine lt_of_le_of_ne hnn ?_
      intro h
      exact hz ⟨le_antisymm (h ▸ hle) (abs_nonneg _), h.symm⟩
    rw [hs]
    refine ⟨div_nonneg (abs_nonneg _) hnn, (div_le_one hpos).2 hle, ?_⟩
    rw [div_eq_zero_iff]
    constructor
    · rintro (h | h)
      · exact sub_eq_zero.1 (abs_eq_zero.1 h)
      · exact absurd h (ne_of_gt hpos)
    · intro h
      left; rw [h, sub_self, abs_zero]

/-- The Canberra distance is symmetric, not negative, at most the number of entries, and zero exactly for equal
matrices; different shapes panic. -/
theorem C82_cranberra (x y : Mat) :
    cranberraDist x y = cranberraDist y x ∧
    (x.sameShape y = true → ∃ d, cranberraDist x y = Res.ok d ∧ 0 ≤ d ∧ d ≤ (x.rows : ℝ) * x.cols ∧ (d = 0 ↔ x.Same y)) ∧
    (x.sameShape y = false → cranberraDist x y = Res.panic) := by
  have hbad : ∀ x y : Mat, x.sameShape y = false → cranberraDist x y = Res.panic := by
    intro x y h
    unfold cranberraDist
    rw [h]; rfl
  refine ⟨?_, ?_, hbad x y⟩
  · by_cases h : x.sameShape y = true
    · have hs := Mat.sameShape_iff.1 h
      rw [cranberraDist_ok h, cranberraDist_ok (x := y) (y := x) (by rw [Mat.sameShape_symm]; exact h), hs.1, hs.2]
      congr 1
      refine sum_congr rfl fun i _ => sum_congr rfl fun j _ => ?_
      rw [abs_sub_comm, add_comm]
    · rw [Bool.not_eq_true] at h
      rw [hbad x y h, hbad y x (by rw [Mat.sameShape_symm]; exact h)]
  · intro h
    have hs := Mat.sameShape_iff.1 h
    have hsp := fun i j => cranberraStep_spec (x.entry i j) (y.entry i j)
    refine ⟨_, cranberraDist_ok h, sum_nonneg fun i _ => sum_nonneg fun j _ => (hsp i j).1, ?_, ?_⟩
    · have : ∑ i ∈ range x.rows, ∑ j ∈ range x.cols, (1 : ℝ) = (x.rows : ℝ) * x.cols := by simp
      rw [← this]
      exact sum_le_sum fun i _ => sum_le_sum fun j _ => (hsp i j).2.1
    · rw [sum_eq_zero_iff_of_nonneg fun i _ => sum_nonneg fun j _ => (hsp i j).1]
      constructor
      · intro hz
        refine ⟨hs.1, hs.2, fun i j hi hj => ?_⟩
        have := hz i (mem_range.2 hi)
        rw [sum_eq_zero_iff_of_nonneg fun j _ => (hsp i j).1] at this
        exact (hsp i j).2.2.1 (this j (mem_range.2 hj))
      · rintro ⟨_, _, he⟩ i hi
        exact sum_eq_zero fun j hj => (hsp i j).2.2.2 (he i j (mem_range.1 hi) (mem_range.1 hj))

/-- The radial basis function kernel with a positive parameter lies in (0, 1], is 1 exactly for equal matrices, and is
symmetric. -/
theorem C82_rbf (gamma : ℝ) (hg : 0 < gamma) (x y : Mat) (h : x.sameShape y = true) :
    ∃ k, rbfKernel gamma x y = Res.ok k ∧ 0 < k ∧ k ≤ 1 ∧ (k = 1 ↔ x.Same y) ∧ rbfKernel gamma y x = Res.ok k := by
  have hs := Mat.sameShape_iff.1 h
  have he := euclideanDist_vec h rfl rfl
  have he' := euclideanDist_vec (x := y) (y := x) (r := x.rows) (c := x.cols) (by rw [Mat.sameShape_symm]; exact h)
    hs.1.symm hs.2.symm
  refine ⟨_, by unfold rbfKernel; rw [he, Res.map_ok], Real.exp_pos _, ?_, ?_, ?_⟩
  · rw [Real.exp_le_one_iff]
    have := mul_nonneg hg.le (sq_nonneg (dist (x.vec x.rows x.cols) (y.vec x.rows x.cols)))
    linarith
  · rw [Real.exp_eq_one_iff, mul_eq_zero, neg_eq_zero]
    constructor
    · rintro (hz | hz)
      · exact absurd hz (ne_of_gt hg)
      · have := dist_eq_zero.1 (pow_eq_zero_iff (two_ne_zero) |>.1 hz)
        refine ⟨hs.1, hs.2, fun i j hi hj => ?_⟩
        have h1 := congrArg (fun v => v.ofLp (⟨i, hi⟩, ⟨j, hj⟩)) this
        exact h1
    · rintro ⟨_, _, hz⟩
      right
      have : x.vec x.rows x.cols = y.vec x.rows x.cols := by
        ext p
        exact hz p.1 p.2 p.1.isLt p.2.isLt
      rw [this, dist_self]
      simp
  · unfold rbfKernel
    rw [he', Res.map_ok, dist_comm]

/-- Orthogonal vectors have cosine distance 1. -/
example : cosineDist (Mat.ofFloats [1, 0]) (Mat.ofFloats [0, 2]) = Res.ok (some 1) := by
  have h : (Mat.ofFloats [1, 0]).sameShape (Mat.ofFloats [0, 2]) = true := by simp [Mat.sameShape, Mat.ofFloats]
  unfold cosineDist
  rw [innerProduct_ok h, innerProduct_ok (x := Mat.ofFloats [1, 0]) (by simp [Mat.sameShape]),
    innerProduct_ok (x := Mat.ofFloats [0, 2]) (by simp [Mat.sameShape])]
  simp [Mat.ofFloats, Res.bind_ok, Res.map_ok, sum_range_succ]

/-- The hypotheses hold for a small matrix. -/
example : (Mat.ofFloats [1, 0]).NonZero ∧ (0 : ℝ) < 1 / 2 :=
  ⟨⟨0, 0, by decide, by decide, by simp [Mat.ofFloats]⟩, by norm_num⟩

end Golearn
