import Verif.Proofs.Pca
import Mathlib.Tactic.IntervalCases

/-! # C80: principal components are taken of centred data -/

namespace Golearn
open Finset

variable {R : Type} [Field R]

/-- `Fit` factorises the matrix with the column means subtracted: every column sums to zero, and the caller's matrix is
left holding the centred data. It panics if the factorisation fails or the number of components is negative. -/
theorem C80_centred [CharZero R] (svd : GMat R → Option (Svd R)) (p : Pca R) (x : GMat R) :
    ∃ c : GMat R, c.rows = x.rows ∧ c.cols = x.cols ∧
      (∀ i j, i < x.rows → j < x.cols → c.entry i j = x.entry i j - colMean x j) ∧
      (∀ j, j < x.cols → ∑ i ∈ range x.rows, c.entry i j = 0) ∧
      (∀ d, svd c = some d → 0 ≤ p.components → pcaFit svd p x = Res.ok (⟨p.components, some d⟩, c)) ∧
      (svd c = none ∨ p.components < 0 → pcaFit svd p x = Res.panic) := by
  obtain ⟨c, h1, h2, h3, h4⟩ := matrixSubVector_mean x
  refine ⟨c, h2, h3, h4, fun j hj => centred_sum h4 j hj, ?_, ?_⟩
  · intro d hd hp
    unfold pcaFit
    rw [h1, Res.bind_ok, hd]
    simp only
    rw [if_neg (by omega)]
  · intro h
    unfold pcaFit
    rw [h1, Res.bind_ok]
    rcases h with h | h
    · rw [h]
    · cases svd c with
      | none => rfl
      | some d => simp only; rw [if_pos h]

/-- The documentation says that 0 components stands for as many as there are features. -/
def DefaultComponents (R : Type) [Field R] : Prop :=
  ∀ (p : Pca R) (d : Svd R) (t x y : GMat R), p.svd = some d → IsThinSvd t d → x.cols = t.cols → p.components = 0 →
    pcaTransform p x = Res.ok y → y.cols = x.cols

/-- It does not hold for training data with fewer rows than features. -/
theorem C80_default_components_fails : ¬ DefaultComponents Rat := by
  intro h
  have := h ⟨0, some ⟨⟨1, 1, fun _ _ => 1⟩, [1], ⟨2, 1, fun j _ => if j = 0 then 1 else 0⟩⟩⟩ _
    ⟨1, 2, fun _ j => if j = 0 then 1 else 0⟩ ⟨1, 2, fun _ _ => 1⟩ _ rfl
    (by
      refine ⟨rfl, ⟨rfl, rfl⟩, ⟨rfl, rfl⟩, ?_, ?_, ?_⟩
      · intro i j (hi : i < 1) (hj : j < 2)
        interval_cases i <;> interval_cases j <;> decide +kernel
      · intro a b (ha : a < 1) (hb : b < 1)
        interval_cases a; interval_cases b; decide +kernel
      · intro a b (ha : a < 1) (hb : b < 1)
        interval_cases a; interval_cases b; decide +kernel) rfl rfl rfl
  cases this

/-- The shape of what `Transform` returns for data with the features of the training data: a row for every row, and
the number of components asked for; if that is 0 or more than the features, as many columns as the training data has singular
values. What is missing: with the default of 0 components there are not always as many columns as features. -/
theorem C80_shape_partial (p : Pca R) (d : Svd R) (t x : GMat R) (hs : p.svd = some d) (h : IsThinSvd t d) (hx : x.cols = t.cols)
    (hp : 0 ≤ p.components) :
    ∃ y, pcaTransform p x = Res.ok y ∧ y.rows = x.rows ∧
      (0 < p.components → p.components ≤ (x.cols : Int) → (y.cols : Int) = p.components) ∧
      (p.components = 0 ∨ (x.cols : Int) < p.components → y.cols = min t.rows t.cols) := by
  unfold pcaTransform
  rw [hs]
  simp only
  unfold GMat.mul
  have hd : x.cols = d.v.rows := by rw [hx, h.vshape.1]
  simp only [if_pos hd]
  by_cases hc : p.components = 0 ∨ p.components > (x.cols : Int)
  · rw [if_pos hc]
    exact ⟨_, rfl, rfl, by intro h1 h2; omega, fun _ => by show d.v.cols = _; rw [h.vshape.2, h.count]⟩
  · rw [if_neg hc]
    refine ⟨_, rfl, rfl, ?_, ?_⟩
    · intro h1 h2
      show ((p.components.toNat : Nat) : Int) = _
      omega
    · intro h1; omega

/-- Each column of the result of `FitTransform` sums to zero and different columns are orthogonal, so they are
uncorrelated; the square sum of a column is the square of its singular value. -/
theorem C80_scores [CharZero R] (svd : GMat R → Option (Svd R)) (p : Pca R) (x : GMat R) (hp : 0 ≤ p.components)
    (hsvd : ∀ c : GMat R, c.rows = x.rows → c.cols = x.cols →
      (∀ i j, i < x.rows → j < x.cols → c.entry i j = x.entry i j - colMean x j) → ∃ d, svd c = some d ∧ IsThinSvd c d) :
    ∃ y : GMat R, ∃ s : List R, pcaFitTransform svd p x = Res.ok y ∧ y.rows = x.rows ∧ s.length = min x.rows x.cols ∧
      (∀ a, a < y.cols → ∑ i ∈ range x.rows, y.entry i a = 0) ∧
      ∀ a b, a < y.cols → b < y.cols →
        ∑ i ∈ range x.rows, y.entry i a * y.entry i b = if a = b then s.getD a 0 * s.getD a 0 else 0 := by
  obtain ⟨c, h2, h3, h4, h5, h6, _⟩ := C80_centred svd p x
  obtain ⟨d, hd, hS⟩ := hsvd c h2 h3 h4
  have hfit := h6 d hd hp
  have hcount : d.s.length = min x.rows x.cols := by rw [hS.count, h2, h3]
  -- the product before the columns are cut
  let y0 : GMat R := ⟨c.rows, d.v.cols, fun i j => ((List.range c.cols).map fun k => c.entry i k * d.v.entry k j).sum⟩
  have hmul : c.mul d.v = Res.ok y0 := by
    unfold GMat.mul
    rw [if_pos hS.vshape.1.symm]
  have hy0 : ∀ i j, y0.entry i j = ∑ k ∈ range c.cols, c.entry i k * d.v.entry k j := fun i j => list_sum_range _ _
  have hsum0 : ∀ a, ∑ i ∈ range x.rows, y0.entry i a = 0 := by
    intro a
    simp only [hy0]
    rw [sum_comm]
    apply sum_eq_zero
    intro k hk
    rw [← sum_mul, h5 k (by have := mem_range.1 hk; omega), zero_mul]
  have hgram0 : ∀ a b, a < d.s.length → b < d.s.length → ∑ i ∈ range x.rows, y0.entry i a * y0.entry i b =
      if a = b then d.s.getD a 0 * d.s.getD a 0 else 0 := by
    intro a b ha hb
    have e : ∀ i ∈ range x.rows, y0.entry i a * y0.entry i b =
        (d.s.getD a 0 * d.s.getD b 0) * (d.u.entry i a * d.u.entry i b) := by
      intro i hi
      have hi' : i < c.rows := by rw [h2]; exact mem_range.1 hi
      rw [hy0, hy0, scores_eq hS i a hi' ha, scores_eq hS i b hi' hb]
      ring
    have hl := hS.left a b ha hb
    rw [h2] at hl
    rw [sum_congr rfl e, ← mul_sum, hl]
    by_cases hab : a = b
    · subst hab; simp
    · simp [hab]
  have key : ∃ y, pcaTransform ⟨p.components, some d⟩ c = Res.ok y ∧ y.rows = x.rows ∧
      ∀ i a, i < x.rows → a < y.cols → y.entry i a = if a < d.s.length then y0.entry i a else 0 := by
    unfold pcaTransform
    simp only
    rw [hmul]
    split
    · refine ⟨_, rfl, h2, ?_⟩
      intro i a _ ha
      rw [if_pos (by rw [← hS.vshape.2]; exact ha)]
    · refine ⟨_, rfl, h2, ?_⟩
      intro i a hi ha
      simp only [GMat.copyInto] at ha ⊢
      have hv : y0.cols = d.s.length := hS.vshape.2
      have hr : y0.rows = x.rows := h2
      rw [hv, hr]
      by_cases hlt : a < d.s.length
      · rw [if_pos ⟨by omega, by omega⟩, if_pos hlt]
      · rw [if_neg (by omega), if_neg hlt]
  obtain ⟨y, k1, k2, k3⟩ := key
  refine ⟨y, d.s, ?_, k2, hcount, ?_, ?_⟩
  · unfold pcaFitTransform
    rw [hfit, Res.bind_ok]
    exact k1
  · intro a ha
    rw [sum_congr rfl (fun i hi => k3 i a (mem_range.1 hi) ha)]
    by_cases hlt : a < d.s.length
    · simp only [if_pos hlt]; exact hsum0 a
    · simp [hlt]
  · intro a b ha hb
    rw [sum_congr rfl (fun i hi => by rw [k3 i a (mem_range.1 hi) ha, k3 i b (mem_range.1 hi) hb])]
    by_cases hla : a < d.s.length
    · by_cases hlb : b < d.s.length
      · simp only [if_pos hla, if_pos hlb]; exact hgram0 a b hla hlb
      · have : a ≠ b := by omega
        simp [hlb, this]
    · have : d.s.getD a 0 = 0 := by rw [List.getD_eq_getElem?_getD, List.getElem?_eq_none (by omega)]; rfl
      simp [hla, this]

section Examples
private def x0 : GMat Rat := ⟨4, 2, fun i j => if j = 0 then (if i < 2 then 1 else 3) else 5⟩
private def had : List (List Rat) := [[-1, -1, 1, 1], [1, -1, 1, -1]]
private def d0 : Svd Rat :=
  ⟨⟨4, 2, fun i k => ((had.getD k []).getD i 0) / 2⟩, [2, 0], ⟨2, 2, fun j k => if j = k then 1 else 0⟩⟩

/-- Rows (1, 5), (1, 5), (3, 5), (3, 5): the fitted matrix is centred. -/
example : ((pcaFit (fun _ => some d0) ⟨1, none⟩ x0).map fun r =>
    (List.range 4).map fun i => (r.2.entry i 0, r.2.entry i 1)) = Res.ok [(-1, 0), (-1, 0), (1, 0), (1, 0)] := by
  decide +kernel

/-- A decomposition that meets the contract for that matrix. -/
example : IsThinSvd (⟨4, 2, fun i j => if j = 0 then (if i < 2 then -1 else 1) else 0⟩ : GMat Rat) d0 := by
  refine ⟨rfl, ⟨rfl, rfl⟩, ⟨rfl, rfl⟩, ?_, ?_, ?_⟩
  · intro i j (hi : i < 4) (hj : j < 2)
    interval_cases i <;> interval_cases j <;> decide +kernel
  · intro a b (ha : a < 2) (hb : b < 2)
    interval_cases a <;> interval_cases b <;> decide +kernel
  · intro a b (ha : a < 2) (hb : b < 2)
    interval_cases a <;> interval_cases b <;> decide +kernel

/-- `Transform` does not centre: transforming a fresh copy of the training data differs from `FitTransform`. -/
theorem C80_transform_uncentred : ∃ (svd : GMat Rat → Option (Svd Rat)) (p : Pca Rat) (x : GMat Rat) (q : Pca Rat × GMat Rat),
    pcaFit svd p x = Res.ok q ∧ (pcaFitTransform svd p x).map (fun y => y.entry 0 0) = Res.ok (-1) ∧
      (pcaTransform q.1 x).map (fun y => y.entry 0 0) = Res.ok 1 := by
  refine ⟨fun _ => some d0, ⟨1, none⟩, x0, (⟨1, some d0⟩, ?_), ?_, ?_, ?_⟩
  · exact match matrixSubVector x0 (pcaMean x0) with | .ok m => m | _ => x0
  · rfl
  · decide +kernel
  · decide +kernel
end Examples

end Golearn
