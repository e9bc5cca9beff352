import Verif.Spec.Pca
import Mathlib.Tactic.Ring
import Mathlib.Algebra.BigOperators.Ring.Finset

/-! # Lemmas about principal components -/

namespace Golearn
open Finset

variable {R : Type} [Field R]

theorem list_sum_range (f : Nat → R) (n : Nat) : ((List.range n).map f).sum = ∑ i ∈ range n, f i := by
  induction n with
  | zero => simp
  | succ n ih => rw [List.range_succ, List.map_append, List.sum_append, ih, sum_range_succ]; simp

theorem GMat.set_entry (m : GMat R) (i j : Nat) (v : R) (a b : Nat) :
    (m.set i j v).entry a b = if a = i ∧ b = j then v else m.entry a b := rfl

theorem subRow_spec (i : Nat) (w : Nat → R) (n : Nat) (m : GMat R) :
    let m' := (List.range n).foldl (fun m j => m.set i j (m.entry i j - w j)) m
    m'.rows = m.rows ∧ m'.cols = m.cols ∧
      ∀ a b, m'.entry a b = if a = i ∧ b < n then m.entry a b - w b else m.entry a b := by
  induction n with
  | zero => exact ⟨rfl, rfl, fun a b => by simp⟩
  | succ n ih =>
    obtain ⟨h1, h2, h3⟩ := ih
    rw [List.range_succ, List.foldl_append]
    refine ⟨h1, h2, ?_⟩
    intro a b
    rw [List.foldl_cons, List.foldl_nil, GMat.set_entry, h3 a b, h3 i n]
    by_cases ha : a = i
    · subst ha
      by_cases hb : b = n
      · subst hb; simp
      · by_cases hlt : b < n
        · simp [hb, hlt, Nat.lt_succ_of_lt hlt]
        · have : ¬ b < n + 1 := by omega
          simp [hb, hlt, this]
    · simp [ha]

theorem subVector_spec (c : Nat) (w : Nat → R) (n : Nat) (m : GMat R) (hc : m.cols = c) :
    let m' := (List.range n).foldl
      (fun m i => (List.range m.cols).foldl (fun m j => m.set i j (m.entry i j - w j)) m) m
    m'.rows = m.rows ∧ m'.cols = c ∧
      ∀ a b, m'.entry a b = if a < n ∧ b < c then m.entry a b - w b else m.entry a b := by
  induction n with
  | zero => exact ⟨rfl, hc, fun a b => by simp⟩
  | succ n ih =>
    obtain ⟨h1, h2, h3⟩ := ih
    rw [List.range_succ, List.foldl_append]
    simp only [List.foldl_cons, List.foldl_nil]
    obtain ⟨k1, k2, k3⟩ := subRow_spec n w _ ((List.range n).foldl
      (fun m i => (List.range m.cols).foldl (fun m j => m.set i j (m.entry i j - w j)) m) m)
    refine ⟨k1.trans h1, k2.trans h2, ?_⟩
    intro a b
    rw [k3 a b, h3 a b, h2]
    by_cases hb : b < c
    · by_cases ha : a = n
      · subst ha; simp [hb]
      · by_cases hl : a < n
        · simp [ha, hl, hb, Nat.lt_succ_of_lt hl]
        · have : ¬ a < n + 1 := by omega
          simp [ha, hl, this]
    · simp [hb]

theorem matrixSubVector_mean (x : GMat R) :
    ∃ x', matrixSubVector x (pcaMean x) = Res.ok x' ∧ x'.rows = x.rows ∧ x'.cols = x.cols ∧
      ∀ i j, i < x.rows → j < x.cols → x'.entry i j = x.entry i j - colMean x j := by
  obtain ⟨h1, h2, h3⟩ := subVector_spec x.cols (fun j => (pcaMean x).entry 0 j) x.rows x rfl
  refine ⟨_, ?_, h1, h2, ?_⟩
  · unfold matrixSubVector
    rw [if_neg (by simp [pcaMean])]
  · intro i j hi hj
    rw [h3 i j, if_pos ⟨hi, hj⟩]
    congr 1

theorem centred_sum [CharZero R] {x x' : GMat R} (h : ∀ i j, i < x.rows → j < x.cols → x'.entry i j = x.entry i j - colMean x j)
    (j : Nat) (hj : j < x.cols) : ∑ i ∈ range x.rows, x'.entry i j = 0 := by
  rw [sum_congr rfl (fun i hi => h i j (mem_range.1 hi) hj), sum_sub_distrib, sum_const, card_range, nsmul_eq_mul]
  unfold colMean
  by_cases hz : x.rows = 0
  · simp [hz]
  · have : (x.rows : R) ≠ 0 := Nat.cast_ne_zero.2 hz
    rw [mul_div_cancel₀ _ this, sub_self]

/-- Multiplying by the right vectors gives the left vectors scaled. -/
theorem scores_eq {x : GMat R} {d : Svd R} (h : IsThinSvd x d) (i a : Nat) (hi : i < x.rows) (ha : a < d.s.length) :
    ∑ k ∈ range x.cols, x.entry i k * d.v.entry k a = d.u.entry i a * d.s.getD a 0 := by
  have e : ∀ k ∈ range x.cols, x.entry i k * d.v.entry k a =
      ∑ l ∈ range d.s.length, (d.u.entry i l * d.s.getD l 0) * (d.v.entry k l * d.v.entry k a) := by
    intro k hk
    rw [h.product i k hi (mem_range.1 hk), sum_mul]
    apply sum_congr rfl
    intro l _
    ring
  rw [sum_congr rfl e, sum_comm]
  have e2 : ∀ l ∈ range d.s.length, ∑ k ∈ range x.cols,
      (d.u.entry i l * d.s.getD l 0) * (d.v.entry k l * d.v.entry k a) =
      (d.u.entry i l * d.s.getD l 0) * if l = a then 1 else 0 := by
    intro l hl
    rw [← mul_sum, h.right l a (mem_range.1 hl) ha]
  rw [sum_congr rfl e2]
  simp [ha]

end Golearn
