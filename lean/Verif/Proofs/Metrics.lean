import Verif.Spec.Metrics
import Verif.Proofs.Bytes
import Mathlib.Analysis.InnerProductSpace.PiL2
import Mathlib.Algebra.BigOperators.Intervals

/-! # Lemmas about the distances -/

namespace Golearn
open Finset

namespace Mat

theorem sameShape_iff {x y : Mat} : x.sameShape y = true ↔ x.rows = y.rows ∧ x.cols = y.cols := by
  simp [sameShape]

theorem sameShape_symm (x y : Mat) : x.sameShape y = y.sameShape x := by
  unfold sameShape
  rw [Bool.eq_iff_iff]
  simp only [Bool.and_eq_true, beq_iff_eq]
  constructor <;> rintro ⟨a, b⟩ <;> exact ⟨a.symm, b.symm⟩

theorem foldl_add (n : Nat) (g : Nat → ℝ) (a : ℝ) :
    (List.range n).foldl (fun acc j => acc + g j) a = a + ∑ j ∈ range n, g j := by
  induction n with
  | zero => simp
  | succ n ih => rw [List.range_succ, List.foldl_append, ih, List.foldl_cons, List.foldl_nil, sum_range_succ, add_assoc]

theorem loop_add (r c : Nat) (g : Nat → Nat → ℝ) :
    loop r c (fun acc i j => acc + g i j) 0 = ∑ i ∈ range r, ∑ j ∈ range c, g i j := by
  unfold loop
  have : (fun (acc : ℝ) (i : Nat) => (List.range c).foldl (fun acc j => acc + g i j) acc) =
      fun acc i => acc + ∑ j ∈ range c, g i j := by
    funext acc i
    exact foldl_add c (g i) acc
  rw [this, foldl_add, zero_add]

theorem loop_congr {α : Type} (r c : Nat) (f f' : α → Nat → Nat → α) (h : ∀ a i j, i < r → j < c → f a i j = f' a i j) (a : α) :
    loop r c f a = loop r c f' a := by
  have h1 : ∀ (l : List Nat) (i : Nat) (a : α), i < r → (∀ j ∈ l, j < c) →
      l.foldl (fun acc j => f acc i j) a = l.foldl (fun acc j => f' acc i j) a := by
    intro l i
    induction l with
    | nil => intros; rfl
    | cons j l ih =>
      intro a hi hl
      rw [List.foldl_cons, List.foldl_cons, h a i j hi (hl j List.mem_cons_self)]
      exact ih _ hi fun j hj => hl j (List.mem_cons_of_mem _ hj)
  have h2 : ∀ (l : List Nat) (a : α), (∀ i ∈ l, i < r) →
      l.foldl (fun acc i => (List.range c).foldl (fun acc j => f acc i j) acc) a =
      l.foldl (fun acc i => (List.range c).foldl (fun acc j => f' acc i j) acc) a := by
    intro l
    induction l with
    | nil => intros; rfl
    | cons i l ih =>
      intro a hl
      rw [List.foldl_cons, List.foldl_cons, h1 _ i a (hl i List.mem_cons_self) (fun j hj => List.mem_range.1 hj)]
      exact ih _ fun j hj => hl j (List.mem_cons_of_mem _ hj)
  exact h2 _ a fun i hi => List.mem_range.1 hi

/-- The maximum of a loop: at least the start and every entry, and one of them. -/
theorem foldl_max (n : Nat) (g : Nat → ℝ) (a : ℝ) :
    let m := (List.range n).foldl (fun acc j => max acc (g j)) a
    a ≤ m ∧ (∀ j < n, g j ≤ m) ∧ (m = a ∨ ∃ j < n, m = g j) := by
  induction n with
  | zero => simp
  | succ n ih =>
    obtain ⟨h1, h2, h3⟩ := ih
    simp only [List.range_succ, List.foldl_append, List.foldl_cons, List.foldl_nil]
    refine ⟨h1.trans (le_max_left _ _), ?_, ?_⟩
    · intro j hj
      rcases Nat.lt_succ_iff_lt_or_eq.1 hj with h | rfl
      · exact (h2 j h).trans (le_max_left _ _)
      · exact le_max_right _ _
    · rcases le_total ((List.range n).foldl (fun acc j => max acc (g j)) a) (g n) with h | h
      · exact Or.inr ⟨n, Nat.lt_succ_self n, max_eq_right h⟩
      · rw [max_eq_left h]
        rcases h3 with h3 | ⟨j, hj, h3⟩
        · exact Or.inl h3
        · exact Or.inr ⟨j, Nat.lt_succ_of_lt hj, h3⟩

theorem loop_max (r c : Nat) (g : Nat → Nat → ℝ) (a : ℝ) :
    let m := loop r c (fun acc i j => max acc (g i j)) a
    a ≤ m ∧ (∀ i j, i < r → j < c → g i j ≤ m) ∧ (m = a ∨ ∃ i j, i < r ∧ j < c ∧ m = g i j) := by
  unfold loop
  induction r with
  | zero => simp
  | succ r ih =>
    obtain ⟨h1, h2, h3⟩ := ih
    simp only [List.range_succ, List.foldl_append, List.foldl_cons, List.foldl_nil]
    obtain ⟨f1, f2, f3⟩ := foldl_max c (g r)
      ((List.range r).foldl (fun acc i => (List.range c).foldl (fun acc j => max acc (g i j)) acc) a)
    refine ⟨h1.trans f1, ?_, ?_⟩
    · intro i j hi hj
      rcases Nat.lt_succ_iff_lt_or_eq.1 hi with h | rfl
      · exact (h2 i j h hj).trans f1
      · exact f2 j hj
    · rcases f3 with f3 | ⟨j, hj, f3⟩
      · rw [f3]
        rcases h3 with h3 | ⟨i, j, hi, hj, h3⟩
        · exact Or.inl h3
        · exact Or.inr ⟨i, j, Nat.lt_succ_of_lt hi, hj, h3⟩
      · exact Or.inr ⟨r, j, Nat.lt_succ_self r, hj, f3⟩

end Mat

/-- The entries of a matrix as a vector of the Euclidean space. -/
noncomputable def Mat.vec (x : Mat) (r c : Nat) : EuclideanSpace ℝ (Fin r × Fin c) :=
  WithLp.toLp 2 fun p => x.entry p.1 p.2

theorem sum_entries (r c : Nat) (g : Nat → Nat → ℝ) :
    ∑ i ∈ range r, ∑ j ∈ range c, g i j = ∑ p : Fin r × Fin c, g p.1 p.2 := by
  rw [Fintype.sum_prod_type, Finset.sum_range]
  apply Finset.sum_congr rfl
  intro i _
  rw [Finset.sum_range]

theorem innerProduct_ok {x y : Mat} (h : x.sameShape y = true) :
    innerProduct x y = Res.ok (∑ i ∈ range x.rows, ∑ j ∈ range x.cols, x.entry i j * y.entry i j) := by
  unfold innerProduct Mat.mulElem
  rw [if_pos h, Res.map_ok]
  unfold Mat.total
  rw [Mat.loop_add]

theorem euclideanDist_ok {x y : Mat} (h : x.sameShape y = true) :
    euclideanDist x y = Res.ok (Real.sqrt (∑ i ∈ range x.rows, ∑ j ∈ range x.cols,
      (x.entry i j - y.entry i j) * (x.entry i j - y.entry i j))) := by
  unfold euclideanDist Mat.sub
  rw [if_pos h, Res.bind_ok, innerProduct_ok (by simp [Mat.sameShape]), Res.map_ok]

theorem manhattanDist_ok {x y : Mat} (h : x.sameShape y = true) :
    manhattanDist x y = Res.ok (∑ i ∈ range x.rows, ∑ j ∈ range x.cols, |x.entry i j - y.entry i j|) := by
  unfold manhattanDist
  rw [if_pos h, Mat.loop_add]

theorem cranberraDist_ok {x y : Mat} (h : x.sameShape y = true) :
    cranberraDist x y = Res.ok (∑ i ∈ range x.rows, ∑ j ∈ range x.cols,
      cranberraStep |x.entry i j - y.entry i j| (|x.entry i j| + |y.entry i j|)) := by
  unfold cranberraDist
  rw [if_pos h, Mat.loop_add]

theorem euclideanDist_vec {x y : Mat} {r c : Nat} (h : x.sameShape y = true) (hr : x.rows = r) (hc : x.cols = c) :
    euclideanDist x y = Res.ok (dist (x.vec r c) (y.vec r c)) := by
  subst hr; subst hc
  rw [euclideanDist_ok h, EuclideanSpace.dist_eq, sum_entries]
  congr 2
  apply Finset.sum_congr rfl
  intro p _
  rw [Real.dist_eq, sq_abs, pow_two]
  rfl

/-- The common shape of the proofs that a distance is a metric. -/
theorem isMetric_of {dist : Mat → Mat → Res ℝ} {f : (r c : Nat) → (Nat → Nat → ℝ) → ℝ}
    (hok : ∀ x y : Mat, x.sameShape y = true →
      dist x y = Res.ok (f x.rows x.cols fun i j => |x.entry i j - y.entry i j|))
    (hbad : ∀ x y : Mat, x.sameShape y = false → dist x y = Res.panic)
    (hcongr : ∀ r c g g', (∀ i j, i < r → j < c → g i j = g' i j) → f r c g = f r c g')
    (hnn : ∀ r c g, (∀ i j, 0 ≤ g i j) → 0 ≤ f r c g)
    (hz : ∀ r c g, (∀ i j, 0 ≤ g i j) → (f r c g = 0 ↔ ∀ i j, i < r → j < c → g i j = 0))
    (htri : ∀ r c g1 g2 g3, (∀ i j, 0 ≤ g1 i j) → (∀ i j, 0 ≤ g2 i j) → (∀ i j, 0 ≤ g3 i j) →
      (∀ i j, g3 i j ≤ g1 i j + g2 i j) → f r c g3 ≤ f r c g1 + f r c g2) : IsMetric dist := by
  have hshape : ∀ x y d, dist x y = Res.ok d → x.sameShape y = true := by
    intro x y d h
    by_contra hs
    rw [Bool.not_eq_true] at hs
    rw [hbad x y hs] at h
    cases h
  refine ⟨fun x y h => ⟨_, hok x y h⟩, hbad, ?_, ?_, ?_, ?_⟩
  · intro x y d h
    rw [hok x y (hshape x y d h), Res.ok.injEq] at h
    rw [← h]
    exact hnn _ _ _ fun _ _ => abs_nonneg _
  · intro x y
    constructor
    · intro h
      have hs := hshape x y 0 h
      rw [hok x y hs, Res.ok.injEq, hz _ _ _ fun _ _ => abs_nonneg _] at h
      rw [Mat.sameShape_iff] at hs
      exact ⟨hs.1, hs.2, fun i j hi hj => sub_eq_zero.1 (abs_eq_zero.1 (h i j hi hj))⟩
    · rintro ⟨h1, h2, h3⟩
      have hs : x.sameShape y = true := Mat.sameShape_iff.2 ⟨h1, h2⟩
      rw [hok x y hs, Res.ok.injEq, hz _ _ _ fun _ _ => abs_nonneg _]
      intro i j hi hj
      rw [h3 i j hi hj, sub_self, abs_zero]
  · intro x y
    by_cases hs : x.sameShape y = true
    · rw [hok x y hs, hok y x (by rw [Mat.sameShape_symm]; exact hs)]
      rw [Mat.sameShape_iff] at hs
      rw [hs.1, hs.2]
      congr 2
      funext i j
      exact abs_sub_comm _ _
    · rw [Bool.not_eq_true] at hs
      rw [hbad x y hs, hbad y x (by rw [Mat.sameShape_symm]; exact hs)]
  · intro x y z a b c h1 h2 h3
    have s1 := hshape x y a h1
    have s2 := hshape y z b h2
    have s3 := hshape x z c h3
    rw [hok x y s1, Res.ok.injEq] at h1
    rw [hok y z s2, Res.ok.injEq] at h2
    rw [hok x z s3, Res.ok.injEq] at h3
    rw [Mat.sameShape_iff] at s1
    rw [← s1.1, ← s1.2] at h2
    rw [← h1, ← h2, ← h3]
    refine htri _ _ _ _ _ (fun _ _ => abs_nonneg _) (fun _ _ => abs_nonneg _) (fun _ _ => abs_nonneg _) ?_
    intro i j
    exact abs_sub_le _ _ _

end Golearn
