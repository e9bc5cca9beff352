import Verif.Proofs.Cart
import Mathlib.Algebra.Order.Ring.Rat

/-! # C53: a CART split is a partition of the rows, labels with their rows -/

namespace Golearn

variable {K : Type} [Field K] [LinearOrder K] {Y : Type}

/-- For rows with a label each and a column that all rows have, the left side has exactly the rows below the threshold, the
right side the others; both are in their first order, and every row keeps its label. -/
theorem C53_partition (data : List (List K)) (y : List Y) (hlen : data.length = y.length) (f : Nat)
    (hf : ∀ x ∈ data, f < x.length) (t : K) :
    ∃ s, createSplit data f y t = Res.ok s ∧ s.left.length = s.leftY.length ∧ s.right.length = s.rightY.length ∧
      s.left.zip s.leftY = (data.zip y).filter (fun p => decide (p.1.getD f 0 < t)) ∧
      s.right.zip s.rightY = (data.zip y).filter (fun p => decide (t ≤ p.1.getD f 0)) ∧
      (s.left.zip s.leftY ++ s.right.zip s.rightY).Perm (data.zip y) := by
  have h1 : (data.zip y).map Prod.fst = data := List.map_fst_zip hlen.le
  have h2 : (data.zip y).map Prod.snd = y := List.map_snd_zip hlen.ge
  have hr : HasCol f (data.zip y) := fun p hp => hf p.1 (List.of_mem_zip hp).1
  have e := createSplit_spec t (data.zip y) hr
  rw [h1, h2] at e
  have z : ∀ l : LRows K Y, (l.map Prod.fst).zip (l.map Prod.snd) = l := by
    intro l
    rw [List.zip_map']
    simp
  have er : rights f t (data.zip y) = (data.zip y).filter (fun p => decide (t ≤ p.1.getD f 0)) := by
    apply List.filter_congr
    intro p _
    rw [← decide_not]
    simp [colVal]
  refine ⟨_, e, by simp [splitOf], by simp [splitOf], z _, (z _).trans er, ?_⟩
  simp only [splitOf]
  rw [z, z]
  exact List.filter_append_perm _ _

/-- Five rows of rational numbers with labels, cut in the second column. -/
example : createSplit [[1, 5], [2, 3], [3, 9], [4, 4], [5, 5]] 1 [10, 20, 30, 40, 50] (9 / 2 : ℚ) =
    Res.ok ⟨[[2, 3], [4, 4]], [[1, 5], [3, 9], [5, 5]], [20, 40], [10, 30, 50]⟩ ∧
    ([[1, 5], [2, 3], [3, 9], [4, 4], [5, 5]] : List (List ℚ)).length = ([10, 20, 30, 40, 50] : List Nat).length := by
  decide +kernel

/-- Without a label for each row, the split panics. -/
theorem C53_missing_labels : createSplit [[1], [2]] 0 ([7] : List Nat) (1 : ℚ) = Res.panic := by decide +kernel

end Golearn
