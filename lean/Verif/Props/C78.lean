import Verif.Proofs.Liblinear
import Mathlib.Data.Rat.Lemmas
import Mathlib.Algebra.Order.Ring.Unbundled.Rat

/-! # C78: the sparse vectors given to liblinear -/

namespace Golearn

section
variable {K : Type} [Field K] [LinearOrder K]

/-- For training every row is represented exactly: liblinear reads from the pointer for the row a sparse form of the row, and
nothing is written or read outside the allocated memory. The number of features is one more than the columns of the first
row. -/
theorem C78_training (rows : List (List K)) (y : List K) (hr : rows ≠ []) (hy : y ≠ []) :
    ∃ p, newProblem rows y 0 = Res.ok p ∧ p.l = rows.length ∧ (∀ r0, rows[0]? = some r0 → p.n = r0.length + 1) ∧ p.y = y ∧
      ∀ i row, rows[i]? = some row → ∃ nds, p.row i = some nds ∧ Represents nds row := by
  obtain ⟨p, h1, h2, h3, h4, _, h5⟩ := newProblem_spec rows y hr hy
  exact ⟨p, h1, h2, h3, h4, fun i row hi => ⟨_, h5 i row hi, sparse_nonzero row⟩⟩

example : ∃ p, newProblem [[(0 : Rat), -2], [3, 0], [0, 0]] [1, 0, 1] 0 = Res.ok p ∧ p.row 0 = some [⟨2, -2⟩] ∧
    p.row 1 = some [⟨1, 3⟩] ∧ p.row 2 = some [] := by
  refine ⟨_, rfl, ?_, ?_, ?_⟩
  all_goals decide +kernel

/-- Training on no rows panics. -/
theorem C78_no_rows (y : List K) (bias : K) : newProblem ([] : List (List K)) y bias = Res.panic := rfl

/-- For prediction the row with its negative numbers replaced by 0 is represented. -/
theorem C78_prediction (x : List K) :
    ∃ space nds, convertVector x 0 = Res.ok space ∧ readNodes space = some nds ∧ Represents nds (positivePart x) := by
  obtain ⟨space, h1, h2⟩ := convertVector_spec x
  exact ⟨space, _, h1, h2, sparse_positive x⟩

/-- The full claim: for prediction the row is represented exactly. -/
def C78_faithful (K : Type) [Field K] [LinearOrder K] : Prop :=
  ∀ x : List K, ∃ space nds, convertVector x 0 = Res.ok space ∧ readNodes space = some nds ∧ Represents nds x

/-- It fails for negative numbers, which are left out. -/
theorem C78_drops_negative [IsStrictOrderedRing K] : ¬ C78_faithful K := by
  intro h
  obtain ⟨space, nds, h1, h2, h3⟩ := h [-1]
  obtain ⟨space', h1', h2'⟩ := convertVector_spec [(-1 : K)]
  rw [h1'] at h1
  cases h1
  rw [h2'] at h2
  have e : sparse (fun v : K => 0 < v) [-1] 0 = [] := by
    unfold sparse
    rw [if_neg (by simp)]
    rfl
  rw [e] at h2
  cases h2
  have := h3.2.2 0 (by simp)
  simp [entry] at this

/-- It holds for rows without negative numbers, and they are given to liblinear exactly as in training. -/
theorem C78_faithful_partial (x : List K) (hx : ∀ v ∈ x, 0 ≤ v) :
    ∃ space nds, convertVector x 0 = Res.ok space ∧ readNodes space = some nds ∧ Represents nds x ∧
      ∀ (rows : List (List K)) (y : List K) (p : LProblem K) (i : Nat), newProblem rows y 0 = Res.ok p → y ≠ [] →
        rows[i]? = some x → p.row i = some nds := by
  obtain ⟨space, h1, h2⟩ := convertVector_spec x
  have e : ∀ i, sparse (fun v => 0 < v) x i = sparse (fun v => v ≠ 0) x i := by
    clear h1 h2
    induction x with
    | nil => intro i; rfl
    | cons a x ih =>
      intro i
      have h0 := hx a (by simp)
      unfold sparse
      rw [ih (fun v hv => hx v (by simp [hv]))]
      by_cases ha : a = 0
      · rw [if_neg (by rw [ha]; exact lt_irrefl _), if_neg (by simp [ha])]
      · rw [if_pos (lt_of_le_of_ne h0 (Ne.symm ha)), if_pos ha]
  rw [e] at h2
  refine ⟨space, _, h1, h2, sparse_nonzero x, ?_⟩
  intro rows y p i hp hy hi
  have hr : rows ≠ [] := by rintro rfl; simp at hi
  obtain ⟨p', q1, _, _, _, _, q2⟩ := newProblem_spec rows y hr hy
  rw [hp] at q1
  cases q1
  exact q2 i x hi

example : convertVector [(0 : Rat), 2, 0, 5] 0 = Res.ok [⟨2, 2⟩, ⟨4, 5⟩, ⟨-1, 0⟩, ⟨0, 0⟩] := by decide +kernel

/-- With two classes the first label is predicted exactly if the scalar product of the weights with the row's positive part
is positive, and the second otherwise. -/
theorem C78_two_classes (m : LModel K) (x : List K) (l0 l1 : Int) (hc : m.nrClass = 2) (hl : m.label = [l0, l1])
    (hb : m.bias < 0) (hx : x.length ≤ m.nrFeature) :
    libPredict m x = Res.ok (if 0 < weigh m.w (positivePart x) then l0 else l1) := by
  obtain ⟨space, h1, h2⟩ := convertVector_spec x
  unfold libPredict
  rw [h1, Res.bind_ok, h2]
  simp only [Option.elim_some]
  unfold predictValues
  rw [if_pos hc, decValue_represents m _ _ (sparse_positive x) 0 hb (by simpa [positivePart] using hx), hc, hl]
  simp only [if_true, Nat.mul_one, Nat.add_zero]
  split <;> rfl

/-- The first of the greatest values among `k` values. -/
theorem decMax_spec (dec : Nat → K) (k i best : Nat) (hb : best < i)
    (hmax : ∀ j, j < i → dec j ≤ dec best ∧ (j < best → dec j < dec best)) :
    decMax dec k i best < i + k ∧ ∀ j, j < i + k → dec j ≤ dec (decMax dec k i best) ∧
      (j < decMax dec k i best → dec j < dec (decMax dec k i best)) := by
  induction k generalizing i best with
  | zero => exact ⟨hb, hmax⟩
  | succ k ih =>
    unfold decMax
    have e : i + (k + 1) = i + 1 + k := by omega
    rw [e]
    split
    · next h =>
      apply ih (i + 1) i (by omega)
      intro j hj
      rcases Nat.lt_or_ge j i with h' | h'
      · exact ⟨((hmax j h').1.trans_lt h).le, fun _ => (hmax j h').1.trans_lt h⟩
      · have : j = i := by omega
        subst this
        exact ⟨le_refl _, fun h => absurd h (lt_irrefl _)⟩
    · next h =>
      apply ih (i + 1) best (by omega)
      intro j hj
      rcases Nat.lt_or_ge j i with h' | h'
      · exact hmax j h'
      · have : j = i := by omega
        subst this
        exact ⟨not_lt.1 h, fun hh => absurd hh (by omega)⟩

/-- With any other number of classes the label with the greatest scalar product is predicted, the first if there are several:
class `i` has the weights `w (j * classes + i)`. -/
theorem C78_more_classes (m : LModel K) (x : List K) (hc : m.nrClass ≠ 2) (hl : m.label.length = m.nrClass) (h0 : m.label ≠ [])
    (hb : m.bias < 0) (hx : x.length ≤ m.nrFeature) :
    ∃ i l, m.label[i]? = some l ∧ libPredict m x = Res.ok l ∧ ∀ i', i' < m.nrClass →
      weigh (fun j => m.w (j * m.nrClass + i')) (positivePart x) ≤ weigh (fun j => m.w (j * m.nrClass + i)) (positivePart x) ∧
      (i' < i →
        weigh (fun j => m.w (j * m.nrClass + i')) (positivePart x) < weigh (fun j => m.w (j * m.nrClass + i)) (positivePart x)) := by
  obtain ⟨space, h1, h2⟩ := convertVector_spec x
  have hd : ∀ i, decValue m (sparse (fun v => 0 < v) x 0) i = weigh (fun j => m.w (j * m.nrClass + i)) (positivePart x) := by
    intro i
    rw [decValue_represents m _ _ (sparse_positive x) i hb (by simpa [positivePart] using hx), if_neg hc]
  have hpos : 0 < m.nrClass := by rw [← hl]; exact List.length_pos_of_ne_nil h0
  obtain ⟨g1, g2⟩ := decMax_spec (decValue m (sparse (fun v => 0 < v) x 0)) (m.nrClass - 1) 1 0 (by omega) (by
    intro j hj
    have : j = 0 := by omega
    subst this
    exact ⟨le_refl _, fun h => absurd h (lt_irrefl _)⟩)
  have e : 1 + (m.nrClass - 1) = m.nrClass := by omega
  rw [e] at g1 g2
  refine ⟨decMax (decValue m (sparse (fun v => 0 < v) x 0)) (m.nrClass - 1) 1 0, _,
    List.getElem?_eq_getElem (by rw [hl]; exact g1), ?_, ?_⟩
  · unfold libPredict
    rw [h1, Res.bind_ok, h2]
    simp only [Option.elim_some]
    unfold predictValues
    rw [if_neg hc, List.getElem?_eq_getElem (by rw [hl]; exact g1)]
    rfl
  · intro i' hi'
    rw [← hd, ← hd]
    exact g2 i' hi'

end

/-- A model with one negative weight predicts the second label for the row −1, although the weighted sum of the row is 1. -/
theorem C78_wrong_side :
    let m : LModel Rat := { nrFeature := 2, nrClass := 2, w := fun _ => -1, label := [1, 0], bias := -1 }
    weigh m.w [-1] = 1 ∧ libPredict m [-1] = Res.ok 0 := by
  decide +kernel

example : libPredict { nrFeature := 3, nrClass := 3, w := fun k => if k = 4 then 2 else 1, label := [5, 7, 9], bias := (-1 : Rat) }
    [1, 1] = Res.ok 7 := by decide +kernel

end Golearn
