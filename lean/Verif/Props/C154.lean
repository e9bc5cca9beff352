import Verif.Proofs.CartUnits
import Verif.Props.C153

/-! # C154: CART trees and the units of the columns -/

namespace Golearn

section
variable {K : Type} [Field K] [LinearOrder K] [IsStrictOrderedRing K]

/-- Each column is multiplied by a positive number of its own and moved by another. The classifier then builds the same tree with its
thresholds in the new units: the same columns, labels and shape. The rows may also come in another order. Where construction fails, it
fails in the same way. -/
theorem C154_classifier (u : Units K) (hu : u.Positive) (lg : K → K) (labels : List Int) (criterion : Criterion) (maxDepth : Int)
    (sortIdx sortIdx' : List K → List Nat) (hS : SortsIdx sortIdx) (hS' : SortsIdx sortIdx') (w : Nat) (rows rows' : LRows K Int)
    (hr : Rect w rows) (hp : (u.rows rows).Perm rows') :
    cartFit ⟨classLoss lg labels criterion, sortIdx', maxDepth⟩ (rows'.map Prod.fst) (rows'.map Prod.snd) =
      (cartFit ⟨classLoss lg labels criterion, sortIdx, maxDepth⟩ (rows.map Prod.fst) (rows.map Prod.snd)).map u.tree :=
  cartFit_units (e := ⟨classLoss lg labels criterion, sortIdx, maxDepth⟩)
    (e' := ⟨classLoss lg labels criterion, sortIdx', maxDepth⟩) hu rfl rfl (classLoss_perm lg labels criterion) hS hS' rows rows' hr hp

/-- So does the regressor. -/
theorem C154_regressor (u : Units K) (hu : u.Positive) (criterion : Criterion) (maxDepth : Int)
    (sortIdx sortIdx' : List K → List Nat) (hS : SortsIdx sortIdx) (hS' : SortsIdx sortIdx') (w : Nat) (rows rows' : LRows K K)
    (hr : Rect w rows) (hp : (u.rows rows).Perm rows') :
    cartFit ⟨regLoss criterion, sortIdx', maxDepth⟩ (rows'.map Prod.fst) (rows'.map Prod.snd) =
      (cartFit ⟨regLoss criterion, sortIdx, maxDepth⟩ (rows.map Prod.fst) (rows.map Prod.snd)).map u.tree :=
  cartFit_units (e := ⟨regLoss criterion, sortIdx, maxDepth⟩) (e' := ⟨regLoss criterion, sortIdx', maxDepth⟩) hu rfl rfl
    (regLoss_perm criterion) hS hS' rows rows' hr hp

/-- If the tree has a split, the tree built in the new units predicts for every row in these units what the old tree predicts for the
row in the old ones. What is missing is a tree without a split: it compares the first column with zero, whatever its unit, see
`C154_refuted`. -/
theorem C154_predicts_partial (u : Units K) (hu : u.Positive) (lg : K → K) (labels : List Int) (criterion : Criterion)
    (maxDepth : Int) (sortIdx sortIdx' : List K → List Nat) (hS : SortsIdx sortIdx) (hS' : SortsIdx sortIdx') (w : Nat)
    (rows : LRows K Int) (hr : Rect w rows) (t : CNode K Int)
    (hfit : cartFit ⟨classLoss lg labels criterion, sortIdx, maxDepth⟩ (rows.map Prod.fst) (rows.map Prod.snd) = Res.ok t)
    (hsplit : t.ifNeeded ≠ .nil) :
    ∃ t', cartFit ⟨classLoss lg labels criterion, sortIdx', maxDepth⟩ ((u.rows rows).map Prod.fst) ((u.rows rows).map Prod.snd) =
      Res.ok t' ∧ ∀ x, cartPredict t' (u.row x) = cartPredict t x := by
  have h := C154_classifier u hu lg labels criterion maxDepth sortIdx sortIdx' hS hS' w rows _ hr (List.Perm.refl _)
  rw [hfit, Res.map_ok] at h
  refine ⟨_, h, fun x => ?_⟩
  have hn := bestSplit_needed _ _ _ _ _ _ _ hfit
  have e : t.ifNeeded = t := by
    cases t with
    | nil => rfl
    | node l r t f a b nd =>
      cases nd with
      | true => rfl
      | false => exact absurd rfl hsplit
  rw [e] at hn
  unfold cartPredict
  rw [predict_units hu x t hn]

/-- The same for the regressor. -/
theorem C154_regressor_predicts_partial (u : Units K) (hu : u.Positive) (criterion : Criterion)
    (maxDepth : Int) (sortIdx sortIdx' : List K → List Nat) (hS : SortsIdx sortIdx) (hS' : SortsIdx sortIdx') (w : Nat)
    (rows : LRows K K) (hr : Rect w rows) (t : CNode K K)
    (hfit : cartFit ⟨regLoss criterion, sortIdx, maxDepth⟩ (rows.map Prod.fst) (rows.map Prod.snd) = Res.ok t)
    (hsplit : t.ifNeeded ≠ .nil) :
    ∃ t', cartFit ⟨regLoss criterion, sortIdx', maxDepth⟩ ((u.rows rows).map Prod.fst) ((u.rows rows).map Prod.snd) =
      Res.ok t' ∧ ∀ x, cartPredict t' (u.row x) = cartPredict t x := by
  have h := C154_regressor u hu criterion maxDepth sortIdx sortIdx' hS hS' w rows _ hr (List.Perm.refl _)
  rw [hfit, Res.map_ok] at h
  refine ⟨_, h, fun x => ?_⟩
  have hn := bestSplit_needed _ _ _ _ _ _ _ hfit
  have e : t.ifNeeded = t := by
    cases t with
    | nil => rfl
    | node l r t f a b nd =>
      cases nd with
      | true => rfl
      | false => exact absurd rfl hsplit
  rw [e] at hn
  unfold cartPredict
  rw [predict_units hu x t hn]

end

section Examples

/-- From degrees Celsius to degrees Fahrenheit, and from metres to centimetres. -/
def toFahrenheit : Units ℚ := ⟨fun f => if f = 0 then 9 / 5 else 100, fun f => if f = 0 then 32 else 0⟩

theorem toFahrenheit_positive : toFahrenheit.Positive := by
  intro f
  show (0 : ℚ) < if f = 0 then 9 / 5 else 100
  split <;> norm_num

/-- Six rows: the thresholds 9/2 and 3 become 401/10 and 300. -/
theorem C154_witness : Rect 2 cartRows ∧ (toFahrenheit.rows cartRows).map Prod.fst ≠ cartRows.map Prod.fst ∧
    cartFit ⟨classLoss (fun x => x) [1, 2, 7] .gini, idxSort, -1⟩ (cartRows.map Prod.fst) (cartRows.map Prod.snd) =
      Res.ok (.node (.node .nil .nil 3 1 2 1 true) .nil (9 / 2) 0 1 7 true) ∧
    cartFit ⟨classLoss (fun x => x) [1, 2, 7] .gini, idxSort, -1⟩ ((toFahrenheit.rows cartRows).map Prod.fst)
        ((toFahrenheit.rows cartRows).map Prod.snd) =
      Res.ok (.node (.node .nil .nil 300 1 2 1 true) .nil (401 / 10) 0 1 7 true) := by
  refine ⟨?_, by decide +kernel, by decide +kernel, by decide +kernel⟩
  intro p hp
  simp only [cartRows, List.mem_cons, List.not_mem_nil, or_false] at hp
  rcases hp with rfl | rfl | rfl | rfl | rfl | rfl <;> rfl

/-- Two rows at -10 degrees Celsius with the label 5. The tree has no split, and predicts 5 for -10 degrees Celsius. In degrees
Fahrenheit it predicts 0 for the same row. -/
theorem C154_zero_matters :
    ((cartFit ⟨classLoss (fun x => x) [5] .gini, idxSort, -1⟩ [[(-10 : ℚ)], [-10]] [5, 5]).bind
      fun t => cartPredict t [-10]) = Res.ok 5 ∧
    ((cartFit ⟨classLoss (fun x => x) [5] .gini, idxSort, -1⟩ [toFahrenheit.row [-10], toFahrenheit.row [-10]] [5, 5]).bind
      fun t => cartPredict t (toFahrenheit.row [-10])) = Res.ok 0 := by
  constructor <;> decide +kernel

/-- So the full claim fails. -/
theorem C154_refuted : ¬ UnitsDoNotMatter := by
  intro h
  obtain ⟨h1, h2⟩ := C154_zero_matters
  obtain ⟨t, e1, e2⟩ := Res.bind_eq_ok.1 h1
  obtain ⟨t', e1', e2'⟩ := Res.bind_eq_ok.1 h2
  have := h toFahrenheit [5] idxSort (-1) 1 [([-10], 5), ([-10], 5)] [-10] t t' toFahrenheit_positive (by decide) idxSort_sorts
    (by intro p hp; simp at hp; subst hp; rfl) (by simp) (by intro p hp; simp at hp; subst hp; simp) rfl e1 e1'
  rw [e2, e2'] at this
  exact absurd (Res.ok.inj this) (by decide)

end Examples

end Golearn
