import Verif.Proofs.CartRelabel
import Verif.Proofs.CartUnits
import Verif.Props.C153

/-! # C158: CART regressors and the units of the labels -/

namespace Golearn

section
variable {K : Type} [Field K] [LinearOrder K] [IsStrictOrderedRing K]

theorem meanK_units (s m : K) (l : List K) (h : l ≠ []) : meanK (l.map fun y => s * y + m) = s * meanK l + m := by
  have hn : ((l.length : Nat) : K) ≠ 0 := by
    rw [Ne, Nat.cast_eq_zero]
    exact fun e => h (List.length_eq_zero_iff.1 e)
  have hs : (l.map fun y => s * y + m).sum = s * l.sum + l.length * m := by
    clear h hn
    induction l with
    | nil => simp
    | cons a l ih =>
      rw [List.map_cons, List.sum_cons, ih, List.sum_cons, List.length_cons]
      push_cast
      ring
  unfold meanK
  rw [List.length_map, hs]
  field_simp

theorem maeImpurity_units (s m : K) (l : List K) (h : l ≠ []) :
    maeImpurity (l.map fun y => s * y + m) = |s| * maeImpurity l := by
  unfold maeImpurity
  rw [meanK_units s m l h, List.map_map]
  have e : (l.map ((fun x => |x - (s * meanK l + m)|) ∘ fun y => s * y + m)) =
      (l.map fun x => |x - meanK l|).map fun y => |s| * y + 0 := by
    rw [List.map_map]
    apply List.map_congr_left
    intro x _
    simp only [Function.comp]
    rw [add_zero, ← abs_mul]
    congr 1
    ring
  rw [e, meanK_units _ _ _ (by simpa using h), add_zero]

theorem mseImpurity_units (s m : K) (l : List K) (h : l ≠ []) :
    mseImpurity (l.map fun y => s * y + m) = s * s * mseImpurity l := by
  unfold mseImpurity
  rw [meanK_units s m l h, List.map_map]
  have e : ∀ g : K → K, (∀ x, g (s * x + m - (s * meanK l + m)) = s * s * g (x - meanK l)) →
      (l.map ((fun x => g (x - (s * meanK l + m))) ∘ fun y => s * y + m)) =
      (l.map fun x => g (x - meanK l)).map fun y => s * s * y + 0 := by
    intro g hg
    rw [List.map_map]
    apply List.map_congr_left
    intro x _
    simp only [Function.comp]
    rw [add_zero, hg]
  have := e (fun d => d * d) (fun x => by ring)
  first
    | rw [this, meanK_units _ _ _ (by simpa using h), add_zero]
    | (have := e (fun d => d ^ 2) (fun x => by ring)
       rw [this, meanK_units _ _ _ (by simpa using h), add_zero])

/-- The factor of the loss. -/
private def lossFactor (s : K) : Criterion → K
  | .mae => |s|
  | _ => s * s

private theorem lossFactor_pos {s : K} (hs : s ≠ 0) (c : Criterion) : 0 < lossFactor s c := by
  cases c <;> first | exact abs_pos.2 hs | exact mul_self_pos.2 hs

private theorem regLoss_units (s m : K) (c : Criterion) : RelLoss (fun y => s * y + m) (lossFactor s c) (regLoss c) := by
  intro y y' hp
  rw [← regLoss_perm c _ _ hp]
  unfold regLoss
  by_cases h : y = []
  · subst h
    exact ⟨rfl, by simp⟩
  · rw [if_neg h, if_neg (by simpa using h)]
    have e1 : meanAbsErr (y.map fun y => s * y + m) (averageOf (y.map fun y => s * y + m)) = |s| * meanAbsErr y (averageOf y) := by
      rw [meanAbsErr_eq, meanAbsErr_eq, maeImpurity_units s m y h]
    have e2 : meanSqErr (y.map fun y => s * y + m) (averageOf (y.map fun y => s * y + m)) = s * s * meanSqErr y (averageOf y) := by
      rw [meanSqErr_eq, meanSqErr_eq, mseImpurity_units s m y h]
    have e3 : averageOf (y.map fun y => s * y + m) = s * averageOf y + m := by
      rw [averageOf_eq, averageOf_eq, meanK_units s m y h]
    rw [e3] at e1 e2
    cases c <;> simp only [e3] <;> first | rw [e1] | rw [e2] | skip
    all_goals exact ⟨rfl, by simp⟩

/-- Every label is multiplied by a number that is not zero, and moved by another. The regressor then builds the same splits, with its
labels in the new units. The rows may also come in another order. Where construction fails, it fails in the same way. A tree
without a split counts as none. -/
theorem C158_tree (s m : K) (hs : s ≠ 0) (criterion : Criterion) (maxDepth : Int)
    (sortIdx sortIdx' : List K → List Nat) (hS : SortsIdx sortIdx) (hS' : SortsIdx sortIdx') (w : Nat) (rows rows' : LRows K K)
    (hr : Rect w rows) (hp : (relabel (fun y => s * y + m) rows).Perm rows') :
    (cartFit ⟨regLoss criterion, sortIdx', maxDepth⟩ (rows'.map Prod.fst) (rows'.map Prod.snd)).map CNode.ifNeeded =
      ((cartFit ⟨regLoss criterion, sortIdx, maxDepth⟩ (rows.map Prod.fst) (rows.map Prod.snd)).map CNode.ifNeeded).map
        (CNode.relabel fun y => s * y + m) :=
  cartFit_relabel (e := ⟨regLoss criterion, sortIdx, maxDepth⟩) (e' := ⟨regLoss criterion, sortIdx', maxDepth⟩)
    (lossFactor_pos hs criterion) rfl rfl (regLoss_units s m criterion) hS hS' rows rows' hr hp

/-- If the tree has a split, the tree built for the new labels predicts for every row the value of the old tree in the new units. What
is missing is a tree without a split: it predicts zero for rows that are not negative in the first column, whatever the unit, see
`C158_refuted`. -/
theorem C158_predicts_partial (s m : K) (hs : s ≠ 0) (criterion : Criterion) (maxDepth : Int)
    (sortIdx sortIdx' : List K → List Nat) (hS : SortsIdx sortIdx) (hS' : SortsIdx sortIdx') (w : Nat) (rows rows' : LRows K K)
    (hr : Rect w rows) (hp : (relabel (fun y => s * y + m) rows).Perm rows') (t : CNode K K)
    (hfit : cartFit ⟨regLoss criterion, sortIdx, maxDepth⟩ (rows.map Prod.fst) (rows.map Prod.snd) = Res.ok t)
    (hsplit : t.ifNeeded ≠ .nil) :
    ∃ t', cartFit ⟨regLoss criterion, sortIdx', maxDepth⟩ (rows'.map Prod.fst) (rows'.map Prod.snd) = Res.ok t' ∧
      ∀ x, cartPredict t' x = (cartPredict t x).map fun y => s * y + m := by
  have h := C158_tree s m hs criterion maxDepth sortIdx sortIdx' hS hS' w rows rows' hr hp
  rw [hfit, Res.map_ok, Res.map_ok] at h
  obtain ⟨t', h1, h2⟩ := Res.map_eq_ok.1 h
  have e : t.ifNeeded = t := by
    cases t with
    | nil => rfl
    | node l r t f a b nd =>
      cases nd with
      | true => rfl
      | false => exact absurd rfl hsplit
  have e' : t' = t.relabel fun y => s * y + m := by
    rw [e] at h2 hsplit
    cases t' with
    | nil =>
      cases t with
      | nil => exact absurd rfl hsplit
      | node => cases h2
    | node l r t0 f a b nd =>
      cases nd with
      | true => exact h2
      | false =>
        cases t with
        | nil => exact absurd rfl hsplit
        | node => cases h2
  refine ⟨t', h1, fun x => ?_⟩
  rw [e']
  unfold cartPredict
  rw [predict_relabel]
  cases predictNode t x with
  | ok o => cases o <;> rfl
  | err => rfl
  | panic => rfl

end

section Examples

def c158Rows : LRows ℚ ℚ := [([1, 5], 10), ([2, 1], 12), ([3, 4], 20), ([4, 2], 26), ([5, 3], 90)]

/-- Labels in degrees Celsius and in degrees Fahrenheit: the same splits. -/
theorem C158_witness : Rect 2 c158Rows ∧
    (cartFit ⟨regLoss .mse, idxSort, 2⟩ (c158Rows.map Prod.fst) (c158Rows.map Prod.snd)).map (fun t => decide (t.ifNeeded ≠ .nil)) =
      Res.ok true ∧
    ((cartFit ⟨regLoss .mse, idxSort, 2⟩ (c158Rows.map Prod.fst) (c158Rows.map Prod.snd)).bind fun t =>
      mapRes (cartPredict t) [[1, 5], [3, 4], [5, 3]]) = Res.ok [11, 23, 90] ∧
    ((cartFit ⟨regLoss .mse, idxSort, 2⟩ (c158Rows.map Prod.fst) ((relabel (fun y => 9 / 5 * y + 32) c158Rows).map Prod.snd)).bind
      fun t => mapRes (cartPredict t) [[1, 5], [3, 4], [5, 3]]) = Res.ok [259 / 5, 367 / 5, 194] := by
  refine ⟨?_, by decide +kernel, by decide +kernel, by decide +kernel⟩
  intro p hp
  simp only [c158Rows, List.mem_cons, List.not_mem_nil, or_false] at hp
  rcases hp with rfl | rfl | rfl | rfl | rfl <;> rfl

/-- Two rows with the same label: the prediction is zero in both units. -/
theorem C158_no_split :
    ((cartFit ⟨regLoss .mse, idxSort, -1⟩ [[(1 : ℚ)], [2]] [5, 5]).bind fun t => cartPredict t [1]) = Res.ok 0 ∧
    ((cartFit ⟨regLoss .mse, idxSort, -1⟩ [[(1 : ℚ)], [2]] [41, 41]).bind fun t => cartPredict t [1]) = Res.ok 0 := by
  constructor <;> decide +kernel

/-- So the full claim fails. -/
theorem C158_refuted : ¬ LabelUnitsDoNotMatter := by
  intro h
  obtain ⟨h1, h2⟩ := C158_no_split
  obtain ⟨t, e1, e2⟩ := Res.bind_eq_ok.1 h1
  obtain ⟨t', e1', e2'⟩ := Res.bind_eq_ok.1 h2
  have e3 : (relabel (fun y => 9 / 5 * y + 32) ([([1], 5), ([2], 5)] : LRows ℚ ℚ)).map Prod.snd = [41, 41] := by decide +kernel
  have := h (9 / 5) 32 .mse idxSort (-1) 1 [([1], 5), ([2], 5)] [1] t t' 0 0 (by norm_num) idxSort_sorts
    (by intro p hp; simp at hp; rcases hp with rfl | rfl <;> rfl) (by simp) rfl e1 (by rw [e3]; exact e1') e2 e2'
  norm_num at this

end Examples

end Golearn
