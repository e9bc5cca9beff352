import Verif.Proofs.CartCopies
import Verif.Props.C56
import Verif.Props.C153

/-! # C155: CART trees of rows that all occur several times -/

namespace Golearn

section
variable {K : Type} [Field K] [LinearOrder K] [IsStrictOrderedRing K]

/-- The classifier builds the tree of `rows` also from a list that has every row `k` times, in any order, and with any sort. -/
theorem C155_classifier (k : Nat) (hk : 0 < k) (lg : K → K) (labels : List Int) (criterion : Criterion) (maxDepth : Int)
    (sortIdx sortIdx' : List K → List Nat) (hS : SortsIdx sortIdx) (hS' : SortsIdx sortIdx') (w : Nat) (rows rows' : LRows K Int)
    (hr : Rect w rows) (hp : (copies k rows).Perm rows') (t : CNode K Int)
    (h : cartFit ⟨classLoss lg labels criterion, sortIdx, maxDepth⟩ (rows.map Prod.fst) (rows.map Prod.snd) = Res.ok t) :
    cartFit ⟨classLoss lg labels criterion, sortIdx', maxDepth⟩ (rows'.map Prod.fst) (rows'.map Prod.snd) = Res.ok t :=
  cartFit_copies (e := ⟨classLoss lg labels criterion, sortIdx, maxDepth⟩)
    (e' := ⟨classLoss lg labels criterion, sortIdx', maxDepth⟩) hk rfl rfl (classLoss_copies hk lg labels criterion) hS hS' rows rows'
    hr hp t h

/-- So does the regressor. -/
theorem C155_regressor (k : Nat) (hk : 0 < k) (criterion : Criterion) (maxDepth : Int)
    (sortIdx sortIdx' : List K → List Nat) (hS : SortsIdx sortIdx) (hS' : SortsIdx sortIdx') (w : Nat) (rows rows' : LRows K K)
    (hr : Rect w rows) (hp : (copies k rows).Perm rows') (t : CNode K K)
    (h : cartFit ⟨regLoss criterion, sortIdx, maxDepth⟩ (rows.map Prod.fst) (rows.map Prod.snd) = Res.ok t) :
    cartFit ⟨regLoss criterion, sortIdx', maxDepth⟩ (rows'.map Prod.fst) (rows'.map Prod.snd) = Res.ok t :=
  cartFit_copies (e := ⟨regLoss criterion, sortIdx, maxDepth⟩) (e' := ⟨regLoss criterion, sortIdx', maxDepth⟩) hk rfl rfl
    (regLoss_copies hk criterion) hS hS' rows rows' hr hp t h

/-- With a criterion of the classifier and labels of its list, both are built. -/
theorem C155_built (k : Nat) (hk : 0 < k) (lg : K → K) (labels : List Int) (hn : labels.Nodup) (c : Criterion)
    (hc : c = .gini ∨ (c = .entropy ∧ Logarithm lg)) (maxDepth : Int) (sortIdx : List K → List Nat) (hS : SortsIdx sortIdx)
    (w : Nat) (rows : LRows K Int) (hr : Rect w rows) (hne : rows ≠ []) (hok : ∀ p ∈ rows, p.2 ∈ labels) :
    ∃ t, cartFit ⟨classLoss lg labels c, sortIdx, maxDepth⟩ (rows.map Prod.fst) (rows.map Prod.snd) = Res.ok t ∧
      cartFit ⟨classLoss lg labels c, sortIdx, maxDepth⟩ ((copies k rows).map Prod.fst) ((copies k rows).map Prod.snd) =
        Res.ok t := by
  obtain ⟨imp, hL⟩ := computes_class (lg := lg) hn hc
  obtain ⟨t, h, _⟩ := cartFit_spec (e := ⟨classLoss lg labels c, sortIdx, maxDepth⟩) hL hS rows hne hr hok
  exact ⟨t, h, C155_classifier k hk lg labels c maxDepth sortIdx sortIdx hS hS w rows _ hr (List.Perm.refl _) t h⟩

/-- The same for the regressor. -/
theorem C155_built_regressor (k : Nat) (hk : 0 < k) (c : Criterion) (hc : c = .mae ∨ c = .mse) (maxDepth : Int)
    (sortIdx : List K → List Nat) (hS : SortsIdx sortIdx) (w : Nat) (rows : LRows K K) (hr : Rect w rows) (hne : rows ≠ []) :
    ∃ t, cartFit ⟨regLoss c, sortIdx, maxDepth⟩ (rows.map Prod.fst) (rows.map Prod.snd) = Res.ok t ∧
      cartFit ⟨regLoss c, sortIdx, maxDepth⟩ ((copies k rows).map Prod.fst) ((copies k rows).map Prod.snd) = Res.ok t := by
  obtain ⟨imp, hL⟩ := computes_reg (K := K) hc
  obtain ⟨t, h, _⟩ := cartFit_spec (e := ⟨regLoss c, sortIdx, maxDepth⟩) hL hS rows hne hr (fun _ _ => trivial)
  exact ⟨t, h, C155_regressor k hk c maxDepth sortIdx sortIdx hS hS w rows _ hr (List.Perm.refl _) t h⟩

end

section Examples

/-- Six rows twice over: twelve rows, the same tree. -/
theorem C155_witness : Rect 2 tiedRows ∧ (copies 2 tiedRows).length = 12 ∧
    cartFit ⟨classLoss (fun x => x) [1, 2, 7] .gini, idxSort, -1⟩ (tiedRows.map Prod.fst) (tiedRows.map Prod.snd) =
      Res.ok (.node (.node .nil (.node .nil .nil 2 0 1 1 true) 3 1 2 1 true) .nil 4 0 1 7 true) ∧
    cartFit ⟨classLoss (fun x => x) [1, 2, 7] .gini, idxSort, -1⟩ ((copies 2 tiedRows).map Prod.fst)
        ((copies 2 tiedRows).map Prod.snd) =
      Res.ok (.node (.node .nil (.node .nil .nil 2 0 1 1 true) 3 1 2 1 true) .nil 4 0 1 7 true) :=
  ⟨C153_witness.1, by decide +kernel, by decide +kernel, by decide +kernel⟩

/-- Rows that occur differently often do matter: a row that occurs three times outvotes one that occurs once. -/
theorem C155_uneven :
    cartFit ⟨classLoss (fun x => x) [1, 2] .gini, idxSort, -1⟩ ([[0], [0]] : List (List ℚ)) [1, 2] ≠
      cartFit ⟨classLoss (fun x => x) [1, 2] .gini, idxSort, -1⟩ [[0], [0], [0]] [1, 2, 2] := by
  decide +kernel

end Examples

end Golearn
