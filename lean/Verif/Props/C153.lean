import Verif.Proofs.CartReorder
import Verif.Props.C55
import Verif.Props.C152

/-! # C153: a CART tree does not depend on the order of the rows -/

namespace Golearn

section
variable {K : Type} [Field K] [LinearOrder K] [IsStrictOrderedRing K]

/-- The classifier builds the same tree, node by node and number by number, from the rows in any order, and with any two sorts of
the rows by value, stable or not. Nothing is asked of the labels or of the criterion: where construction fails for one order, it
fails in the same way for all. -/
theorem C153_classifier (lg : K → K) (labels : List Int) (criterion : Criterion) (maxDepth : Int)
    (sortIdx sortIdx' : List K → List Nat) (hS : SortsIdx sortIdx) (hS' : SortsIdx sortIdx') (w : Nat) (rows rows' : LRows K Int)
    (hr : Rect w rows) (hp : rows.Perm rows') :
    cartFit ⟨classLoss lg labels criterion, sortIdx, maxDepth⟩ (rows.map Prod.fst) (rows.map Prod.snd) =
      cartFit ⟨classLoss lg labels criterion, sortIdx', maxDepth⟩ (rows'.map Prod.fst) (rows'.map Prod.snd) :=
  cartFit_same (e := ⟨classLoss lg labels criterion, sortIdx, maxDepth⟩)
    (e' := ⟨classLoss lg labels criterion, sortIdx', maxDepth⟩) rfl rfl (classLoss_perm lg labels criterion)
    hS hS' rows rows' hr hp

/-- So does the regressor. -/
theorem C153_regressor (criterion : Criterion) (maxDepth : Int)
    (sortIdx sortIdx' : List K → List Nat) (hS : SortsIdx sortIdx) (hS' : SortsIdx sortIdx') (w : Nat) (rows rows' : LRows K K)
    (hr : Rect w rows) (hp : rows.Perm rows') :
    cartFit ⟨regLoss criterion, sortIdx, maxDepth⟩ (rows.map Prod.fst) (rows.map Prod.snd) =
      cartFit ⟨regLoss criterion, sortIdx', maxDepth⟩ (rows'.map Prod.fst) (rows'.map Prod.snd) :=
  cartFit_same (e := ⟨regLoss criterion, sortIdx, maxDepth⟩)
    (e' := ⟨regLoss criterion, sortIdx', maxDepth⟩) rfl rfl (regLoss_perm criterion) hS hS' rows rows' hr hp

/-- `Fit` of the classifier on a data set and on the same data set with its rows in another order, whatever the order in which the
rows are visited. -/
theorem C153_data_set (lg : K → K) (labels : List Int) (criterion : Criterion) (maxDepth : Int)
    (sortIdx sortIdx' : List K → List Nat) (hS : SortsIdx sortIdx) (hS' : SortsIdx sortIdx')
    (val : U64 → K) (conv : U64 → Int) (srt : List Spec → List Spec) (hsrt : PositionSort srt)
    (g g' : Grid) (n : Nat) (σ : Nat → Nat) (P : g.Presents n) (T : g.typed n) (H : Reordered g g' n σ)
    (o1 o2 o1' o2' : List Nat) (h1 : g.RowOrder o1) (h2 : g.RowOrder o2) (h1' : g'.RowOrder o1') (h2' : g'.RowOrder o2')
    (cls : Attr) (hc : g.allClassAttributes = [cls]) (hcin : cls ∈ g.allAttributes) (hcf : cls.isFloat = true) :
    cartFitGrid ⟨classLoss lg labels criterion, sortIdx, maxDepth⟩ val conv srt o1 o2 g =
      cartFitGrid ⟨classLoss lg labels criterion, sortIdx', maxDepth⟩ val conv srt o1' o2' g' :=
  cartFitGrid_same (e := ⟨classLoss lg labels criterion, sortIdx, maxDepth⟩)
    (e' := ⟨classLoss lg labels criterion, sortIdx', maxDepth⟩) rfl rfl (classLoss_perm lg labels criterion)
    hS hS' hsrt P T H h1 h2 h1' h2' hc hcin hcf

/-- `Fit` of the regressor. -/
theorem C153_data_set_regressor (criterion : Criterion) (maxDepth : Int)
    (sortIdx sortIdx' : List K → List Nat) (hS : SortsIdx sortIdx) (hS' : SortsIdx sortIdx')
    (val conv : U64 → K) (srt : List Spec → List Spec) (hsrt : PositionSort srt)
    (g g' : Grid) (n : Nat) (σ : Nat → Nat) (P : g.Presents n) (T : g.typed n) (H : Reordered g g' n σ)
    (o1 o2 o1' o2' : List Nat) (h1 : g.RowOrder o1) (h2 : g.RowOrder o2) (h1' : g'.RowOrder o1') (h2' : g'.RowOrder o2')
    (cls : Attr) (hc : g.allClassAttributes = [cls]) (hcin : cls ∈ g.allAttributes) (hcf : cls.isFloat = true) :
    cartFitGrid ⟨regLoss criterion, sortIdx, maxDepth⟩ val conv srt o1 o2 g =
      cartFitGrid ⟨regLoss criterion, sortIdx', maxDepth⟩ val conv srt o1' o2' g' :=
  cartFitGrid_same (e := ⟨regLoss criterion, sortIdx, maxDepth⟩)
    (e' := ⟨regLoss criterion, sortIdx', maxDepth⟩) rfl rfl (regLoss_perm criterion)
    hS hS' hsrt P T H h1 h2 h1' h2' hc hcin hcf

/-- Shuffling a table and then training a classifier gives the tree that training on the table gives, for every outcome of the
random numbers. -/
theorem C153_shuffle (pg : Nat) (ops : List Op) (st : St) (hb : ∀ op ∈ ops, basicOp op = true) (hrun : run pg ops = Res.ok st)
    (hd : (addedAttrs ops).Pairwise (fun a b => a.equals b = false))
    (srt : List Spec → List Spec) (hsrt : PositionSort srt) (draw : Nat → Nat) (hdraw : ∀ i, draw i ≤ i)
    (lg : K → K) (labels : List Int) (criterion : Criterion) (maxDepth : Int) (sortIdx : List K → List Nat)
    (hS : SortsIdx sortIdx) (val : U64 → K) (conv : U64 → Int) (cls : Attr) (hc : st.d.allClassAttributes = [cls])
    (hcin : cls ∈ st.d.allAttributes) (hcf : cls.isFloat = true) :
    ∃ d', shuffleDense srt draw st.d = Res.ok d' ∧
      ∀ o1 o2 o1' o2', (Grid.dense st.d).RowOrder o1 → (Grid.dense st.d).RowOrder o2 → (Grid.dense d').RowOrder o1' →
        (Grid.dense d').RowOrder o2' →
        cartFitGrid ⟨classLoss lg labels criterion, sortIdx, maxDepth⟩ val conv srt o1 o2 (.dense st.d) =
          cartFitGrid ⟨classLoss lg labels criterion, sortIdx, maxDepth⟩ val conv srt o1' o2' (.dense d') := by
  have hperm : ∀ l, (srt l).Perm l := by
    intro l
    obtain ⟨τ, s1, s2⟩ := hsrt
    rw [s2]
    refine ((s1 l.length).filterMap _).trans ?_
    rw [filterMap_range_getElem?]
  obtain ⟨d', σ, e1, H⟩ := C152_shuffle pg ops st hb hrun hd srt hperm draw hdraw
  have D := denseOK_run hb hrun hd
  refine ⟨d', e1, fun o1 o2 o1' o2' h1 h2 h1' h2' => ?_⟩
  exact C153_data_set lg labels criterion maxDepth sortIdx sortIdx hS hS val conv srt hsrt (.dense st.d) (.dense d') _ σ
    D.presents D.typed H o1 o2 o1' o2' h1 h2 h1' h2' cls hc hcin hcf

end

section Examples

/-- A sort that leaves equal values in the opposite order. -/
def idxSortBack (vals : List ℚ) : List Nat := keySort (fun i => vals.getD i 0) (List.range vals.length).reverse

theorem idxSortBack_sorts : SortsIdx idxSortBack := fun vals =>
  ⟨(keySort_sorts (fun i => vals.getD i 0) _).1.trans (List.reverse_perm _), (keySort_sorts (fun i => vals.getD i 0) _).2⟩

/-- Rows with equal values in a column and equal rows with different labels, in two orders. -/
def tiedRows : LRows ℚ Int := [([1, 5], 1), ([1, 5], 2), ([3, 4], 1), ([3, 2], 2), ([5, 2], 7), ([5, 6], 7)]
def tiedRows' : LRows ℚ Int := [([5, 6], 7), ([3, 2], 2), ([1, 5], 2), ([5, 2], 7), ([1, 5], 1), ([3, 4], 1)]

/-- The hypotheses hold, the two sorts differ, and the tree has three levels. -/
theorem C153_witness : Rect 2 tiedRows ∧ tiedRows.Perm tiedRows' ∧ tiedRows ≠ tiedRows' ∧
    idxSort ([1, 1, 3] : List ℚ) ≠ idxSortBack [1, 1, 3] ∧
    cartFit ⟨classLoss (fun x => x) [1, 2, 7] .gini, idxSort, -1⟩ (tiedRows.map Prod.fst) (tiedRows.map Prod.snd) =
      Res.ok (.node (.node .nil (.node .nil .nil 2 0 1 1 true) 3 1 2 1 true) .nil 4 0 1 7 true) ∧
    cartFit ⟨classLoss (fun x => x) [1, 2, 7] .gini, idxSortBack, -1⟩ (tiedRows'.map Prod.fst) (tiedRows'.map Prod.snd) =
      Res.ok (.node (.node .nil (.node .nil .nil 2 0 1 1 true) 3 1 2 1 true) .nil 4 0 1 7 true) := by
  refine ⟨?_, by decide +kernel, by decide +kernel, by decide +kernel, by decide +kernel, by decide +kernel⟩
  intro p hp
  simp only [tiedRows, List.mem_cons, List.not_mem_nil, or_false] at hp
  rcases hp with rfl | rfl | rfl | rfl | rfl | rfl <;> rfl

/-- The order of the labels given to the classifier does matter: of two labels that are equally frequent the first one wins. -/
theorem C153_label_order :
    cartFit ⟨classLoss (fun x => x) [1, 2] .gini, idxSort, -1⟩ ([[0], [0]] : List (List ℚ)) [1, 2] ≠
      cartFit ⟨classLoss (fun x => x) [2, 1] .gini, idxSort, -1⟩ [[0], [0]] [1, 2] := by
  decide +kernel

namespace C153
def aX : Attr := ⟨0, .float "x" 2⟩
def aC : Attr := ⟨1, .float "c" 2⟩
/-- Three rows with a numeric class. -/
def ops : List Op :=
  [.add aX, .add aC, .addClass aC, .extend 3, .set 0 0 (packU64 4), .set 0 1 (packU64 9), .set 0 2 (packU64 2),
   .set 1 0 (packU64 1), .set 1 1 (packU64 2), .set 1 2 (packU64 1)]
end C153

open C153 in
/-- A table that meets the hypotheses of `C153_shuffle` and, with its shuffles, those of `C153_data_set`. -/
example : ∃ st, run 4096 ops = Res.ok st ∧ (∀ op ∈ ops, basicOp op = true) ∧
    (addedAttrs ops).Pairwise (fun a b => a.equals b = false) ∧ st.d.allClassAttributes = [aC] ∧ aC ∈ st.d.allAttributes ∧
    aC.isFloat = true ∧
    cartFitGrid ⟨classLoss (fun x => x) [1, 2] .gini, idxSort, -1⟩ (fun u => ((u.toNat : ℕ) : ℚ)) (fun u => (u.toNat : Int))
      (fun l => l) [0, 1, 2] [0, 1, 2] (.dense st.d) = Res.ok (.node .nil .nil (13 / 2) 0 1 2 true) := by
  refine ⟨_, rfl, ?_, ?_, ?_, ?_, ?_, ?_⟩
  all_goals decide +kernel

end Examples

end Golearn
