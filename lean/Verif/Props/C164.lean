import Verif.Proofs.Places
import Verif.Proofs.DenseTable
import Verif.Model.Isolation
import Verif.Props.C153

/-! # C164: CART trees, isolation forests and linear models find columns by their places -/

namespace Golearn

section
variable {K : Type} [Field K] [LinearOrder K]

/-- CART trees take the numeric columns by their places: the names make no difference. Training on two tables with the same
numbers in the same places has the same result, and every tree predicts the same for two such tables. -/
theorem C164_cart_partial {Y : Type} [Zero Y] (e : CartEnv K Y) (val : U64 → K) (conv : U64 → Y) (srt : List Spec → List Spec)
    (hsrt : PositionSort srt) (g g' : Grid) (n : Nat) (S : SamePlaces val g g' n) (o1 o2 o1' o2' : List Nat) (h1 : g.RowOrder o1)
    (h2 : g.RowOrder o2) (h1' : g'.RowOrder o1') (h2' : g'.RowOrder o2') :
    (∀ cls cls', SameLabels conv g g' n cls cls' →
      cartFitGrid e val conv srt o1' o2' g' = cartFitGrid e val conv srt o1 o2 g) ∧
    ∀ t : CNode K Y, cartPredictGrid val srt o1' t g' = cartPredictGrid val srt o1 t g := by
  constructor
  · intro cls cls' L
    unfold cartFitGrid
    rw [S.problemVec hsrt h1 h1', L.labelVec hsrt S.table S.table' S.typed S.typed' h2 h2']
  · intro t
    unfold cartPredictGrid
    rw [S.problemVec hsrt h1 h1']

/-- The same for isolation forests, in which the class is one more column. -/
theorem C164_isolation_partial (eps : K) (pick : Nat → Nat → Nat) (draws : Nat → List Bool → Draws K) (tries nTrees : Nat) (maxDepth : Int)
    (subSpace : Nat) (val : U64 → K) (srt : List Spec → List Spec) (hsrt : PositionSort srt) (g g' : Grid) (n : Nat)
    (S : SamePlaces val g g' n) (o1 o2 o1' o2' : List Nat) (h1 : g.RowOrder o1) (h2 : g.RowOrder o2) (h1' : g'.RowOrder o1')
    (h2' : g'.RowOrder o2') (cls cls' : Attr) (L : SameLabels val g g' n cls cls') :
    isoFitGrid eps pick draws tries nTrees maxDepth subSpace val srt o1' o2' g' =
      isoFitGrid eps pick draws tries nTrees maxDepth subSpace val srt o1 o2 g := by
  unfold isoFitGrid preprocessData
  rw [S.problemVec hsrt h1 h1', L.labelVec hsrt S.table S.table' S.typed S.typed' h2 h2']

/-- And the scores of an isolation forest. -/
theorem C164_scores_partial (forest : List (CNode ℝ Nat)) (subSpace : Int) (val : U64 → ℝ) (srt : List Spec → List Spec)
    (hsrt : PositionSort srt) (g g' : Grid) (n : Nat) (S : SamePlaces val g g' n) (o1 o2 o1' o2' : List Nat) (h1 : g.RowOrder o1)
    (h2 : g.RowOrder o2) (h1' : g'.RowOrder o1') (h2' : g'.RowOrder o2') (cls cls' : Attr) (L : SameLabels val g g' n cls cls') :
    isoPredictGrid forest subSpace val srt o1' o2' g' = isoPredictGrid forest subSpace val srt o1 o2 g := by
  unfold isoPredictGrid preprocessData
  rw [S.problemVec hsrt h1 h1', L.labelVec hsrt S.table S.table' S.typed S.typed' h2 h2']

/-- And the training of a logistic regression. -/
theorem C164_logistic_partial (solve : Solver K) (toInt : K → Int) (param : LParam K) (val : U64 → K) (srt : List Spec → List Spec)
    (hsrt : PositionSort srt) (g g' : Grid) (n : Nat) (S : SamePlaces val g g' n) (o1 o2 o1' o2' : List Nat) (h1 : g.RowOrder o1)
    (h2 : g.RowOrder o2) (h1' : g'.RowOrder o1') (h2' : g'.RowOrder o2') (cls cls' : Attr) (L : SameLabels val g g' n cls cls') :
    logisticFit solve toInt val srt o1' o2' param g' = logisticFit solve toInt val srt o1 o2 param g := by
  unfold logisticFit linLabelVec
  rw [S.problemVec hsrt h1 h1', L.labelVec hsrt S.table S.table' S.typed S.typed' h2 h2']

/-- And the predictions of linear support vector machines and logistic regressions. -/
theorem C164_linear_partial (val : U64 → K) (enc : Int → U64) (srt : List Spec → List Spec) (hsrt : PositionSort srt) (pg : Nat)
    (m : LModel K) (g g' : Grid) (n : Nat) (S : SamePlaces val g g' n) (hc : g'.allClassAttributes = g.allClassAttributes)
    (order : List Nat) (ho : g.RowOrder order) :
    svcPredict val enc srt pg order m g' = svcPredict val enc srt pg order m g :=
  S.svcPredict hsrt hc ho enc pg m

end

namespace C164
def aA : Attr := ⟨0, .float "a" 2⟩
def aB : Attr := ⟨1, .float "b" 2⟩
def aC : Attr := ⟨2, .float "c" 2⟩
def aP : Attr := ⟨3, .float "p" 2⟩
def aQ : Attr := ⟨4, .float "q" 2⟩
def aD : Attr := ⟨5, .float "d" 2⟩
def aS : Attr := ⟨6, .cat "s" ["u", "v"]⟩
/-- Two rows with the labels 1 and 2; both columns have 0 in the first and 4 in the second row. -/
def opsAB : List Op := [.add aA, .add aB, .add aC, .addClass aC, .extend 2, .set 0 1 (packU64 4), .set 1 1 (packU64 4),
  .set 2 0 (packU64 1), .set 2 1 (packU64 2)]
/-- The same with the columns in another order. -/
def opsBA : List Op := [.add aB, .add aA, .add aC, .addClass aC, .extend 2, .set 0 1 (packU64 4), .set 1 1 (packU64 4),
  .set 2 0 (packU64 1), .set 2 1 (packU64 2)]
/-- The same with other names, and a column of texts. -/
def opsPQ : List Op := [.add aS, .add aP, .add aQ, .add aD, .addClass aD, .extend 2, .set 1 1 (packU64 4), .set 2 1 (packU64 4),
  .set 3 0 (packU64 1), .set 3 1 (packU64 2)]
/-- The same numbers with the class c and other names. -/
def opsPC : List Op := [.add aP, .add aC, .addClass aC, .add aQ, .extend 2, .set 0 1 (packU64 4), .set 2 1 (packU64 4)]
/-- One row with a = 4 and b = 0, in both orders. -/
def rowAB : List Op := [.add aA, .add aB, .add aC, .addClass aC, .extend 1, .set 0 0 (packU64 4)]
def rowBA : List Op := [.add aB, .add aA, .add aC, .addClass aC, .extend 1, .set 1 0 (packU64 4)]
def val (u : U64) : ℚ := (u.toNat : ℚ)
def conv (u : U64) : Int := u.toNat
def env : CartEnv ℚ Int := ⟨classLoss (fun x => x) [1, 2] .gini, idxSort, -1⟩

/-- The tree trained on the first table, and what it predicts for the second one. -/
def predicts (ops row : List Op) : Res (List Int) :=
  (run 4096 ops).bind fun st => (run 4096 row).bind fun sw =>
    (cartFitGrid env val conv (fun l => l) [0, 1] [0, 1] (.dense st.d)).bind fun t =>
      cartPredictGrid val (fun l => l) [0] t (.dense sw.d)

theorem order {n : Nat} {st : St} (D : DenseOK n st.d) : (Grid.dense st.d).RowOrder (List.range n) := by
  show List.range n = List.range st.d.maxRow
  rw [show st.d.maxRow = n from D.presents.rows]

theorem sorts : PositionSort fun l => l := ⟨List.range, fun n => List.Perm.refl _, fun l => (filterMap_range_getElem? l).symm⟩
end C164

open C164 in
/-- The hypotheses hold for a table with the columns a, b and c and one with p, q and d and a column of texts, and training on both gives
the same tree. -/
theorem C164_witness : ∃ st st', run 4096 opsAB = Res.ok st ∧ run 4096 opsPQ = Res.ok st' ∧
    SamePlaces val (.dense st.d) (.dense st'.d) 2 ∧ SameLabels conv (.dense st.d) (.dense st'.d) 2 aC aD ∧
    cartFitGrid env val conv (fun l => l) [0, 1] [0, 1] (.dense st.d) = Res.ok (.node .nil .nil 2 0 1 2 true) ∧
    cartFitGrid env val conv (fun l => l) [0, 1] [0, 1] (.dense st'.d) = Res.ok (.node .nil .nil 2 0 1 2 true) := by
  have h : ((run 4096 opsAB).bind fun st => (run 4096 opsPQ).map fun st' =>
      [decide ((Grid.dense st.d).nonClassFloats = [aA, aB]), decide ((Grid.dense st'.d).nonClassFloats = [aP, aQ]),
        (List.range 2).all fun r => decide ([aP, aQ].map (fun a => (Grid.dense st'.d).number val a r) =
          [aA, aB].map fun a => (Grid.dense st.d).number val a r),
        decide (st.d.allClassAttributes = [aC]), decide (st'.d.allClassAttributes = [aD]),
        decide (aC ∈ st.d.allAttributes), decide (aD ∈ st'.d.allAttributes),
        (List.range 2).all fun r => decide ((Grid.dense st'.d).number conv aD r = (Grid.dense st.d).number conv aC r),
        decide (cartFitGrid env val conv (fun l => l) [0, 1] [0, 1] (.dense st.d) = Res.ok (.node .nil .nil 2 0 1 2 true)),
        decide (cartFitGrid env val conv (fun l => l) [0, 1] [0, 1] (.dense st'.d) = Res.ok (.node .nil .nil 2 0 1 2 true))]) =
      Res.ok [true, true, true, true, true, true, true, true, true, true] := by decide +kernel
  obtain ⟨st, hrun, h⟩ := Res.bind_eq_ok.1 h
  obtain ⟨st', hrun', h⟩ := Res.map_eq_ok.1 h
  simp only [List.cons.injEq, decide_eq_true_eq, and_true] at h
  obtain ⟨c1, c2, c3, c4, c5, c6, c7, c8, c9, c10⟩ := h
  have D : DenseOK 2 st.d := denseOK_run (ops := opsAB) (by decide) hrun (by decide)
  have D' : DenseOK 2 st'.d := denseOK_run (ops := opsPQ) (by decide) hrun' (by decide)
  refine ⟨st, st', hrun, hrun', ⟨D.presents, D'.presents, D.typed, D'.typed, by rw [c1, c2]; rfl, fun r hr => ?_⟩,
    ⟨c4, c5, c6, c7, rfl, rfl, fun r hr => of_decide_eq_true (List.all_eq_true.1 c8 r (List.mem_range.2 hr))⟩, c9, c10⟩
  rw [c1, c2]
  exact of_decide_eq_true (List.all_eq_true.1 c3 r (List.mem_range.2 hr))

open C164 in
/-- The hypotheses of `C164_linear_partial` hold for a table with the columns a, b and c and one with p, c and q. -/
example : ∃ st st', run 4096 opsAB = Res.ok st ∧ run 4096 opsPC = Res.ok st' ∧ SamePlaces val (.dense st.d) (.dense st'.d) 2 ∧
    (Grid.dense st'.d).allClassAttributes = (Grid.dense st.d).allClassAttributes ∧ (Grid.dense st.d).RowOrder [0, 1] := by
  have h : ((run 4096 opsAB).bind fun st => (run 4096 opsPC).map fun st' =>
      [decide ((Grid.dense st.d).nonClassFloats = [aA, aB]), decide ((Grid.dense st'.d).nonClassFloats = [aP, aQ]),
        (List.range 2).all fun r => decide ([aP, aQ].map (fun a => (Grid.dense st'.d).number val a r) =
          [aA, aB].map fun a => (Grid.dense st.d).number val a r),
        decide (st'.d.allClassAttributes = st.d.allClassAttributes)]) = Res.ok [true, true, true, true] := by decide +kernel
  obtain ⟨st, hrun, h⟩ := Res.bind_eq_ok.1 h
  obtain ⟨st', hrun', h⟩ := Res.map_eq_ok.1 h
  simp only [List.cons.injEq, decide_eq_true_eq, and_true] at h
  obtain ⟨c1, c2, c3, c4⟩ := h
  have D : DenseOK 2 st.d := denseOK_run (ops := opsAB) (by decide) hrun (by decide)
  have D' : DenseOK 2 st'.d := denseOK_run (ops := opsPC) (by decide) hrun' (by decide)
  refine ⟨st, st', hrun, hrun', ⟨D.presents, D'.presents, D.typed, D'.typed, by rw [c1, c2]; rfl, fun r hr => ?_⟩, c4, order D⟩
  rw [c1, c2]
  exact of_decide_eq_true (List.all_eq_true.1 c3 r (List.mem_range.2 hr))

open C164 in
/-- Two trees are trained on the columns a, b and on the columns b, a, which have the same numbers. For a row with a = 4 and b = 0 the
first tree predicts 2 if the columns are a, b, and 1 if they are b, a. The second one does the opposite. -/
theorem C164_orders : ∃ st st' sw sw', run 4096 opsAB = Res.ok st ∧ run 4096 opsBA = Res.ok st' ∧ run 4096 rowAB = Res.ok sw ∧
    run 4096 rowBA = Res.ok sw' ∧ DenseOK 2 st.d ∧ DenseOK 2 st'.d ∧ DenseOK 1 sw.d ∧ DenseOK 1 sw'.d ∧
    SameLabels conv (.dense st.d) (.dense st'.d) 2 aC aC ∧
    (Grid.dense st.d).nonClassFloats = [aA, aB] ∧ (Grid.dense st'.d).nonClassFloats = [aB, aA] ∧
    (Grid.dense sw.d).nonClassFloats = [aA, aB] ∧ (Grid.dense sw'.d).nonClassFloats = [aB, aA] ∧
    SameNumbers val (.dense st.d) (.dense st'.d) 2 [aA, aB] ∧ SameNumbers val (.dense sw.d) (.dense sw'.d) 1 [aA, aB] ∧
    predicts opsAB rowAB = Res.ok [2] ∧ predicts opsAB rowBA = Res.ok [1] ∧ predicts opsBA rowBA = Res.ok [1] := by
  have h : ((run 4096 opsAB).bind fun st => (run 4096 opsBA).bind fun st' => (run 4096 rowAB).bind fun sw =>
      (run 4096 rowBA).map fun sw' =>
      [decide ((Grid.dense st.d).nonClassFloats = [aA, aB]), decide ((Grid.dense st'.d).nonClassFloats = [aB, aA]),
        decide ((Grid.dense sw.d).nonClassFloats = [aA, aB]), decide ((Grid.dense sw'.d).nonClassFloats = [aB, aA]),
        [aA, aB].all fun a => (List.range 2).all fun r => decide ((Grid.dense st'.d).number val a r = (Grid.dense st.d).number val a r),
        [aA, aB].all fun a => (List.range 1).all fun r => decide ((Grid.dense sw'.d).number val a r = (Grid.dense sw.d).number val a r),
        decide (st.d.allClassAttributes = [aC]), decide (st'.d.allClassAttributes = [aC]),
        decide (aC ∈ st.d.allAttributes), decide (aC ∈ st'.d.allAttributes),
        (List.range 2).all fun r => decide ((Grid.dense st'.d).number conv aC r = (Grid.dense st.d).number conv aC r)]) =
      Res.ok [true, true, true, true, true, true, true, true, true, true, true] := by decide +kernel
  obtain ⟨st, hrun, h⟩ := Res.bind_eq_ok.1 h
  obtain ⟨st', hrun', h⟩ := Res.bind_eq_ok.1 h
  obtain ⟨sw, hw, h⟩ := Res.bind_eq_ok.1 h
  obtain ⟨sw', hw', h⟩ := Res.map_eq_ok.1 h
  simp only [List.cons.injEq, decide_eq_true_eq, and_true] at h
  obtain ⟨c1, c2, c3, c4, c5, c6, c7, c8, c9, c10, c11⟩ := h
  refine ⟨st, st', sw, sw', hrun, hrun', hw, hw', denseOK_run (ops := opsAB) (by decide) hrun (by decide),
    denseOK_run (ops := opsBA) (by decide) hrun' (by decide), denseOK_run (ops := rowAB) (by decide) hw (by decide),
    denseOK_run (ops := rowBA) (by decide) hw' (by decide),
    ⟨c7, c8, c9, c10, rfl, rfl, fun r hr => of_decide_eq_true (List.all_eq_true.1 c11 r (List.mem_range.2 hr))⟩, c1, c2, c3, c4,
    fun a ha _ r hr => of_decide_eq_true (List.all_eq_true.1 (List.all_eq_true.1 c5 a ha) r (List.mem_range.2 hr)),
    fun a ha _ r hr => of_decide_eq_true (List.all_eq_true.1 (List.all_eq_true.1 c6 a ha) r (List.mem_range.2 hr)),
    by decide +kernel, by decide +kernel, by decide +kernel⟩

open C164 in
/-- So columns are not found by name: the same tree predicts something else if the columns to predict from are in another order. -/
theorem C164_refuted : ¬ C164_by_name ℚ := by
  intro hall
  obtain ⟨st, _, sw, sw', hrun, _, hw, hw', D, _, W, W', _, c1, _, c3, c4, _, hs, p1, p2, _⟩ := C164_orders
  simp only [predicts, hrun, hw, hw', Res.bind_ok] at p1 p2
  obtain ⟨t, ht, p1⟩ := Res.bind_eq_ok.1 p1
  rw [ht, Res.bind_ok] at p2
  have h := hall (fun x => x) [1, 2] .gini idxSort (-1) val conv (fun l => l) sorts (.dense st.d) (.dense sw.d) (.dense sw'.d) 2 1
    D.presents W.presents W'.presents W.typed W'.typed (by rw [c1, c3]) (by rw [c1, c4]; decide) (by rw [c1]; exact hs)
    [0, 1] [0, 1] [0] [0] (order D) (order D) (order W) (order W') t ht
  rw [p1, p2] at h
  exact absurd (Res.ok.inj h) (by decide)

open C164 in
/-- And even with the same order in training and prediction the order matters: of two columns that split equally well the first one is
taken. -/
theorem C164_ties : ¬ C164_same_order ℚ := by
  intro hall
  obtain ⟨st, st', sw, sw', hrun, hrun', hw, hw', D, D', W, W', L, c1, c2, c3, c4, hg, hs, p1, _, p3⟩ := C164_orders
  simp only [predicts, hrun, hrun', hw, hw', Res.bind_ok] at p1 p3
  obtain ⟨t, ht, p1⟩ := Res.bind_eq_ok.1 p1
  obtain ⟨t', ht', p3⟩ := Res.bind_eq_ok.1 p3
  have h := hall (fun x => x) [1, 2] .gini idxSort (-1) val conv (fun l => l) sorts (.dense st.d) (.dense st'.d) (.dense sw.d)
    (.dense sw'.d) 2 1 aC L D.presents D'.presents W.presents W'.presents D.typed D'.typed W.typed W'.typed
    (by rw [c1, c2]; decide) (by rw [c1, c3]) (by rw [c2, c4]) (by rw [c1]; exact hg) (by rw [c1]; exact hs)
    [0, 1] [0, 1] [0] [0] (order D) (order D) (order D') (order D')
    (order W) (order W') t t' ht ht'
  rw [p1, p3] at h
  exact absurd (Res.ok.inj h) (by decide)

end Golearn
