import Verif.Proofs.PercColumns
import Verif.Proofs.DenseTable
import Verif.Proofs.TreeExamples
import Mathlib.Data.Rat.Floor

/-! # C162: the perceptron with columns in another order -/

namespace Golearn

section
variable {K : Type} [Field K] [LinearOrder K]

/-- Two tables have the same numeric columns, in any order, with the same numbers in every row. A new perceptron with a weight for each
of them is trained on each table. Both predict the same for tables with the same numbers, if the columns of each are in the order of
the columns of its training data. The labels of the rows, and other columns, make no difference. -/
theorem C162_columns_partial (fo : FloatOps) (val : U64 → K) (g g' : Grid) (n : Nat) (c c' : Attr) (s0 s1 s0' s1' : String)
    (k k' : Nat → String) (T : TwoClasses fo g n c s0 s1 k) (T' : TwoClasses fo g' n c' s0' s1' k')
    (hcols : g'.nonClassFloats.Perm g.nonClassFloats) (hsame : SameNumbers val g g' n g.nonClassFloats)
    (srt srt' : List Spec → List Spec) (hsrt : PositionSort srt) (hsrt' : PositionSort srt') (order order' : List Nat)
    (ho : g.RowOrder order) (ho' : g'.RowOrder order') (rate start err : K) :
    ∃ q q', (newPerceptron g.nonClassFloats.length rate start err).fit fo val srt order g = Res.ok q ∧
      (newPerceptron g'.nonClassFloats.length rate start err).fit fo val srt' order' g' = Res.ok q' ∧
      ∀ (what what' : Grid) (m : Nat) (cW : Attr) (t0 t1 : String) (kW kW' : Nat → String) (orderW orderW' : List Nat) (pg : Nat),
        TwoClasses fo what m cW t0 t1 kW → TwoClasses fo what' m cW t0 t1 kW' →
        what.nonClassFloats = g.nonClassFloats → what'.nonClassFloats = g'.nonClassFloats →
        SameNumbers val what what' m g.nonClassFloats →
        (checkCompatible what' g').isSome = (checkCompatible what g).isSome →
        what.RowOrder orderW → what'.RowOrder orderW' →
        q'.predict fo val pg srt' orderW' what' = q.predict fo val pg srt orderW what := by
  obtain ⟨fs, fs1, fs2⟩ := positionSort_attrs hsrt g.nonClassFloats
  obtain ⟨fs', fs1', fs2'⟩ := positionSort_attrs hsrt' g'.nonClassFloats
  have hfs : fs'.Perm fs := fs1'.trans (hcols.trans fs1.symm)
  have data : ∀ {u u' : Grid} {m : Nat} (ku ku' : Nat → String), SameNumbers val u u' m g.nonClassFloats →
      ∃ vs : List (String × String × (Attr → K)),
        ((List.range m).map fun r => (ku r, u.point val fs r)) = vs.map (fun x => (x.1, fs.map x.2.2)) ∧
        ((List.range m).map fun r => (ku' r, u'.point val fs' r)) = vs.map fun x => (x.2.1, fs'.map x.2.2) := by
    intro u u' m ku ku' hs
    refine ⟨(List.range m).map fun r => (ku r, ku' r, fun a => u.number val a r), ?_, ?_⟩
    · rw [List.map_map]; rfl
    · rw [List.map_map]
      apply List.map_congr_left
      intro r hr
      simp only [Function.comp, Grid.point, Prod.mk.injEq, true_and]
      apply List.map_congr_left
      intro a ha
      have ha' := fs1.subset (hfs.subset ha)
      exact hs a ha' (nonClassFloats_mem ha').2 r (List.mem_range.1 hr)
  obtain ⟨vs, v1, v2⟩ := data k k' hsame
  have hnew : PercSame fs fs' { (newPerceptron g.nonClassFloats.length rate start err : Perceptron K) with trainError := 1 / 10 }
      { (newPerceptron g'.nonClassFloats.length rate start err : Perceptron K) with trainError := 1 / 10 } := by
    refine ⟨fun _ => 0, fun _ => 0, ?_, ?_, ?_, ?_, rfl, rfl, rfl⟩ <;>
      simp [newPerceptron, fs1.length_eq, fs1'.length_eq, List.map_const']
  obtain ⟨q, q', e1, e2, hq⟩ := hnew.epochs hfs vs 10
  refine ⟨{ q.average with data := some g }, { q'.average with data := some g' }, ?_, ?_, ?_⟩
  · simp only [Perceptron.fit, percData_spec T ho fs1 fs2, Res.bind_ok, v1, e1, Res.map_ok]
  · simp only [Perceptron.fit, percData_spec T' ho' fs1' fs2', Res.bind_ok, v2, e2, Res.map_ok]
  intro what what' m cW t0 t1 kW kW' orderW orderW' pg W W' hw hw' hs hc oW oW'
  obtain ⟨us, u1, u2⟩ := data kW kW' hs
  have hq' : PercSame fs fs' { q.average with data := some g } { q'.average with data := some g' } := by
    obtain ⟨w, e, h⟩ := hq.average
    exact ⟨w, e, h⟩
  have hgen : generatePredictionVector pg what' = generatePredictionVector pg what := by
    unfold generatePredictionVector
    rw [W.cls, W'.cls, W.table.rows, W'.table.rows]
  have d1 := percData_spec (val := val) (srt := srt) W oW (fs := fs) (by rw [hw]; exact fs1) (by rw [hw]; exact fs2)
  have d2 := percData_spec (val := val) (srt := srt') W' oW' (fs := fs') (by rw [hw']; exact fs1') (by rw [hw']; exact fs2')
  simp only [Perceptron.predict, d1, d2, Res.bind_ok, hgen, u1, u2]
  cases h1 : checkCompatible what g <;> cases h2 : checkCompatible what' g' <;> simp only [h1, h2, Option.isSome] at hc ⊢
  · cases hc
  · cases hc
  · congr 1
    funext ret
    cases ret.allClassAttributes with
    | nil => rfl
    | cons c0 _ =>
      simp only
      congr 1
      funext spec
      rw [hq'.write hfs]

end

namespace C162
def aA : Attr := ⟨0, .float "a" 2⟩
def aB : Attr := ⟨1, .float "b" 2⟩
def aC : Attr := ⟨2, .cat "c" ["x", "y"]⟩
/-- Three rows; the first has 4 in the column b, the last 4 in the column a, and all other numbers are 0. -/
def opsAB : List Op := [.add aA, .add aB, .add aC, .extend 3, .set 0 2 (packU64 4), .set 1 0 (packU64 4),
  .set 2 2 (packU64 1), .addClass aC]
/-- The same with the columns in another order. -/
def opsBA : List Op := [.add aB, .add aA, .add aC, .extend 3, .set 1 2 (packU64 4), .set 0 0 (packU64 4),
  .set 2 2 (packU64 1), .addClass aC]
def fo0 : FloatOps := ⟨fun _ _ => "", fun _ _ => false⟩
def v0 (u : U64) : ℚ := (u.toNat : ℚ)
def lab (r : Nat) : String := if r = 2 then "y" else "x"

/-- A table of three rows meets the hypotheses. -/
theorem table {ops : List Op} {fs : List Attr} (hb : ∀ op ∈ ops, basicOp op = true)
    (hd : (addedAttrs ops).Pairwise fun a b => a.equals b = false) (h3 : totalRows ops = 3)
    (h : ((run 4096 ops).map fun st => [decide (st.d.allClassAttributes = [aC]), decide (aC ∈ st.d.allAttributes),
      decide ((Grid.dense st.d).nonClassFloats = fs),
      (List.range 3).all fun r => decide (aC.getString fo0 ((Grid.dense st.d).cell aC r) = Res.ok (lab r))]) =
      Res.ok [true, true, true, true]) :
    ∃ st, run 4096 ops = Res.ok st ∧ TwoClasses fo0 (.dense st.d) 3 aC "x" "y" lab ∧ (Grid.dense st.d).nonClassFloats = fs ∧
      (Grid.dense st.d).RowOrder [0, 1, 2] := by
  obtain ⟨st, hrun, h⟩ := Res.map_eq_ok.1 h
  simp only [List.cons.injEq, decide_eq_true_eq, and_true] at h
  obtain ⟨h1, h2, h4, h5⟩ := h
  have D : DenseOK 3 st.d := h3 ▸ denseOK_run hb hrun hd
  refine ⟨st, hrun, ⟨D.presents, D.typed, h1, ⟨"c", rfl⟩, h2,
    fun r hr => of_decide_eq_true (List.all_eq_true.1 h5 r (List.mem_range.2 hr))⟩, h4, ?_⟩
  show [0, 1, 2] = List.range st.d.maxRow
  rw [show st.d.maxRow = 3 from D.presents.rows]; rfl

/-- The classes that a perceptron trained on the first table predicts for the second one. -/
def classes (ops ops' : List Op) : Res (List String) :=
  (run 4096 ops).bind fun st => (run 4096 ops').bind fun st' =>
    ((newPerceptron 2 (1 / 2) 0 1 : Perceptron ℚ).fit fo0 v0 (fun l => l) [0, 1, 2] (.dense st.d)).bind fun q =>
      (q.predict fo0 v0 4096 (fun l => l) [0, 1, 2] (.dense st'.d)).bind fun d =>
        match d with
        | none => Res.err
        | some d => mapRes (getClass fo0 (.dense d)) [0, 1, 2]

end C162

open C162 in
/-- The hypotheses hold for a table with the columns a, b and one with b, a. A perceptron trained on either gives the first row
the second class in the same table. In the other table it gives that class to the last row, because it applies the weights to the
columns by their places. -/
theorem C162_witness : ∃ st st', run 4096 opsAB = Res.ok st ∧ run 4096 opsBA = Res.ok st' ∧
    TwoClasses fo0 (.dense st.d) 3 aC "x" "y" lab ∧ TwoClasses fo0 (.dense st'.d) 3 aC "x" "y" lab ∧
    (Grid.dense st.d).nonClassFloats = [aA, aB] ∧ (Grid.dense st'.d).nonClassFloats = [aB, aA] ∧
    SameNumbers v0 (.dense st.d) (.dense st'.d) 3 [aA, aB] ∧
    (Grid.dense st.d).RowOrder [0, 1, 2] ∧ (Grid.dense st'.d).RowOrder [0, 1, 2] ∧
    (checkCompatible (.dense st.d) (.dense st.d)).isSome = true ∧ (checkCompatible (.dense st'.d) (.dense st'.d)).isSome = true ∧
    (checkCompatible (.dense st'.d) (.dense st.d)).isSome = true ∧
    classes opsAB opsAB = Res.ok ["y", "x", "x"] ∧ classes opsBA opsBA = Res.ok ["y", "x", "x"] ∧
    classes opsAB opsBA = Res.ok ["x", "x", "y"] := by
  obtain ⟨st, hrun, T, f, o⟩ := table (ops := opsAB) (fs := [aA, aB]) (by decide) (by decide) (by decide) (by decide +kernel)
  obtain ⟨st', hrun', T', f', o'⟩ := table (ops := opsBA) (fs := [aB, aA]) (by decide) (by decide) (by decide) (by decide +kernel)
  have h : ((run 4096 opsAB).bind fun st => (run 4096 opsBA).map fun st' => [[aA, aB].all fun a => (List.range 3).all fun r =>
      decide ((Grid.dense st'.d).number v0 a r = (Grid.dense st.d).number v0 a r),
      (checkCompatible (.dense st.d) (.dense st.d)).isSome, (checkCompatible (.dense st'.d) (.dense st'.d)).isSome,
      (checkCompatible (.dense st'.d) (.dense st.d)).isSome]) = Res.ok [true, true, true, true] := by decide +kernel
  rw [hrun, Res.bind_ok, hrun', Res.map_ok, Res.ok.injEq] at h
  simp only [List.cons.injEq, and_true] at h
  obtain ⟨h, c1, c2, c3⟩ := h
  exact ⟨st, st', hrun, hrun', T, T', f, f', fun a ha _ r hr =>
    of_decide_eq_true (List.all_eq_true.1 (List.all_eq_true.1 h a ha) r (List.mem_range.2 hr)), o, o', c1, c2, c3,
    by decide +kernel, by decide +kernel, by decide +kernel⟩

open C162 in
/-- The whole claim is false: a table whose columns are in another order than those of the training data is accepted, and gets
other predictions. -/
theorem C162_refuted : ¬ C162_by_name ℚ := by
  intro hall
  obtain ⟨st, st', hrun, hrun', T, T', f, f', hs, o, o', c1, _, c3, p1, _, p3⟩ := C162_witness
  have hps : PositionSort fun l => l := ⟨List.range, fun n => List.Perm.refl _, fun l => (filterMap_range_getElem? l).symm⟩
  simp only [classes, hrun, hrun', Res.bind_ok] at p1 p3
  obtain ⟨q, hq, p1⟩ := Res.bind_eq_ok.1 p1
  rw [hq, Res.bind_ok] at p3
  have h := hall fo0 v0 (fun l => l) hps (1 / 2) 0 1 (.dense st.d) (.dense st.d) (.dense st'.d) 3 3 aC "x" "y" lab lab lab T T T'
    (List.Perm.refl _) (by rw [f, f']; decide) (by rw [f]; exact hs) (by rw [c1, c3]) [0, 1, 2] o [0, 1, 2] o o' q (by rw [f]; exact hq)
    4096
  rw [h, p1] at p3
  exact absurd (Res.ok.inj p3) (by decide)

end Golearn
