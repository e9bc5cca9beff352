import Verif.Proofs.TreeColumns
import Verif.Proofs.TreeExamples

/-! # C165: a decision tree looks at the columns of its rules only, by name -/

namespace Golearn

/-- Two tables to predict have columns under the names that the rules of a tree use, with the same numbers and texts. The order of the
columns, other columns and the contents of the class column make no difference: `Predict` has the same result, be it predictions or a
panic. -/
theorem C165_tree (p p' : PredEnv) (E : p.Ok) (E' : p'.Ok) (what what' : Grid) (R : SameRun p p' what what') (m : Nat) (as : List Attr)
    (P : what.Presents m) (P' : what'.Presents m) (hc : what'.allClassAttributes = what.allClassAttributes)
    (S : SameContents p.fo what what' m as) (t : Tree) (ht : t.AllRules fun r => r.attr ∈ as) :
    treePredict p' t what' = treePredict p t what :=
  treePredict_same E E' R P P' hc S t ht

/-- A tree is trained on any table, with any rule generator that picks an attribute and any orders of maps. It predicts the same for all
pairs of tables that have the columns of the training data, without the class, under the same names with the same contents. -/
theorem C165_trained (e : TreeEnv) (F : U64 → Prop) (E : e.Ok F) (g : Grid) (n : Nat) (lab : Nat → String) (cls : Attr)
    (D : TreeData e.fo g n lab cls) (hF : g.FloatsIn n F) :
    ∃ t, inferID3 e g = Res.ok t ∧
      ∀ (p p' : PredEnv) (what what' : Grid) (m : Nat), p.Ok → p'.Ok → SameRun p p' what what' → what.Presents m → what'.Presents m →
        what'.allClassAttributes = what.allClassAttributes →
        SameContents p.fo what what' m (g.allAttributes.filter fun a => a ≠ cls) →
        treePredict p' t what' = treePredict p t what := by
  obtain ⟨t, h1, _, h3, _⟩ := inferLoop_spec E (g.allAttributes.length + 1) [] g n lab cls D hF (Nat.lt_succ_self _)
  refine ⟨t, h1, fun p p' what what' m Ep Ep' R P P' hc S => ?_⟩
  refine treePredict_same Ep Ep' R P P' hc S t (allRules_imp (fun r h => ?_) t h3)
  exact List.mem_filter.2 ⟨h.1, by simpa using h.2⟩

namespace C165
def fo0 : FloatOps := ⟨fun _ u => if u = 1 then "one" else "other", fun u v => v.toNat < u.toNat⟩
def aX : Attr := ⟨0, .float "x" 2⟩
def aY : Attr := ⟨1, .cat "y" ["red", "green", "blue"]⟩
def aC : Attr := ⟨2, .cat "c" ["a", "b"]⟩
def opsT : List Op :=
  [.add aX, .add aY, .add aC, .addClass aC, .extend 4, .set 0 0 (packU64 1), .set 0 1 (packU64 2),
   .set 0 2 (packU64 8), .set 0 3 (packU64 9), .set 1 1 (packU64 1), .set 2 2 (packU64 1)]
def aX' : Attr := ⟨3, .float "x" 2⟩
def aY' : Attr := ⟨4, .cat "y" ["red", "green", "blue"]⟩
def aC' : Attr := ⟨5, .cat "c" ["a", "b"]⟩
def aZ : Attr := ⟨6, .float "z" 2⟩
/-- Two rows to predict. -/
def opsW : List Op :=
  [.add aX', .add aY', .add aC', .addClass aC', .extend 2, .set 0 0 (packU64 3), .set 0 1 (packU64 13), .set 1 0 (packU64 2)]
/-- The same with one more numeric column, and the columns in another order. -/
def opsV : List Op :=
  [.add aZ, .add aY', .add aC', .addClass aC', .add aX', .extend 2, .set 3 0 (packU64 3), .set 3 1 (packU64 13), .set 1 0 (packU64 2),
   .set 0 0 (packU64 99), .set 2 1 (packU64 1)]
def env0 : TreeEnv := ⟨fo0, id, fun _ g => someOrder g, fun _ l => l, fun _ => firstAttribute 5⟩
def pred0 : PredEnv := ⟨fo0, fun _ => none, 4096, id, id, someOrder, fun _ l => l⟩
/-- Another order of the attributes. -/
def pred1 : PredEnv := ⟨fo0, fun _ => none, 4096, id, List.reverse, someOrder, fun _ l => l⟩

theorem env0_ok : env0.Ok fun _ => True :=
  ⟨fun _ => List.Perm.refl _, fun _ => someOrder_rowOrder, fun _ _ => List.Perm.refl _,
    fun _ => firstAttribute_chooses fo0 _ 5⟩
theorem pred0_ok : pred0.Ok :=
  ⟨fun _ => List.Perm.refl _, fun _ => List.Perm.refl _, someOrder_rowOrder, fun _ _ => List.Perm.refl _⟩
theorem pred1_ok : pred1.Ok :=
  ⟨fun _ => List.Perm.refl _, fun l => l.reverse_perm, someOrder_rowOrder, fun _ _ => List.Perm.refl _⟩
end C165

open C165 in
/-- The hypotheses hold for a table with the columns x, y and c and one with z, y, c and x, and the tree predicts a and b for both. -/
theorem C165_witness : ∃ tr pr pr', run 4096 opsT = Res.ok tr ∧ run 4096 opsW = Res.ok pr ∧ run 4096 opsV = Res.ok pr' ∧
    env0.Ok (fun _ => True) ∧ pred0.Ok ∧ pred1.Ok ∧ TreeData fo0 (.dense tr.d) 4 (fun r => ["a", "a", "b", "a"].getD r "") aC ∧
    (Grid.dense tr.d).FloatsIn 4 (fun _ => True) ∧ SameRun pred0 pred1 (.dense pr.d) (.dense pr'.d) ∧
    (Grid.dense pr.d).Presents 2 ∧ (Grid.dense pr'.d).Presents 2 ∧ pr'.d.allClassAttributes = pr.d.allClassAttributes ∧
    SameContents fo0 (.dense pr.d) (.dense pr'.d) 2 ((Grid.dense tr.d).allAttributes.filter fun a => a ≠ aC) ∧
    ((inferID3 env0 (.dense tr.d)).bind fun t => (treePredict pred0 t (.dense pr.d)).bind fun d =>
      mapRes (getClass fo0 (.dense d)) [0, 1]) = Res.ok ["a", "b"] ∧
    ((inferID3 env0 (.dense tr.d)).bind fun t => (treePredict pred1 t (.dense pr'.d)).bind fun d =>
      mapRes (getClass fo0 (.dense d)) [0, 1]) = Res.ok ["a", "b"] := by
  have e : ((run 4096 opsT).bind fun tr => (run 4096 opsW).bind fun pr => (run 4096 opsV).map fun pr' =>
      [treeCheck fo0 tr.d 4 ["a", "a", "b", "a"] aC, decide (pr'.d.allClassAttributes = pr.d.allClassAttributes),
        decide (tr.d.allAttributes.filter (fun a => a ≠ aC) = [aX, aY]),
        decide (aX' ∈ pr.d.allAttributes), decide (aX' ∈ pr'.d.allAttributes), decide (aY' ∈ pr.d.allAttributes),
        decide (aY' ∈ pr'.d.allAttributes),
        decide ((Grid.dense pr.d).getAttribute aX = (Grid.dense pr.d).getAttribute aX'),
        decide ((Grid.dense pr'.d).getAttribute aX = (Grid.dense pr'.d).getAttribute aX'),
        decide ((Grid.dense pr.d).getAttribute aY = (Grid.dense pr.d).getAttribute aY'),
        decide ((Grid.dense pr'.d).getAttribute aY = (Grid.dense pr'.d).getAttribute aY'),
        (List.range 2).all fun r => decide ((Grid.dense pr'.d).cell aX' r = (Grid.dense pr.d).cell aX' r),
        (List.range 2).all fun r => decide ((Grid.dense pr'.d).cell aY' r = (Grid.dense pr.d).cell aY' r),
        decide (((inferID3 env0 (.dense tr.d)).bind fun t => (treePredict pred0 t (.dense pr.d)).bind fun d =>
          mapRes (getClass fo0 (.dense d)) [0, 1]) = Res.ok ["a", "b"]),
        decide (((inferID3 env0 (.dense tr.d)).bind fun t => (treePredict pred1 t (.dense pr'.d)).bind fun d =>
          mapRes (getClass fo0 (.dense d)) [0, 1]) = Res.ok ["a", "b"])]) =
      Res.ok [true, true, true, true, true, true, true, true, true, true, true, true, true, true, true] := by decide +kernel
  obtain ⟨tr, htr, e⟩ := Res.bind_eq_ok.1 e
  obtain ⟨pr, hpr, e⟩ := Res.bind_eq_ok.1 e
  obtain ⟨pr', hpr', e⟩ := Res.map_eq_ok.1 e
  simp only [List.cons.injEq, decide_eq_true_eq, and_true] at e
  obtain ⟨c1, c2, c3, x1, x2, y1, y2, gx, gx', gy, gy', vx, vy, p1, p2⟩ := e
  have Dt := denseOK_run (pg := 4096) (ops := opsT) (by decide) htr (by decide)
  have Dp : DenseOK 2 pr.d := denseOK_run (pg := 4096) (ops := opsW) (by decide) hpr (by decide)
  have Dq : DenseOK 2 pr'.d := denseOK_run (pg := 4096) (ops := opsV) (by decide) hpr' (by decide)
  refine ⟨tr, pr, pr', htr, hpr, hpr', env0_ok, pred0_ok, pred1_ok, treeData_dense Dt c1, floatsIn_true (treeData_dense Dt c1).typed,
    ⟨rfl, rfl, rfl, rfl, ?_⟩, Dp.presents, Dq.presents, c2, ?_, p1, p2⟩
  · show List.range pr'.d.maxRow = List.range pr.d.maxRow
    rw [show pr'.d.maxRow = 2 from Dq.presents.rows, show pr.d.maxRow = 2 from Dp.presents.rows]
  · show SameContents fo0 _ _ 2 (tr.d.allAttributes.filter fun a => a ≠ aC)
    rw [c3]
    intro a ha
    simp only [List.mem_cons, List.not_mem_nil, or_false] at ha
    rcases ha with rfl | rfl
    · refine ⟨aX', x1, aX', x2, gx, gx', rfl, fun r hr => ?_⟩
      rw [if_pos (by rfl)]
      exact of_decide_eq_true (List.all_eq_true.1 vx r (List.mem_range.2 hr))
    · refine ⟨aY', y1, aY', y2, gy, gy', rfl, fun r hr => ?_⟩
      rw [if_neg (by decide), of_decide_eq_true (List.all_eq_true.1 vy r (List.mem_range.2 hr))]

end Golearn
