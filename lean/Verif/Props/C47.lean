import Verif.Proofs.TreeExamples

/-! # C47: predictions of a decision tree end at a trained class -/

namespace Golearn

/-- For all training data of at least one row with numbers in any set `S`, any rule generator that picks an attribute for
such numbers, and any order of the maps, a tree is built. For any data with columns for the attributes of the training data, whatever its values and whatever the orders of
the maps, the prediction succeeds, and every row gets a class that is the label of a training row. -/
theorem C47_predicts_trained_class (e : TreeEnv) (S : U64 → Prop) (E : e.Ok S) (g : Grid) (n : Nat) (lab : Nat → String) (cls : Attr)
    (D : TreeData e.fo g n lab cls) (hS : g.FloatsIn n S) :
    ∃ t, inferID3 e g = Res.ok t ∧
      ∀ (p : PredEnv) (_ : p.Ok) (what : Grid) (m : Nat) (_ : TreeInput p.fo what m g.allAttributes),
        ∃ d, treePredict p t what = Res.ok d ∧ d.maxRow = m ∧
          ∀ r, r < m → ∃ q, q < n ∧ getClass p.fo (.dense d) r = Res.ok (lab q) := by
  obtain ⟨t, h1, h2, h3, _⟩ := inferLoop_spec E (g.allAttributes.length + 1) [] g n lab cls D hS (Nat.lt_succ_self _)
  refine ⟨t, h1, ?_⟩
  intro p Pp what m W
  obtain ⟨d, d1, d2, d3⟩ := treePredict_spec Pp W (t := t) (Q := fun _ c => c ∈ (List.range n).map lab) (by
    intro r hr
    exact treeClass_trained W.rows W.typed W.readable W.finds (Pp.children r) hr t _ h2
      (allRules_imp (fun _ h => h.1) t h3))
  refine ⟨d, d1, d2, ?_⟩
  intro r hr
  obtain ⟨c, c1, c2⟩ := d3 r hr
  obtain ⟨q, hq, rfl⟩ := List.mem_map.1 c1
  exact ⟨q, List.mem_range.1 hq, c2⟩

/-- Without training rows there is no class to predict. A generator that picks an attribute then gives a node with no
branches, and predicting a row panics. -/
theorem C47_no_rows_panics (fo : FloatOps) (d : GoMap String Nat) (c : String) (r : Rule) (child : String → Tree)
    (g : Grid) (ord : List String → List String) (ho : ∀ l, (ord l).Perm l) (row : Nat) :
    ¬ (treeClass fo g ord row (.split d c r [] child)).isOk = true := by
  rw [treeClass]
  have hb : ord [] = [] := List.Perm.eq_nil (ho [])
  intro h
  cases h1 : (g.getAttribute r.attr).orPanic with
  | ok s =>
    rw [h1, Res.bind_ok] at h
    cases h2 : g.get s row with
    | ok v =>
      rw [h2, Res.bind_ok] at h
      cases h3 : (if s.attr.isFloat = true then thresholdKey fo r.val v else Attr.getString fo s.attr v) with
      | ok k =>
        rw [h3, Res.bind_ok] at h
        simp [Res.isOk] at h
      | err => rw [h3] at h; cases h
      | panic => rw [h3] at h; cases h
    | err => rw [h2] at h; cases h
    | panic => rw [h2] at h; cases h
  | err => rw [h1] at h; cases h
  | panic => rw [h1] at h; cases h

section Examples
private def fo0 : FloatOps := ⟨fun _ u => if u = 1 then "one" else "other", fun u v => v.toNat < u.toNat⟩
private def aX : Attr := ⟨0, .float "x" 2⟩
private def aY : Attr := ⟨1, .cat "y" ["red", "green", "blue"]⟩
private def aC : Attr := ⟨2, .cat "c" ["a", "b"]⟩
private def opsT : List Op :=
  [.add aX, .add aY, .add aC, .addClass aC, .extend 4, .set 0 0 (packU64 1), .set 0 1 (packU64 2),
   .set 0 2 (packU64 8), .set 0 3 (packU64 9), .set 1 1 (packU64 1), .set 2 2 (packU64 1)]
private def aX' : Attr := ⟨3, .float "x" 2⟩
private def aY' : Attr := ⟨4, .cat "y" ["red", "green", "blue"]⟩
private def aC' : Attr := ⟨5, .cat "c" ["a", "b"]⟩
private def opsW : List Op :=
  [.add aX', .add aY', .add aC', .addClass aC', .extend 2, .set 0 0 (packU64 3), .set 0 1 (packU64 13),
   .set 1 0 (packU64 2)]
private def env0 : TreeEnv :=
  ⟨fo0, id, fun _ g => someOrder g, fun _ l => l, fun _ => firstAttribute 5⟩
private def pred0 : PredEnv :=
  ⟨fo0, fun _ => none, 4096, id, id, someOrder, fun _ l => l⟩

private theorem env0_ok : env0.Ok fun _ => True :=
  ⟨fun _ => List.Perm.refl _, fun _ => someOrder_rowOrder, fun _ _ => List.Perm.refl _,
    fun _ => firstAttribute_chooses fo0 _ 5⟩
private theorem pred0_ok : pred0.Ok :=
  ⟨fun _ => List.Perm.refl _, fun _ => List.Perm.refl _, someOrder_rowOrder, fun _ _ => List.Perm.refl _⟩

/-- The hypotheses hold for four training rows with a float and a categorical attribute, and two rows to predict. -/
example : ∃ tr pr, run 4096 opsT = Res.ok tr ∧ run 4096 opsW = Res.ok pr ∧ env0.Ok (fun _ => True) ∧ pred0.Ok ∧
    TreeData fo0 (.dense tr.d) 4 (fun r => ["a", "a", "b", "a"].getD r "") aC ∧
    (Grid.dense tr.d).FloatsIn 4 (fun _ => True) ∧ TreeInput fo0 (.dense pr.d) 2 (Grid.dense tr.d).allAttributes := by
  have e : ((run 4096 opsT).bind fun tr => (run 4096 opsW).map fun pr =>
      (treeCheck fo0 tr.d 4 ["a", "a", "b", "a"] aC, inputCheck fo0 pr.d 2 tr.d.allAttributes)) =
      Res.ok (true, true) := by decide +kernel
  obtain ⟨tr, htr, e⟩ := Res.bind_eq_ok.1 e
  obtain ⟨pr, hpr, e⟩ := Res.map_eq_ok.1 e
  simp only [Prod.mk.injEq] at e
  have Dt := denseOK_run (pg := 4096) (ops := opsT) (by decide) htr (by decide)
  have Dp := denseOK_run (pg := 4096) (ops := opsW) (by decide) hpr (by decide)
  exact ⟨tr, pr, htr, hpr, env0_ok, pred0_ok, treeData_dense Dt e.1, floatsIn_true (treeData_dense Dt e.1).typed,
    treeInput_dense Dp e.2⟩

/-- The tree splits on x at 5. The row at 3 gets a, the row at 13 gets b or a: both occur there once. -/
example : ((run 4096 opsT).bind fun tr => (run 4096 opsW).bind fun pr =>
      (inferID3 env0 (.dense tr.d)).bind fun t => (treePredict pred0 t (.dense pr.d)).bind fun d =>
        mapRes (getClass fo0 (.dense d)) [0, 1]) = Res.ok ["a", "b"] := by decide +kernel
end Examples

end Golearn
