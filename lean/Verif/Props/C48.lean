import Verif.Proofs.TreeExamples

/-! # C48: the nodes of a decision tree agree with their training rows -/

namespace Golearn

/-- For all training data with numbers in `S`, any rule generator that picks an attribute for such numbers, and any order of the maps: the tree fits the data.
Every node, leaf or not, holds a most frequent label of the training rows that reach it and counts their labels; a node
splits only if rows with different labels reach it, so a pure node is a leaf with that label; and there is a branch for
exactly the values that occur. No rule tests the class attribute. -/
theorem C48_fits (e : TreeEnv) (S : U64 → Prop) (E : e.Ok S) (g : Grid) (n : Nat) (lab : Nat → String) (cls : Attr)
    (D : TreeData e.fo g n lab cls) (hS : g.FloatsIn n S) :
    ∃ t, inferID3 e g = Res.ok t ∧ t.Fits (g.branch e.fo) lab (List.range n) ∧
      t.AllRules fun r => r.attr ∈ g.allAttributes ∧ r.attr ≠ cls := by
  obtain ⟨t, h1, h2, h3, _⟩ := inferLoop_spec E (g.allAttributes.length + 1) [] g n lab cls D hS (Nat.lt_succ_self _)
  exact ⟨t, h1, h2, h3⟩

/-- Moreover no path tests an attribute twice, every test has a branch, and the branches of a test of a number are called
0 and 1. So a path is at most as long as the number of attributes. -/
theorem C48_paths (e : TreeEnv) (S : U64 → Prop) (E : e.Ok S) (g : Grid) (n : Nat) (lab : Nat → String) (cls : Attr)
    (D : TreeData e.fo g n lab cls) (hS : g.FloatsIn n S) :
    ∃ t, inferID3 e g = Res.ok t ∧ t.Tests (g.inputs cls) := by
  obtain ⟨t, h1, _, _, h4⟩ := inferLoop_spec E (g.allAttributes.length + 1) [] g n lab cls D hS (Nat.lt_succ_self _)
  exact ⟨t, h1, h4⟩

/-- If all training rows have the same label, the tree is a leaf with it. -/
theorem C48_pure_is_leaf (e : TreeEnv) (S : U64 → Prop) (E : e.Ok S) (g : Grid) (n : Nat) (lab : Nat → String) (cls : Attr)
    (D : TreeData e.fo g n lab cls) (hS : g.FloatsIn n S) (c : String) (hpure : ∀ r, r < n → lab r = c) :
    ∃ d, inferID3 e g = Res.ok (.leaf d c) := by
  obtain ⟨t, h1, h2, _⟩ := C48_fits e S E g n lab cls D hS
  cases t with
  | leaf d c' =>
    obtain ⟨q, hq, rfl⟩ := List.mem_map.1 h2.1.1
    rw [hpure q (List.mem_range.1 hq)] at h1
    exact ⟨d, h1⟩
  | split d c' r keys child =>
    obtain ⟨_, ⟨p, hp, q, hq, hne⟩, _⟩ := h2
    exact absurd ((hpure p (List.mem_range.1 hp)).trans (hpure q (List.mem_range.1 hq)).symm) hne

/-- Predicting the training data itself gives every row a most frequent label of the training rows that take the same
branches as the row does. -/
theorem C48_training_rows (e : TreeEnv) (S : U64 → Prop) (E : e.Ok S) (g : Grid) (n : Nat) (lab : Nat → String) (cls : Attr)
    (D : TreeData e.fo g n lab cls) (hS : g.FloatsIn n S) (p : PredEnv) (hfo : p.fo = e.fo) (Pp : p.Ok)
    (W : TreeInput p.fo g n g.allAttributes) :
    ∃ t d, inferID3 e g = Res.ok t ∧ treePredict p t g = Res.ok d ∧ d.maxRow = n ∧
      ∀ r, r < n → r ∈ t.mates (g.branch e.fo) (List.range n) r ∧
        ∃ c, getClass p.fo (.dense d) r = Res.ok c ∧
          Majority ((t.mates (g.branch e.fo) (List.range n) r).map lab) c := by
  obtain ⟨t, h1, h2, h3⟩ := C48_fits e S E g n lab cls D hS
  obtain ⟨d, d1, d2, d3⟩ := treePredict_spec Pp W (t := t)
    (Q := fun r c => Majority ((t.mates (g.branch e.fo) (List.range n) r).map lab) c) (by
      intro r hr
      rw [hfo]
      exact treeClass_mates D.rows D.typed D.readable hr t _ h2 (allRules_imp (fun _ h => h.1) t h3)
        (List.mem_range.2 hr))
  refine ⟨t, d, h1, d1, d2, ?_⟩
  intro r hr
  obtain ⟨c, c1, c2⟩ := d3 r hr
  refine ⟨?_, c, c2, c1⟩
  have hm : ∀ (t : Tree) (rows : List Nat), r ∈ rows → r ∈ t.mates (g.branch e.fo) rows r := by
    intro t
    induction t with
    | leaf d c => intro rows h; exact h
    | split d c rule keys child ih =>
      intro rows h
      exact ih _ _ (List.mem_filter.2 ⟨h, by simp⟩)
  exact hm t _ (List.mem_range.2 hr)

section Examples
private def fo0 : FloatOps := ⟨fun _ u => if u = 1 then "one" else "other", fun u v => v.toNat < u.toNat⟩
private def aX : Attr := ⟨0, .float "x" 2⟩
private def aY : Attr := ⟨1, .cat "y" ["red", "green", "blue"]⟩
private def aC : Attr := ⟨2, .cat "c" ["a", "b"]⟩
private def opsT : List Op :=
  [.add aX, .add aY, .add aC, .addClass aC, .extend 4, .set 0 0 (packU64 1), .set 0 1 (packU64 2),
   .set 0 2 (packU64 8), .set 0 3 (packU64 9), .set 1 1 (packU64 1), .set 2 2 (packU64 1)]
private def env0 : TreeEnv :=
  ⟨fo0, id, fun _ g => someOrder g, fun _ l => l, fun _ => firstAttribute 5⟩
private def pred0 : PredEnv :=
  ⟨fo0, fun _ => none, 4096, id, id, someOrder, fun _ l => l⟩

/-- The hypotheses hold for four training rows with a float and a categorical attribute. -/
example : ∃ tr, run 4096 opsT = Res.ok tr ∧ env0.Ok (fun _ => True) ∧ pred0.Ok ∧
    TreeData fo0 (.dense tr.d) 4 (fun r => ["a", "a", "b", "a"].getD r "") aC ∧
    (Grid.dense tr.d).FloatsIn 4 (fun _ => True) ∧ TreeInput fo0 (.dense tr.d) 4 (Grid.dense tr.d).allAttributes := by
  have e : ((run 4096 opsT).map fun tr =>
      (treeCheck fo0 tr.d 4 ["a", "a", "b", "a"] aC, inputCheck fo0 tr.d 4 tr.d.allAttributes)) =
      Res.ok (true, true) := by decide +kernel
  obtain ⟨tr, htr, e⟩ := Res.map_eq_ok.1 e
  simp only [Prod.mk.injEq] at e
  have Dt := denseOK_run (pg := 4096) (ops := opsT) (by decide) htr (by decide)
  exact ⟨tr, htr, ⟨fun _ => List.Perm.refl _, fun _ => someOrder_rowOrder, fun _ _ => List.Perm.refl _,
    fun _ => firstAttribute_chooses fo0 _ 5⟩, ⟨fun _ => List.Perm.refl _, fun _ => List.Perm.refl _, someOrder_rowOrder,
    fun _ _ => List.Perm.refl _⟩, treeData_dense Dt e.1, floatsIn_true (treeData_dense Dt e.1).typed,
    treeInput_dense Dt e.2⟩

private def summary : Tree → List (String × Nat) × List (String × List (String × Nat))
  | .split d _ _ keys child => (d, keys.map fun k => ((child k).cls, (child k).dist))
  | .leaf _ _ => ([], [])
/-- The distribution at the root, and the class and distribution of its branches. -/
example : ((run 4096 opsT).bind fun tr => (inferID3 env0 (.dense tr.d)).map summary) =
    Res.ok ([("a", 3), ("b", 1)],
      [("a", [("a", 2)]), ("b", [("b", 1), ("a", 1)])]) := by decide +kernel
end Examples

end Golearn
