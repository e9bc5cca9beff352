import Verif.Proofs.Prune
import Verif.Proofs.TreeExamples
import Mathlib.Tactic.NormNum

/-! # C49: pruning does not lower the accuracy on the pruning data -/

namespace Golearn

/-- The claim for the pruning data and ID3 trees that satisfy `cond`: whatever the orders of the maps, the pruned tree is
at least as accurate on the pruning data as the tree was. -/
def PruningSafe (cond : FloatOps → Grid → Nat → Tree → Prop) : Prop :=
  ∀ (te : TreeEnv) (S : U64 → Prop) (_ : te.Ok S) (tg : Grid) (tn : Nat) (tlab : Nat → String) (tcls : Attr)
    (_ : TreeData te.fo tg tn tlab tcls) (_ : tg.FloatsIn tn S) (t : Tree) (_ : inferID3 te tg = Res.ok t)
    (e : PruneEnv) (_ : e.Ok) (_ : e.fo = te.fo) (path : List String) (g : Grid) (n : Nat) (lab : Nat → String) (cls : Attr)
    (_ : PruneData e.fo g n lab cls) (_ : ∀ a, a ∈ tg.inputs tcls → a ∈ g.inputs cls) (_ : cond e.fo g n t),
    ∃ t', pruneTree e t path g = Res.ok t' ∧
      ∀ p : PredEnv, p.Ok → p.fo = e.fo → ∃ x y, treeAccuracy p t g = Res.ok (some x) ∧
        treeAccuracy p t' g = Res.ok (some y) ∧ x ≤ y

/-- The whole claim. -/
def C49_full : Prop := PruningSafe fun _ _ _ _ => True

theorem accuracy_known {p : PredEnv} (P : p.Ok) {g : Grid} {n : Nat} {lab : Nat → String} {cls : Attr}
    (D : PruneData p.fo g n lab cls) {t : Tree} (ht : t.Tests (g.inputs cls))
    (hk : ∀ r, r < n → t.Knows (g.branch p.fo) r) :
    treeAccuracy p t g = Res.ok (some ((t.right (g.branch p.fo) lab (List.range n) : ℚ) / n)) := by
  refine treeAccuracy_spec P D (f := t.classOf (g.branch p.fo)) ?_
  intro r hr
  obtain ⟨c, c1, c2⟩ := treeClass_total D.rows D.typed D.readable (P.children r) hr t _
    (fun a ha => (List.mem_filter.1 ha).1) ht
  rw [c1, c2 (hk r hr)]

/-- It holds if the tree has a branch for every value in the pruning data, and no number in them prints as 0 or 1. -/
theorem C49_never_worse_partial : PruningSafe fun fo g n t =>
    g.NumbersApart fo n ∧ ∀ r, r < n → t.Knows (g.branch fo) r := by
  intro te S E tg tn tlab tcls D hS t ht e Ee hfo path g n lab cls Dg hsub hcond
  obtain ⟨t0, h1, _, _, h4⟩ := inferLoop_spec E (tg.allAttributes.length + 1) [] tg tn tlab tcls D hS (Nat.lt_succ_self _)
  have : t0 = t := Res.ok.inj (h1.symm.trans ht)
  subst this
  have hT := tests_mono t0 hsub h4
  obtain ⟨t', u1, u2, u3, _⟩ := pruneTree_spec Ee t0 path g n lab cls Dg hT
  obtain ⟨v1, v2⟩ := u3 hcond.1 hcond.2
  refine ⟨t', u1, ?_⟩
  intro p P hp
  rw [← hp] at Dg hcond v1 v2
  refine ⟨_, _, accuracy_known P Dg hT hcond.2, accuracy_known P Dg u2 v1, ?_⟩
  have : (0 : ℚ) < n := by exact_mod_cast Dg.nonempty
  rw [div_le_div_iff_of_pos_right this]
  exact_mod_cast v2

/-- At every node, without these conditions: the children are given up exactly if, on the rows that pruning considers at the
node, the node without them gives no fewer rows their label than the node with its pruned children. -/
theorem C49_collapse (e : PruneEnv) (E : e.Ok) (path : List String) (g : Grid) (n : Nat) (lab : Nat → String) (cls : Attr)
    (D : PruneData e.fo g n lab cls) (d : GoMap String Nat) (c : String) (r : Rule) (keys : List String)
    (child : String → Tree) (ht : (Tree.split d c r keys child).Tests (g.inputs cls)) :
    ∃ child', (Tree.split d c r keys child').Tests (g.inputs cls) ∧
      pruneTree e (.split d c r keys child) path g = Res.ok
        (if rightRows e.fo g (e.pred path true).ord lab n (.leaf d c) <
            rightRows e.fo g (e.pred path false).ord lab n (.split d c r keys child') then .split d c r keys child'
          else .leaf d c) := by
  obtain ⟨t', h1, _, _, h4⟩ := pruneTree_spec E _ path g n lab cls D ht
  obtain ⟨child', h5, h6⟩ := h4 _ _ _ _ _ rfl
  exact ⟨child', h5, by rw [h1, h6]⟩

/-! ## What goes wrong -/

/-- The conditions of `PruneData` for dense instances. -/
theorem pruneData_dense {fo : FloatOps} {d : Dense} {n : Nat} {labels : List String} {p : Nat} {nm : String}
    {vs : List String} (D : DenseOK n d) (h : treeCheck fo d n labels ⟨p, .cat nm vs⟩ = true) (hb : vs.length + n ≤ 2 ^ 64) :
    PruneData fo (.dense d) n (fun r => labels.getD r "") ⟨p, .cat nm vs⟩ := by
  have T := treeData_dense D h
  exact ⟨T.rows, T.distinct, T.typed, T.readable, T.nonempty, T.width, T.classAttr, T.classIn, T.label, p, nm, vs, rfl, hb⟩

section Witness
private def fo1 : FloatOps := ⟨fun _ u => if u = 1 then "1" else if u = 0 then "0" else "2", fun u v => v.toNat < u.toNat⟩
private def aX : Attr := ⟨0, .float "x" 0⟩
private def aY : Attr := ⟨1, .cat "y" ["red", "green", "blue"]⟩
private def aZ : Attr := ⟨2, .cat "z" ["p", "q"]⟩
private def aC : Attr := ⟨3, .cat "c" ["a", "b"]⟩
private def row (r : Nat) (x y z c : U64) : List Op :=
  [.set 0 r (packU64 x), .set 1 r (packU64 y), .set 2 r (packU64 z), .set 3 r (packU64 c)]
private def table (rows : List (U64 × U64 × U64 × U64)) : List Op :=
  [.add aX, .add aY, .add aZ, .add aC, .addClass aC, .extend rows.length] ++
    (rows.zipIdx.map fun p => row p.2 p.1.1 p.1.2.1 p.1.2.2.1 p.1.2.2.2).flatten
private def prefer (l : List Attr) (g : Grid) : Res (Option Rule) :=
  Res.ok ((l.find? fun a => decide (a ∈ g.allAttributes ∧ a ∉ g.allClassAttributes)).map fun a => ⟨a, 0⟩)
private def env1 (l : List Attr) : TreeEnv := ⟨fo1, id, fun _ g => someOrder g, fun _ l => l, fun _ => prefer l⟩
private def pred1 : PredEnv := ⟨fo1, fun _ => none, 4096, id, id, someOrder, fun _ l => l⟩
private def prune1 : PruneEnv := ⟨fo1, id, fun _ g => someOrder g, fun _ _ => pred1⟩

private theorem pred1_ok : pred1.Ok :=
  ⟨fun _ => List.Perm.refl _, fun _ => List.Perm.refl _, someOrder_rowOrder, fun _ _ => List.Perm.refl _⟩
private theorem prune1_ok : prune1.Ok :=
  ⟨fun _ => List.Perm.refl _, fun _ => someOrder_rowOrder, fun _ _ => pred1_ok, fun _ _ => rfl⟩
private theorem env1_ok (l : List Attr) : (env1 l).Ok fun _ => True := by
  refine ⟨fun _ => List.Perm.refl _, fun _ => someOrder_rowOrder, fun _ _ => List.Perm.refl _, ?_⟩
  intro _ g n lab cls D _
  refine ⟨_, rfl, ?_⟩
  intro rule h
  rw [Option.map_eq_some_iff] at h
  obtain ⟨a, h1, rfl⟩ := h
  have := List.find?_some h1
  simp only [decide_eq_true_eq, D.classAttr, List.mem_singleton] at this
  exact this

/-- `Knows`, as a test. -/
private def knows (key : Rule → Nat → String) : Tree → Nat → Bool
  | .leaf _ _, _ => true
  | .split _ _ r keys child, row => decide (key r row ∈ keys) && knows key (child (key r row)) row
private theorem knows_iff {key : Rule → Nat → String} (t : Tree) {row : Nat} (h : knows key t row = true) : t.Knows key row := by
  induction t with
  | leaf d c => trivial
  | split d c r keys child ih =>
    simp only [knows, Bool.and_eq_true, decide_eq_true_eq] at h
    exact ⟨h.1, ih _ h.2⟩

/-- `NumbersApart`, as a test. -/
private def apart (fo : FloatOps) (d : Dense) (n : Nat) : Bool :=
  d.allAttributes.all fun a => !a.isFloat || (List.range n).all fun r =>
    match a.getString fo ((Grid.dense d).cell a r) with
    | .ok s => decide (s ≠ "0" ∧ s ≠ "1")
    | _ => true
private theorem apart_iff {fo : FloatOps} {d : Dense} {n : Nat} (h : apart fo d n = true) :
    (Grid.dense d).NumbersApart fo n := by
  intro a ha hf r hr s hs
  have := List.all_eq_true.1 h a ha
  rw [hf] at this
  have := List.all_eq_true.1 this r (List.mem_range.2 hr)
  rw [hs] at this
  simpa using this

private def check (l : List Attr) (train test : List Op) (tl pl : List String) : Res (List Bool) :=
  (run 4096 train).bind fun tr => (run 4096 test).bind fun te =>
    (inferID3 (env1 l) (.dense tr.d)).bind fun t =>
      (pruneTree prune1 t [] (.dense te.d)).bind fun t' =>
        (treeAccuracy pred1 t (.dense te.d)).bind fun x =>
          (treeAccuracy pred1 t' (.dense te.d)).map fun y =>
            [treeCheck fo1 tr.d tl.length tl aC, treeCheck fo1 te.d pl.length pl aC,
             decide (tr.d.allAttributes = te.d.allAttributes), decide (x = some (3 / 4)), decide (y = some (1 / 4)),
             (List.range pl.length).all fun r => knows ((Grid.dense te.d).branch fo1) t r, apart fo1 te.d pl.length]

private theorem refute {l : List Attr} {train test : List Op} {tl pl : List String} {b1 b2 : Bool}
    (h : check l train test tl pl = Res.ok [true, true, true, true, true, b1, b2])
    (hb : ∀ op ∈ train, basicOp op = true) (hb' : ∀ op ∈ test, basicOp op = true)
    (hd : (addedAttrs train).Pairwise (fun a b => a.equals b = false))
    (hd' : (addedAttrs test).Pairwise (fun a b => a.equals b = false))
    (hn : totalRows train = tl.length) (hn' : totalRows test = pl.length) (hs : pl.length ≤ 5)
    {cond : FloatOps → Grid → Nat → Tree → Prop}
    (hc : ∀ (d : Dense) t, (((List.range pl.length).all fun r => knows ((Grid.dense d).branch fo1) t r) = b1) →
      apart fo1 d pl.length = b2 → cond fo1 (.dense d) pl.length t) :
    ¬ PruningSafe cond := by
  intro H
  obtain ⟨tr, h1, h⟩ := Res.bind_eq_ok.1 h
  obtain ⟨te, h2, h⟩ := Res.bind_eq_ok.1 h
  obtain ⟨t, h3, h⟩ := Res.bind_eq_ok.1 h
  obtain ⟨t', h4, h⟩ := Res.bind_eq_ok.1 h
  obtain ⟨x, h5, h⟩ := Res.bind_eq_ok.1 h
  obtain ⟨y, h6, h⟩ := Res.map_eq_ok.1 h
  simp only [List.cons.injEq, decide_eq_true_eq, and_true] at h
  obtain ⟨c1, c2, c3, c4, c5, c6, c7⟩ := h
  have Dt := denseOK_run (pg := 4096) hb h1 hd
  have De := denseOK_run (pg := 4096) hb' h2 hd'
  rw [hn] at Dt
  rw [hn'] at De
  have T := treeData_dense Dt c1
  obtain ⟨u, u1, u2⟩ := H (env1 l) _ (env1_ok l) (.dense tr.d) _ _ aC T (floatsIn_true T.typed) t h3 prune1 prune1_ok rfl []
    (.dense te.d) pl.length _ aC (pruneData_dense De c2 (by simp; omega))
    (by
      intro a ha
      unfold Grid.inputs at *
      have : (Grid.dense tr.d).allAttributes = (Grid.dense te.d).allAttributes := c3
      rw [← this]; exact ha)
    (hc te.d t c6 c7)
  have : u = t' := Res.ok.inj (u1.symm.trans h4)
  subst this
  obtain ⟨x', y', v1, v2, v3⟩ := u2 pred1 pred1_ok rfl
  have e1 := Res.ok.inj (v1.symm.trans h5)
  have e2 := Res.ok.inj (v2.symm.trans h6)
  rw [c4] at e1
  rw [c5] at e2
  rw [Option.some.inj e1, Option.some.inj e2] at v3
  norm_num at v3

private def train1 : List Op := table [(0, 0, 0, 0), (1, 0, 0, 0), (1, 1, 0, 1), (2, 0, 0, 0)]
private def test1 : List Op := table [(1, 1, 0, 0), (2, 1, 0, 1), (2, 1, 0, 1), (3, 1, 1, 1)]

/-- Pruning looks up the rows of the branch 1, "above the threshold", by the value 1: the branch is pruned with the rows that
contain 1, although others take it. Here accuracy falls from three quarters to one quarter. -/
theorem C49_numbers_break : ¬ PruningSafe fun fo g n t => ∀ r, r < n → t.Knows (g.branch fo) r := by
  refine refute (l := [aX, aY, aZ]) (train := train1) (test := test1) (tl := ["a", "a", "b", "a"]) (pl := ["a", "b", "b", "b"])
    (b1 := true) (b2 := false) (by decide +kernel) (by decide) (by decide) (by decide) (by decide) (by decide) (by decide)
    (by decide) ?_
  intro d t h _ r hr
  exact knows_iff t (List.all_eq_true.1 h r (List.mem_range.2 hr))

private def train2 : List Op := table [(2, 0, 0, 0), (2, 0, 1, 1), (2, 1, 0, 0), (2, 0, 0, 0)]
private def test2 : List Op := table [(2, 0, 1, 0), (2, 2, 1, 1), (2, 2, 1, 1), (2, 2, 1, 1)]

/-- Rows with a value the tree has no branch for are predicted with some branch but not considered when it is pruned. -/
theorem C49_unknown_values_break : ¬ PruningSafe fun fo g n _ => g.NumbersApart fo n := by
  refine refute (l := [aY, aZ, aX]) (train := train2) (test := test2) (tl := ["a", "b", "a", "a"]) (pl := ["a", "b", "b", "b"])
    (b1 := false) (b2 := true) (by decide +kernel) (by decide) (by decide) (by decide) (by decide) (by decide) (by decide)
    (by decide) ?_
  intro d t _ h
  exact apart_iff h

theorem C49_refuted : ¬ C49_full := by
  intro H
  apply C49_numbers_break
  intro te S E tg tn tlab tcls D hS t ht e Ee hfo path g n lab cls Dg hsub _
  exact H te S E tg tn tlab tcls D hS t ht e Ee hfo path g n lab cls Dg hsub trivial

/-- The conditions of the partial theorem hold for some data: pruning with the training rows of the second example. -/
example : ((run 4096 train2).bind fun tr => (inferID3 (env1 [aY, aZ, aX]) (.dense tr.d)).bind fun t =>
    (treeAccuracy pred1 t (.dense tr.d)).map fun x =>
      [treeCheck fo1 tr.d 4 ["a", "b", "a", "a"] aC, (List.range 4).all fun r => knows ((Grid.dense tr.d).branch fo1) t r,
       apart fo1 tr.d 4, decide (x = some 1)]) = Res.ok [true, true, true, true] := by decide +kernel
end Witness

end Golearn
