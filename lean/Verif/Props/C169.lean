import Verif.Spec.SameRow
import Verif.Props.C163
import Verif.Props.C165
import Verif.Props.C166

/-! # C169: a row is predicted on its own -/

namespace Golearn

theorem treeClass_row {fo : FloatOps} {g g' : Grid} {m m' : Nat} {as : List Attr} (P : g.Presents m) (P' : g'.Presents m')
    {row row' : Nat} (hr : row < m) (hr' : row' < m') (S : SameRow fo g g' row row' as) (ord : List String → List String) (t : Tree) :
    t.AllRules (fun r => r.attr ∈ as) → treeClass fo g' ord row' t = treeClass fo g ord row t := by
  induction t with
  | leaf d c => intro _; rfl
  | split d c r keys child ih =>
    intro h
    obtain ⟨b, hb, b', hb', e1, e2, e3, e4⟩ := S r.attr h.1
    obtain ⟨s, s1, s2, s3⟩ := P.read b hb
    obtain ⟨s', s1', s2', s3'⟩ := P'.read b' hb'
    have hk : (if s'.attr.isFloat then thresholdKey fo r.val (g'.cell b' row') else s'.attr.getString fo (g'.cell b' row')) =
        (if s.attr.isFloat then thresholdKey fo r.val (g.cell b row) else s.attr.getString fo (g.cell b row)) := by
      rw [s2, s2', e3]
      split at e4
      · rename_i hf; rw [if_pos hf, if_pos hf, e4]
      · rename_i hf; rw [if_neg hf, if_neg hf, e4]
    simp only [treeClass, e1, e2, s1, s1', Res.orPanic, Res.bind_ok, s3 row hr, s3' row' hr', hk]
    congr 1
    funext k
    by_cases hk1 : k ∈ keys
    · rw [if_pos hk1, if_pos hk1, ih k (h.2 k hk1)]
    · rw [if_neg hk1, if_neg hk1]
      by_cases hk2 : bestChild k (ord keys) "" ∈ keys
      · rw [if_pos hk2, if_pos hk2, ih _ (h.2 _ hk2)]
      · rw [if_neg hk2, if_neg hk2]

/-- A decision tree is trained on any table. The class that it predicts for a row depends on this row only: a row of one table and a row of
another one with the same numbers and texts, in the columns of the training data without the class, are given the same class. The orders
of the branches are the same for both rows. -/
theorem C169_tree (e : TreeEnv) (F : U64 → Prop) (E : e.Ok F) (g : Grid) (n : Nat) (lab : Nat → String) (cls : Attr)
    (D : TreeData e.fo g n lab cls) (hF : g.FloatsIn n F) :
    ∃ t, inferID3 e g = Res.ok t ∧
      ∀ (p p' : PredEnv) (what what' : Grid) (m m' : Nat), p.Ok → p'.Ok → p'.fo = p.fo → TreeInput p.fo what m g.allAttributes →
        TreeInput p.fo what' m' g.allAttributes →
        ∃ d d', treePredict p t what = Res.ok d ∧ treePredict p' t what' = Res.ok d' ∧
          ∀ r r', r < m → r' < m' → p'.ord r' = p.ord r → SameRow p.fo what what' r r' (g.allAttributes.filter fun a => a ≠ cls) →
            ∃ c, getClass p.fo (.dense d) r = Res.ok c ∧ getClass p.fo (.dense d') r' = Res.ok c := by
  obtain ⟨t, h1, h2, h3, _⟩ := inferLoop_spec E (g.allAttributes.length + 1) [] g n lab cls D hF (Nat.lt_succ_self _)
  refine ⟨t, h1, fun p p' what what' m m' Ep Ep' hfo W W' => ?_⟩
  have tot : ∀ {q : PredEnv} (_ : q.Ok) {u : Grid} {k : Nat} (_ : TreeInput q.fo u k g.allAttributes),
      ∃ d, treePredict q t u = Res.ok d ∧ d.maxRow = k ∧
        ∀ r, r < k → ∃ c, treeClass q.fo u (q.ord r) r t = Res.ok c ∧ getClass q.fo (.dense d) r = Res.ok c := by
    intro q Eq u k U
    refine treePredict_spec Eq U (Q := fun r c => treeClass q.fo u (q.ord r) r t = Res.ok c) fun r hr => ?_
    obtain ⟨c, hc, _⟩ := treeClass_trained U.rows U.typed U.readable U.finds (Eq.children r) hr t _ h2
      (allRules_imp (fun _ h => h.1) t h3)
    exact ⟨c, hc, hc⟩
  obtain ⟨d, d1, _, d3⟩ := tot Ep W
  obtain ⟨d', d1', _, d3'⟩ := tot Ep' (hfo ▸ W')
  refine ⟨d, d', d1, d1', fun r r' hr hr' ho S => ?_⟩
  obtain ⟨c, c1, c2⟩ := d3 r hr
  obtain ⟨c', c1', c2'⟩ := d3' r' hr'
  rw [hfo, ho, treeClass_row W.rows W'.rows hr hr' S _ t
    (allRules_imp (fun r h => List.mem_filter.2 ⟨h.1, by simpa using h.2⟩) t h3), c1, Res.ok.injEq] at c1'
  subst c1'
  rw [hfo] at c2'
  exact ⟨c, c2, c2'⟩

/-- The number that a linear regression predicts for a row depends on the numbers of this row in the columns of the model only. -/
theorem C169_regression {R : Type} [Field R] [LinearOrder R] [IsStrictOrderedRing R] (val : U64 → R) (enc : R → U64)
    (srt : List Spec → List Spec) (hsrt : PositionSort srt) (pg : Nat) (order order' : List Nat) (lr : LinReg R) (what what' : Grid)
    (m m' : Nat) (P : what.Presents m) (T : what.typed m) (ho : what.RowOrder order) (P' : what'.Presents m') (T' : what'.typed m')
    (ho' : what'.RowOrder order') (cls cls' : Attr) (hc : what.allClassAttributes = [cls]) (hc' : what'.allClassAttributes = [cls'])
    (hbin : cls.isBin = false) (hbin' : cls'.isBin = false) (heq : cls.equals lr.cls = true) (heq' : cls'.equals lr.cls = true)
    (hf : what.Finds lr.attrs) (hf' : what'.Finds lr.attrs) (hfl : ∀ a ∈ lr.attrs, a.isFloat = true) :
    ∃ d d', linRegPredict val enc srt pg order lr what = Res.ok d ∧ linRegPredict val enc srt pg order' lr what' = Res.ok d' ∧
      ∀ r r', r < m → r' < m' → (∀ a ∈ lr.attrs, what'.number val a r' = what.number val a r) →
        (Grid.dense d').cell cls' r' = (Grid.dense d).cell cls r := by
  obtain ⟨fs, hfs, hsp⟩ := positionSort_attrs hsrt lr.attrs
  obtain ⟨d, d1, _, _, d4⟩ := linRegPredict_spec (enc := enc) (val := val) (pg := pg) P T ho hc hbin heq hfs hsp hf hfl
  obtain ⟨d', d1', _, _, d4'⟩ := linRegPredict_spec (enc := enc) (val := val) (pg := pg) P' T' ho' hc' hbin' heq' hfs hsp hf' hfl
  refine ⟨d, d', d1, d1', fun r r' hr hr' hs => ?_⟩
  have hp : what'.point val fs r' = what.point val fs r := List.map_congr_left fun a ha => hs a (hfs.subset ha)
  rw [d4 r hr, d4' r' hr', hp]

namespace C169
open C165
/-- Three rows; the last one is the first row of `opsW`. -/
def opsU : List Op :=
  [.add aZ, .add aY', .add aC', .addClass aC', .add aX', .extend 3, .set 3 0 (packU64 13), .set 3 1 (packU64 1), .set 3 2 (packU64 3),
   .set 1 2 (packU64 2), .set 0 0 (packU64 99)]
def lr : LinReg ℚ := ⟨2, [3], [C166.x], C166.y⟩
def reg : List Op := [.add C166.x, .add C166.y, .addClass C166.y, .extend 2, .set 0 0 (packU64 5), .set 0 1 (packU64 1)]
def reg' : List Op := [.add C166.z, .add C166.y, .add C166.x, .addClass C166.y, .extend 3, .set 2 0 (packU64 4), .set 2 2 (packU64 5),
  .set 0 2 (packU64 8)]
end C169

open C165 C169 in
/-- The first row of one table and the last one of another meet the hypotheses, and the tree predicts a for both. -/
theorem C169_tree_witness : ∃ tr pr pr', run 4096 opsT = Res.ok tr ∧ run 4096 opsW = Res.ok pr ∧ run 4096 opsU = Res.ok pr' ∧
    env0.Ok (fun _ => True) ∧ pred0.Ok ∧ pred1.Ok ∧ TreeData fo0 (.dense tr.d) 4 (fun r => ["a", "a", "b", "a"].getD r "") aC ∧
    (Grid.dense tr.d).FloatsIn 4 (fun _ => True) ∧ TreeInput fo0 (.dense pr.d) 2 tr.d.allAttributes ∧
    TreeInput fo0 (.dense pr'.d) 3 tr.d.allAttributes ∧ pred1.ord 2 = pred0.ord 0 ∧
    SameRow fo0 (.dense pr.d) (.dense pr'.d) 0 2 (tr.d.allAttributes.filter fun a => a ≠ aC) ∧
    ((inferID3 env0 (.dense tr.d)).bind fun t => (treePredict pred0 t (.dense pr.d)).bind fun d =>
      mapRes (getClass fo0 (.dense d)) [0, 1]) = Res.ok ["a", "b"] ∧
    ((inferID3 env0 (.dense tr.d)).bind fun t => (treePredict pred1 t (.dense pr'.d)).bind fun d =>
      mapRes (getClass fo0 (.dense d)) [0, 1, 2]) = Res.ok ["b", "a", "a"] := by
  have e : ((run 4096 opsT).bind fun tr => (run 4096 opsW).bind fun pr => (run 4096 opsU).map fun pr' =>
      [treeCheck fo0 tr.d 4 ["a", "a", "b", "a"] aC, inputCheck fo0 pr.d 2 tr.d.allAttributes, inputCheck fo0 pr'.d 3 tr.d.allAttributes,
        decide (tr.d.allAttributes.filter (fun a => a ≠ aC) = [aX, aY]),
        decide (aX' ∈ pr.d.allAttributes), decide (aX' ∈ pr'.d.allAttributes), decide (aY' ∈ pr.d.allAttributes),
        decide (aY' ∈ pr'.d.allAttributes),
        decide ((Grid.dense pr.d).getAttribute aX = (Grid.dense pr.d).getAttribute aX'),
        decide ((Grid.dense pr'.d).getAttribute aX = (Grid.dense pr'.d).getAttribute aX'),
        decide ((Grid.dense pr.d).getAttribute aY = (Grid.dense pr.d).getAttribute aY'),
        decide ((Grid.dense pr'.d).getAttribute aY = (Grid.dense pr'.d).getAttribute aY'),
        decide ((Grid.dense pr'.d).cell aX' 2 = (Grid.dense pr.d).cell aX' 0),
        decide ((Grid.dense pr'.d).cell aY' 2 = (Grid.dense pr.d).cell aY' 0),
        decide (((inferID3 env0 (.dense tr.d)).bind fun t => (treePredict pred0 t (.dense pr.d)).bind fun d =>
          mapRes (getClass fo0 (.dense d)) [0, 1]) = Res.ok ["a", "b"]),
        decide (((inferID3 env0 (.dense tr.d)).bind fun t => (treePredict pred1 t (.dense pr'.d)).bind fun d =>
          mapRes (getClass fo0 (.dense d)) [0, 1, 2]) = Res.ok ["b", "a", "a"])]) =
      Res.ok (List.replicate 16 true) := by decide +kernel
  obtain ⟨tr, htr, e⟩ := Res.bind_eq_ok.1 e
  obtain ⟨pr, hpr, e⟩ := Res.bind_eq_ok.1 e
  obtain ⟨pr', hpr', e⟩ := Res.map_eq_ok.1 e
  simp only [List.replicate, List.cons.injEq, decide_eq_true_eq, and_true] at e
  obtain ⟨c1, c2, c3, c4, x1, x2, y1, y2, gx, gx', gy, gy', vx, vy, p1, p2⟩ := e
  have Dt := denseOK_run (pg := 4096) (ops := opsT) (by decide) htr (by decide)
  have Dp : DenseOK 2 pr.d := denseOK_run (pg := 4096) (ops := opsW) (by decide) hpr (by decide)
  have Dq : DenseOK 3 pr'.d := denseOK_run (pg := 4096) (ops := opsU) (by decide) hpr' (by decide)
  refine ⟨tr, pr, pr', htr, hpr, hpr', env0_ok, pred0_ok, pred1_ok, treeData_dense Dt c1, floatsIn_true (treeData_dense Dt c1).typed,
    treeInput_dense Dp c2, treeInput_dense Dq c3, rfl, ?_, p1, p2⟩
  rw [c4]
  intro a ha
  simp only [List.mem_cons, List.not_mem_nil, or_false] at ha
  rcases ha with rfl | rfl
  · refine ⟨aX', x1, aX', x2, gx, gx', rfl, ?_⟩
    rw [if_pos (by rfl)]
    exact vx
  · refine ⟨aY', y1, aY', y2, gy, gy', rfl, ?_⟩
    rw [if_neg (by decide), vy]

open C166 C169 in
/-- The same for a regression 2 + 3 x: the rows with x = 5 get 17. -/
theorem C169_regression_witness : ∃ pr pr', run 4096 reg = Res.ok pr ∧ run 4096 reg' = Res.ok pr' ∧
    (Grid.dense pr.d).Presents 2 ∧ (Grid.dense pr.d).typed 2 ∧ (Grid.dense pr'.d).Presents 3 ∧ (Grid.dense pr'.d).typed 3 ∧
    pr.d.allClassAttributes = [y] ∧ pr'.d.allClassAttributes = [y] ∧ y.equals lr.cls = true ∧
    (Grid.dense pr.d).Finds lr.attrs ∧ (Grid.dense pr'.d).Finds lr.attrs ∧
    (∀ a ∈ lr.attrs, (Grid.dense pr'.d).number val a 2 = (Grid.dense pr.d).number val a 0) ∧
    ((linRegPredict val (fun q => BitVec.ofNat 64 q.num.toNat) id 4096 [0, 1] lr (.dense pr.d)).map fun d =>
      (List.range 2).map fun r => (Grid.dense d).number val y r) = Res.ok [17, 5] ∧
    ((linRegPredict val (fun q => BitVec.ofNat 64 q.num.toNat) id 4096 [0, 1, 2] lr (.dense pr'.d)).map fun d =>
      (List.range 3).map fun r => (Grid.dense d).number val y r) = Res.ok [14, 2, 17] := by
  have h : ((run 4096 reg).bind fun pr => (run 4096 reg').map fun pr' =>
      [decide (pr.d.allClassAttributes = [y]), decide (pr'.d.allClassAttributes = [y]),
       decide (∀ a ∈ lr.attrs, a ∈ Grid.allAttributes (.dense pr.d)), decide (∀ a ∈ lr.attrs, a ∈ Grid.allAttributes (.dense pr'.d)),
       decide (∀ a ∈ lr.attrs, (Grid.dense pr'.d).number val a 2 = (Grid.dense pr.d).number val a 0),
       decide (((linRegPredict val (fun q => BitVec.ofNat 64 q.num.toNat) id 4096 [0, 1] lr (.dense pr.d)).map fun d =>
         (List.range 2).map fun r => (Grid.dense d).number val y r) = Res.ok [17, 5]),
       decide (((linRegPredict val (fun q => BitVec.ofNat 64 q.num.toNat) id 4096 [0, 1, 2] lr (.dense pr'.d)).map fun d =>
         (List.range 3).map fun r => (Grid.dense d).number val y r) = Res.ok [14, 2, 17])]) = Res.ok (List.replicate 7 true) := by
    decide +kernel
  obtain ⟨pr, r1, h⟩ := Res.bind_eq_ok.1 h
  obtain ⟨pr', r2, h⟩ := Res.map_eq_ok.1 h
  simp only [List.replicate, List.cons.injEq, decide_eq_true_eq] at h
  obtain ⟨h1, h2, h3, h4, h5, h6, h7, _⟩ := h
  have D : DenseOK 2 pr.d := denseOK_run (by decide) r1 (by decide)
  have D' : DenseOK 3 pr'.d := denseOK_run (by decide) r2 (by decide)
  exact ⟨pr, pr', r1, r2, D.presents, D.typed, D'.presents, D'.typed, h1, h2, by decide, finds_self h3, finds_self h4, h5, h6, h7⟩

end Golearn
