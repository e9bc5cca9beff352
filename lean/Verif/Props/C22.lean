import Verif.Proofs.Instances

/-! # C22: the train/test split partitions the data -/

namespace Golearn

/-- Two grids split the rows of `g`: there are lists of source rows which together are all rows of
`g`, each once, and the two grids are tables of those rows with `g`'s values. -/
def SplitsRows (g : Grid) (n : Nat) (train test : Grid) : Prop :=
  ∃ trainRows testRows : List Nat,
    (trainRows ++ testRows).Perm (List.range n) ∧
    train.Presents trainRows.length ∧ test.Presents testRows.length ∧
    train.allAttributes.Perm g.allAttributes ∧ test.allAttributes.Perm g.allAttributes ∧
    (∀ a ∈ g.allAttributes, ∀ i (h : i < trainRows.length), train.cell a i = g.cell a trainRows[i]) ∧
    (∀ a ∈ g.allAttributes, ∀ i (h : i < testRows.length), test.cell a i = g.cell a testRows[i])

/-- The full property: on every table, for all draws. -/
def SplitPartitions : Prop :=
  ∀ (g : Grid) (n : Nat) (_ : g.Presents n) (_ : g.distinct) (srt : List Spec → List Spec)
    (_ : ∀ l, (srt l).Perm l) (draw coin : Nat → Nat) (_ : ∀ i, draw i ≤ i) (pct : Int),
    ∃ train test src, trainTestSplit srt draw coin pct g = Res.ok (train, test, src) ∧
      SplitsRows g n train test

/-- It holds on `DenseInstances` reached by any history of client calls, for every sequence of draws
and every proportion: each row of the grid, as it was before the call, is in exactly one of the two
results. -/
theorem C22_split_dense_partial (pg : Nat) (ops : List Op) (st : St)
    (hb : ∀ op ∈ ops, basicOp op = true) (hrun : run pg ops = Res.ok st)
    (hd : (addedAttrs ops).Pairwise (fun a b => a.equals b = false))
    (srt : List Spec → List Spec) (hsrt : ∀ l, (srt l).Perm l)
    (draw coin : Nat → Nat) (hdraw : ∀ i, draw i ≤ i) (pct : Int) :
    ∃ train test src, trainTestSplit srt draw coin pct (.dense st.d) = Res.ok (train, test, src) ∧
      SplitsRows (.dense st.d) (totalRows ops) train test := by
  have D := denseOK_run hb hrun hd
  have hsz : st.d.size.2 = totalRows ops := D.presents.rows
  have hsw : ∀ p ∈ (List.range st.d.size.2).map (fun i => (i, draw i)),
      p.1 < totalRows ops ∧ p.2 < totalRows ops := by
    intro p hp
    obtain ⟨i, hi, rfl⟩ := List.mem_map.1 hp
    have := List.mem_range.1 hi
    have := hdraw i
    simp only
    omega
  obtain ⟨d', e, D', A, C, _, _, V⟩ := swapAll_spec hsrt _ D hsw
  have hA : ∀ a ∈ d'.allAttributes, a ∈ (Grid.dense d').allAttributes := fun a h => h
  obtain ⟨l, hl⟩ := D'.presents.resolve_total hA
  obtain ⟨r1, r2⟩ := D'.presents.resolves hA (specs := srt l) ⟨l, hl, hsrt l⟩
  have hrows : d'.size.2 = totalRows ops := D'.presents.rows
  have hbnd : ∀ p : Nat → Bool, ∀ r ∈ (List.range (totalRows ops)).filter p, r < totalRows ops :=
    fun p r hr => List.mem_range.1 (List.mem_filter.1 hr).1
  refine ⟨Grid.viewFromVisible (.dense d')
      ((List.range (Grid.dense d').size.2).filter fun i => decide ((coin i : Int) > pct)) (srt l),
    Grid.viewFromVisible (.dense d')
      ((List.range (Grid.dense d').size.2).filter fun i => !decide ((coin i : Int) > pct)) (srt l),
    .dense d', ?_, ((List.range (totalRows ops)).filter fun i => decide ((coin i : Int) > pct)).map
      (srcRow ((List.range st.d.size.2).map fun i => (i, draw i))),
    ((List.range (totalRows ops)).filter fun i => !decide ((coin i : Int) > pct)).map
      (srcRow ((List.range st.d.size.2).map fun i => (i, draw i))), ?_, ?_⟩
  · simp only [trainTestSplit, shuffle, shuffleDense, e, Res.map_ok, Res.bind_ok, Grid.resolve]
    have : (Grid.dense d').resolveUnsorted (Grid.dense d').allAttributes = Res.ok l := hl
    rw [this]
    rfl
  · rw [← List.map_append]
    refine ((List.filter_append_perm _ _).map _).trans ?_
    exact map_perm_range _ (Equiv.injective _) (fun r hr => srcRow_lt hsw hr)
  · have hsize : (Grid.dense d').size.2 = totalRows ops := hrows
    rw [hsize]
    have hA' : ((srt l).map Spec.attr).Perm st.d.allAttributes := by rw [← A]; exact r1
    obtain ⟨P1, V1⟩ := visible_presents D'.presents D'.1 r2
      (hbnd fun i => decide ((coin i : Int) > pct))
    obtain ⟨P2, V2⟩ := visible_presents D'.presents D'.1 r2
      (hbnd fun i => !decide ((coin i : Int) > pct))
    refine ⟨by simpa using P1, by simpa using P2, hA', hA', ?_, ?_⟩
    · intro a ha i h
      have h' : i < ((List.range (totalRows ops)).filter fun i => decide ((coin i : Int) > pct)).length := by
        simpa using h
      rw [V1 a (hA'.symm.subset ha) i h', V a ha _ (hbnd _ _ (List.getElem_mem h')),
        List.getElem_map]
    · intro a ha i h
      have h' : i < ((List.range (totalRows ops)).filter fun i => !decide ((coin i : Int) > pct)).length := by
        simpa using h
      rw [V2 a (hA'.symm.subset ha) i h', V a ha _ (hbnd _ _ (List.getElem_mem h')),
        List.getElem_map]

section Witness
private def aF : Attr := ⟨0, .float "a" 2⟩
private def ops1 : List Op :=
  [.add aF, .extend 3, .set 0 1 (packU64 1), .set 0 2 (packU64 2)]
/-- The view of all rows and attributes of the witness grid. -/
private def srcView (d : Dense) : Grid := Grid.viewFromAttrs (.dense d) [⟨some 0, 0, aF⟩]

private theorem witness : ∃ st, run 4096 ops1 = Res.ok st ∧
    st.d.allAttributes = [aF] ∧ st.d.getAttribute aF = Res.ok ⟨some 0, 0, aF⟩ ∧
    (List.range 3).map ((srcView st.d).cell aF) = [packU64 0, packU64 1, packU64 2] ∧
    ∃ q, trainTestSplit id (fun _ => 0) (fun i => i) 0 (srcView st.d) = Res.ok q ∧
      q.1.size.2 = 2 ∧ q.2.1.size.2 = 1 ∧ (List.range 2).map (q.1.cell aF) = [packU64 0, packU64 0] ∧
      (List.range 1).map (q.2.1.cell aF) = [packU64 2] := by
  refine ⟨_, rfl, ?_, ?_, ?_, _, rfl, ?_⟩
  all_goals decide +kernel

/-- The full property is false: splitting a view (here, of all attributes of a three-row grid) goes
through `LazyShuffle`, and with draws 0, 0, 0 row 0 is put in the training set twice while row 1 is in
neither set. -/
theorem C22_split_view_fails : ¬ SplitPartitions := by
  intro H
  obtain ⟨st, hrun, hat, hget, hsrc, q, hq, hs1, hs2, hv1, hv2⟩ := witness
  have D := denseOK_run (pg := 4096) (ops := ops1) (by decide) hrun (by decide)
  have h3 : totalRows ops1 = 3 := by decide
  rw [h3] at D
  obtain ⟨P, _⟩ := attrs_presents D.presents D.1 (specs := [⟨some 0, 0, aF⟩]) (by
    intro s hs
    simp only [List.mem_singleton] at hs
    subst hs
    exact ⟨by simp [Grid.allAttributes, hat], hget⟩)
  obtain ⟨train, test, src, e, tr, te, hp, P1, P2, _, _, c1, c2⟩ := H (srcView st.d) 3 P
    (by simp [Grid.distinct, srcView, Grid.viewFromAttrs, Grid.allAttributes]) id (fun l => List.Perm.refl _)
    (fun _ => 0) (fun i => i) (fun i => Nat.zero_le i) 0
  rw [hq, Res.ok.injEq] at e
  subst e
  have l1 : tr.length = 2 := by rw [← hs1]; exact P1.rows.symm
  have l2 : te.length = 1 := by rw [← hs2]; exact P2.rows.symm
  have ha : aF ∈ (srcView st.d).allAttributes := by
    simp [srcView, Grid.viewFromAttrs, Grid.allAttributes]
  obtain ⟨x, y, rfl⟩ := List.length_eq_two.1 l1
  obtain ⟨z, rfl⟩ := List.length_eq_one_iff.1 l2
  have k1 := c1 aF ha 0 (by simp)
  have k2 := c1 aF ha 1 (by simp)
  simp only [List.range, List.range.loop, List.map_cons, List.map_nil, List.cons.injEq, and_true]
    at hsrc hv1 hp
  simp only [List.getElem_cons_zero, List.getElem_cons_succ] at k1 k2
  rw [hv1.1] at k1
  rw [hv1.2] at k2
  have hlt : ∀ r ∈ [x, y] ++ [z], r = 0 ∨ r = 1 ∨ r = 2 := by
    intro r hr
    have := hp.subset hr
    simpa using this
  have hz : ∀ r, r = 0 ∨ r = 1 ∨ r = 2 → packU64 0 = (srcView st.d).cell aF r → r = 0 := by
    rintro r (rfl | rfl | rfl) h
    · rfl
    · rw [hsrc.2.1] at h; revert h; decide +kernel
    · rw [hsrc.2.2] at h; revert h; decide +kernel
  have e1 := hz x (hlt x (by simp)) k1
  have e2 := hz y (hlt y (by simp)) k2
  have hn : ([x, y] ++ [z]).Nodup := hp.nodup_iff.2 (by decide)
  rw [e1, e2] at hn
  simp at hn

/-- The dense grid itself meets the hypotheses of `C22_split_dense_partial`: coins 0, 1, 2 against
threshold 1 put one row in the training set and two in the other. -/
example : ((run 4096 ops1).bind fun st =>
      (trainTestSplit id (fun _ => 0) (fun i => i) 1 (.dense st.d)).map fun q =>
        ((List.range 1).map (q.1.cell aF), (List.range 2).map (q.2.1.cell aF))) =
    Res.ok ([packU64 1], [packU64 2, packU64 0]) := by decide +kernel
end Witness

end Golearn
