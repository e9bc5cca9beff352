import Verif.Proofs.NBColumns

/-! # C161: naive Bayes with columns in another order -/

namespace Golearn

section
variable {K : Type} [Field K] [LinearOrder K] [IsStrictOrderedRing K]

/-- Two tables to train on have the same binary columns, in any order, with the same features in every row, and the same labels. Either
training panics on both, or it succeeds on both, and then both models predict the same for all tables with the same features, whatever
the orders of their columns: the results of `Predict` are equal for all orders of maps, with ties or without, and for every function as
the logarithm. What earlier calls have left in the models makes no difference. -/
theorem C161_columns (fo : FloatOps) (g g' : Grid) (n : Nat) (k : Nat → String) (D : BinaryData fo g n k) (D' : BinaryData fo g' n k)
    (hcols : g'.nonClass.Perm g.nonClass) (hT : SameFeatures g g' n g.nonClass)
    (srt srt' : List Spec → List Spec) (hsrt : PositionSort srt) (hsrt' : PositionSort srt') (order : List Nat)
    (ho : g.RowOrder order) (ho' : g'.RowOrder order) (ordC ordC' : List String → List String) (hord : ∀ l, (ordC l).Perm l)
    (hord' : ∀ l, (ordC' l).Perm l) (old old' : GoMap String (List K)) :
    (nbFit fo srt order ordC old g = Res.panic ∧ nbFit fo srt' order ordC' old' g' = Res.panic) ∨
    ∃ nb nb', nbFit fo srt order ordC old g = Res.ok nb ∧ nbFit fo srt' order ordC' old' g' = Res.ok nb' ∧
      ∀ (log : K → K) (low : K) (what what' : Grid) (m : Nat) (orderW : List Nat) (ordP : Nat → List String → List String)
        (parse : String → Option U64) (pg : Nat), ToPredict what m g.nonClass → ToPredict what' m g.nonClass →
        SameFeatures what what' m g.nonClass → what'.allClassAttributes = what.allClassAttributes → what.RowOrder orderW →
        (∀ r l, (ordP r l).Perm l) →
        nbPredict log low fo parse pg srt' orderW ordP nb' what' = nbPredict log low fo parse pg srt orderW ordP nb what := by
  have hperm : ∀ {srt : List Spec → List Spec}, PositionSort srt → ∀ l, (srt l).Perm l := by
    intro srt hsrt l
    obtain ⟨τ, s1, s2⟩ := hsrt
    rw [s2]
    refine ((s1 l.length).filterMap _).trans ?_
    rw [filterMap_range_getElem?]
  obtain ⟨fs, fs1, fs2⟩ := positionSort_attrs hsrt g.nonClass
  obtain ⟨fs', fs1', fs2'⟩ := positionSort_attrs hsrt' g'.nonClass
  obtain ⟨y, no⟩ := nb_fit D (hperm hsrt) ho hord old
  obtain ⟨y', no'⟩ := nb_fit D' (hperm hsrt') ho' hord' old'
  have hsome : ∀ r, ClassHasFeature g' n k (k r) ↔ ClassHasFeature g n k (k r) := by
    intro r
    constructor
    · rintro ⟨s, hs, hc, a, ha, hf⟩
      have ha' := hcols.mem_iff.1 ha
      exact ⟨s, hs, hc, a, ha', by rw [← hT a ha' s hs]; exact hf⟩
    · rintro ⟨s, hs, hc, a, ha, hf⟩
      exact ⟨s, hs, hc, a, hcols.mem_iff.2 ha, by rw [hT a ha s hs]; exact hf⟩
  have hnil : g'.nonClass = [] ↔ g.nonClass = [] :=
    ⟨fun h => List.perm_nil.1 (h ▸ hcols.symm), fun h => List.perm_nil.1 (h ▸ hcols)⟩
  by_cases h : g.nonClass = [] ∨ ∀ r, r < n → ClassHasFeature g n k (k r)
  · right
    obtain ⟨nb, cols, e1, T, c1⟩ := y h
    obtain ⟨nb', cols', e1', T', c1'⟩ := y' (h.imp hnil.2 fun h r hr => (hsome r).2 (h r hr))
    obtain rfl : cols = fs := c1 fs fs2 fun a ha => fs1.mem_iff.1 ha
    obtain rfl : cols' = fs' := c1' fs' fs2' fun a ha => fs1'.mem_iff.1 ha
    refine ⟨nb, nb', e1, e1', ?_⟩
    intro log low what what' m orderW ordP parse pg W W' hW hcls hoW hordP
    have hinst : nb'.inst = nb.inst := by
      rw [nbFit_inst D (hperm hsrt) ho e1, nbFit_inst D' (hperm hsrt') ho' e1']
    obtain ⟨sp, p1, p2⟩ := finds_spec W.table W.finds
    obtain ⟨sp', p1', p2'⟩ := finds_spec W'.table (as := g'.nonClass) (W'.finds.subset fun a ha => hcols.mem_iff.1 ha)
    obtain ⟨i1, i2⟩ := W.table.iter (cols.map sp) (by
      intro s hs
      obtain ⟨a, ha, rfl⟩ := List.mem_map.1 hs
      exact (p2 a (fs1.mem_iff.1 ha)).2.1)
    obtain ⟨i1', i2'⟩ := W'.table.iter (cols'.map sp') (by
      intro s hs
      obtain ⟨a, ha, rfl⟩ := List.mem_map.1 hs
      exact (p2' a (fs1'.mem_iff.1 ha)).2.1)
    have hcells : ∀ r, (cols.map sp).map (fun s => what.cell s.attr r) = cols.map fun a => what.cell a r := by
      intro r
      rw [List.map_map]
      exact List.map_congr_left fun a ha => (p2 a (fs1.mem_iff.1 ha)).2.2.2 r
    have hcells' : ∀ r, (cols'.map sp').map (fun s => what'.cell s.attr r) = cols'.map fun a => what'.cell a r := by
      intro r
      rw [List.map_map]
      exact List.map_congr_left fun a ha => (p2' a (fs1'.mem_iff.1 ha)).2.2.2 r
    have hgen : generatePredictionVector pg what' = generatePredictionVector pg what := by
      unfold generatePredictionVector
      rw [hcls, W.table.rows, W'.table.rows]
    unfold nbPredict
    rw [hgen, T.attrs, T'.attrs]
    simp only [Grid.resolve, p1, p1', Res.map_ok, fs2, fs2', Res.bind_ok, Grid.mapOverRows, i1, i1']
    congr 1
    funext ret
    congr 1
    refine mapOver_same (fun _ => True) _ ?_ _ trivial
    intro r hr
    have hr' : r < m := List.mem_range.1 ((W.table.order _ hoW).mem_iff.1 hr)
    refine ⟨_, _, i2' r hr', i2 r hr', fun s _ => ⟨?_, fun _ _ => trivial⟩⟩
    have hb : ∀ a ∈ g'.nonClass, ∃ b, what'.cell a r = [b] := fun a ha => W'.bytes a (hcols.mem_iff.1 ha) r hr'
    rw [hcells, hcells', nbPredictOne_eq log low (hordP r) T fun a ha => W.bytes a ha r hr', nbPredictOne_eq log low (hordP r) T' hb, hinst]
    have hs : (fun c => logPosterior log g' n k what' r c) = fun c => logPosterior log g n k what r c :=
      funext fun c => logPosterior_same log hcols hT hW k hr' c
    rw [hs]
    simp only [hnil]
  · left
    push Not at h
    obtain ⟨hne, r, hr, hno⟩ := h
    exact ⟨no hne r hr hno, no' (fun e => hne (hnil.1 e)) r hr fun hh => hno ((hsome r).1 hh)⟩

end

namespace C161

def aP : Attr := ⟨0, .bin "p"⟩
def aQ : Attr := ⟨1, .bin "q"⟩
def aC : Attr := ⟨2, .cat "c" ["x", "y"]⟩
/-- Two rows labelled x with the feature p, and one labelled y with q. -/
def opsPQ : List Op :=
  [.add aP, .add aQ, .add aC, .extend 3, .set 0 0 [1#8], .set 0 1 [1#8], .set 1 2 [1#8], .set 2 2 (packU64 1), .addClass aC]
/-- The same with the columns in another order. -/
def opsQP : List Op :=
  [.add aQ, .add aP, .add aC, .extend 3, .set 1 0 [1#8], .set 1 1 [1#8], .set 0 2 [1#8], .set 2 2 (packU64 1), .addClass aC]

/-- A table of three rows meets the hypotheses. -/
theorem data {ops : List Op} {fs : List Attr} (hb : ∀ op ∈ ops, basicOp op = true)
    (hd : (addedAttrs ops).Pairwise fun a b => a.equals b = false) (h3 : totalRows ops = 3)
    (h : ((run 4096 ops).map fun st => [decide (st.d.allClassAttributes = [aC]), decide (aC ∈ st.d.allAttributes),
      decide ((Grid.dense st.d).nonClass = fs), fs.all Attr.isBin,
      fs.all fun a => (List.range 3).all fun r => decide ((Grid.dense st.d).cell a r = [((Grid.dense st.d).cell a r).headD 0#8]),
      (List.range 3).all fun r => decide (aC.getString nbFloats ((Grid.dense st.d).cell aC r) = Res.ok (nbLab r))]) =
      Res.ok [true, true, true, true, true, true]) :
    ∃ st, run 4096 ops = Res.ok st ∧ BinaryData nbFloats (.dense st.d) 3 nbLab ∧ (Grid.dense st.d).nonClass = fs ∧
      st.d.allClassAttributes = [aC] ∧ ToPredict (.dense st.d) 3 fs ∧ (Grid.dense st.d).RowOrder [0, 1, 2] := by
  obtain ⟨st, hrun, h⟩ := Res.map_eq_ok.1 h
  simp only [List.cons.injEq, decide_eq_true_eq, and_true] at h
  obtain ⟨h1, h2, h4, h5, h6, h7⟩ := h
  have D : DenseOK 3 st.d := h3 ▸ denseOK_run hb hrun hd
  have hbytes : ∀ a ∈ fs, ∀ r, r < 3 → ∃ b, (Grid.dense st.d).cell a r = [b] := fun a ha r hr =>
    ⟨_, of_decide_eq_true (List.all_eq_true.1 (List.all_eq_true.1 h6 a ha) r (List.mem_range.2 hr))⟩
  refine ⟨st, hrun, ⟨D.presents, ?_, ?_, aC, h1, h2, fun r hr => of_decide_eq_true (List.all_eq_true.1 h7 r (List.mem_range.2 hr))⟩, h4, h1,
    ⟨D.presents, ?_, hbytes⟩, ?_⟩
  · rw [h4]; exact fun a ha => List.all_eq_true.1 h5 a ha
  · rw [h4]; exact hbytes
  · rw [← h4]; exact finds_self (features_sub _)
  · show [0, 1, 2] = List.range st.d.maxRow
    rw [show st.d.maxRow = 3 from D.presents.rows]; rfl

/-- The classes predicted for the rows of the table itself; `x - 1` stands for the logarithm. -/
def classes (ops : List Op) : Res (List String) :=
  (run 4096 ops).bind fun st =>
    (nbFit (K := ℚ) nbFloats id [0, 1, 2] id [] (.dense st.d)).bind fun nb =>
      (nbPredict (fun x => x - 1) (-100) nbFloats (fun _ => none) 4096 id [0, 1, 2] (fun _ => id) nb (.dense st.d)).bind fun d =>
        mapRes (getClass nbFloats (.dense d)) [0, 1, 2]

end C161

open C161 in
/-- The hypotheses hold for a table with the columns p, q and one with q, p, and both models give all rows their own labels. -/
theorem C161_witness : ∃ st st', run 4096 opsPQ = Res.ok st ∧ run 4096 opsQP = Res.ok st' ∧
    BinaryData nbFloats (.dense st.d) 3 nbLab ∧ BinaryData nbFloats (.dense st'.d) 3 nbLab ∧
    (Grid.dense st.d).nonClass = [aP, aQ] ∧ (Grid.dense st'.d).nonClass = [aQ, aP] ∧
    SameFeatures (.dense st.d) (.dense st'.d) 3 [aP, aQ] ∧ ToPredict (.dense st.d) 3 [aP, aQ] ∧ ToPredict (.dense st'.d) 3 [aQ, aP] ∧
    st'.d.allClassAttributes = st.d.allClassAttributes ∧
    (Grid.dense st.d).RowOrder [0, 1, 2] ∧ (Grid.dense st'.d).RowOrder [0, 1, 2] ∧
    classes opsPQ = Res.ok ["x", "x", "y"] ∧ classes opsQP = Res.ok ["x", "x", "y"] := by
  obtain ⟨st, hrun, D, f, c, W, o⟩ := data (ops := opsPQ) (fs := [aP, aQ]) (by decide) (by decide) (by decide) (by decide +kernel)
  obtain ⟨st', hrun', D', f', c', W', o'⟩ := data (ops := opsQP) (fs := [aQ, aP]) (by decide) (by decide) (by decide) (by decide +kernel)
  have h : ((run 4096 opsPQ).bind fun st => (run 4096 opsQP).map fun st' => [aP, aQ].all fun a => (List.range 3).all fun r =>
      decide ((Grid.dense st'.d).hasFeature a r = (Grid.dense st.d).hasFeature a r)) = Res.ok true := by decide +kernel
  rw [hrun, Res.bind_ok, hrun', Res.map_ok, Res.ok.injEq] at h
  exact ⟨st, st', hrun, hrun', D, D', f, f', fun a ha r hr =>
    of_decide_eq_true (List.all_eq_true.1 (List.all_eq_true.1 h a ha) r (List.mem_range.2 hr)), W, W', c'.trans c.symm, o, o',
    by decide +kernel, by decide +kernel⟩

end Golearn
