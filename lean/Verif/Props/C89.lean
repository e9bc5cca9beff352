import Verif.Props.C17
import Verif.Props.C19
import Verif.Model.Bagging

/-! # C89: each model of an ensemble is trained on a random sample of the rows -/

namespace Golearn

/-- `v` shows, for the attributes `sel`, the rows `rows 0, ..., rows (n-1)` of `g`, both when its cells are read and when
its rows are iterated over. -/
def ShowsSample (g v : Grid) (n : Nat) (sel : List Attr) (rows : Nat → Nat) : Prop :=
  v.size.2 = n ∧ v.allAttributes.Perm sel ∧ (∀ a ∈ sel, ∀ r, r < n → v.cell a r = g.cell a (rows r)) ∧
    IteratesWhatItShows v

/-- The full property: the training data of each model is a sample of as many rows as the data has. -/
def TrainsOnSamples : Prop :=
  ∀ (g : Grid) (n : Nat), g.Presents n → g.distinct → 0 < n → ∀ srt : List Spec → List Spec, (∀ l, (srt l).Perm l) →
    ∀ rows : Nat → Nat, (∀ i, rows i < n) → ∀ sel : List Attr, (∀ a ∈ sel, a ∈ g.allAttributes) →
    ∃ v, trainingInstances srt rows g sel = Res.ok v ∧ ShowsSample g v n sel rows

theorem trainingInstances_eq {g : Grid} {n : Nat} (P : g.Presents n) (hn : 0 < n) {srt : List Spec → List Spec}
    {rows : Nat → Nat} {sel : List Attr} {sp : List Spec} (hsp : g.resolveUnsorted sel = Res.ok sp) :
    trainingInstances srt rows g sel = Res.ok (Grid.viewFromAttrs (Grid.viewFromRows g
      ((List.range n).foldl (fun m i => GoMap.set m i (rows i)) ([] : GoMap Nat Nat))) (srt sp)) := by
  have h : ∀ m, (Grid.viewFromRows g m).resolveUnsorted sel = Res.ok sp := by
    intro m
    rw [← hsp]
    simp only [Grid.resolveUnsorted, Grid.viewFromRows, Grid.getAttribute]
  simp only [trainingInstances, sampleWithReplacement, P.rows]
  rw [if_neg (by omega)]
  simp only [Res.bind_ok, Grid.resolve, h, Res.map_ok]

/-- What holds, for all data and all draws: reading the cells of the training data gives the rows that were drawn.
Missing: iterating over its rows, which is how most models read their training data and which gives the rows of the
original data instead. -/
theorem C89_cells_partial (g : Grid) (n : Nat) (P : g.Presents n) (hd : g.distinct) (hn : 0 < n)
    (srt : List Spec → List Spec) (hsrt : ∀ l, (srt l).Perm l) (rows : Nat → Nat) (hrows : ∀ i, rows i < n)
    (sel : List Attr) (hsel : ∀ a ∈ sel, a ∈ g.allAttributes) :
    ∃ v, trainingInstances srt rows g sel = Res.ok v ∧ v.size.2 = n ∧ v.allAttributes.Perm sel ∧
      ∀ a ∈ sel, ∀ r, r < n → v.cell a r = g.cell a (rows r) := by
  obtain ⟨sp, hsp⟩ := P.resolve_total hsel
  obtain ⟨r1, r2⟩ := P.resolves hsel ⟨sp, hsp, hsrt sp⟩
  obtain ⟨v0, e0, _, _, h3⟩ := C17_sample_partial g n P hn rows hrows n
  have e0' : v0 = Grid.viewFromRows g ((List.range n).foldl (fun m i => GoMap.set m i (rows i)) ([] : GoMap Nat Nat)) := by
    simp only [sampleWithReplacement, P.rows] at e0
    rw [if_neg (by omega), Res.ok.injEq] at e0
    exact e0.symm
  refine ⟨_, trainingInstances_eq P hn hsp, ?_, ?_, ?_⟩
  · have := (sampleRows_len rows n).1
    simp only [Grid.viewFromAttrs, Grid.viewFromRows, Grid.size, P.rows, this, Bool.false_eq_true, if_false]
    split <;> omega
  · simpa [Grid.viewFromAttrs, Grid.allAttributes] using r1
  · intro a ha r hr
    obtain ⟨s, _, f1, f2, f3⟩ := findSpec_spec hd r2 (r1.symm.subset ha)
    obtain ⟨⟨s', g1, g2, g3⟩, _⟩ := h3 a (hsel a ha) r hr
    rw [e0'] at g1 g3
    have : s' = s := by
      simp only [Grid.viewFromRows, Grid.getAttribute] at g1
      rw [f3, Res.ok.injEq] at g1
      exact g1.symm
    subst this
    have hg : (Grid.viewFromAttrs (Grid.viewFromRows g ((List.range n).foldl (fun m i => GoMap.set m i (rows i))
        ([] : GoMap Nat Nat))) (srt sp)).getAttribute a = Res.ok s' := by
      simp only [Grid.viewFromAttrs, Grid.getAttribute, f1]
    have hget : ∀ v : Grid, ∀ sps, (Grid.viewFromAttrs v sps).get s' r = v.get s' r := by
      intro v sps; simp only [Grid.viewFromAttrs, Grid.get]
    simp only [Grid.cell, hg, hget, g3]

/-- Iterating over the training data gives the rows of the original data, whatever rows have been drawn. -/
theorem C89_iteration (g : Grid) (n : Nat) (P : g.Presents n) (hd : g.distinct) (hn : 0 < n)
    (srt : List Spec → List Spec) (hsrt : ∀ l, (srt l).Perm l) (rows : Nat → Nat)
    (sel : List Attr) (hsel : ∀ a ∈ sel, a ∈ g.allAttributes) {σ : Type} (cb : σ → List Bytes → Nat → Res (σ × Ctl))
    (specs : List Spec) (order : List Nat) (s : σ) :
    ∃ v, trainingInstances srt rows g sel = Res.ok v ∧ v.mapOverRows specs order cb s = g.mapOverRows specs order cb s := by
  obtain ⟨sp, hsp⟩ := P.resolve_total hsel
  refine ⟨_, trainingInstances_eq P hn hsp, ?_⟩
  have hv : ∀ r, (Grid.viewFromAttrs (Grid.viewFromRows g ((List.range n).foldl (fun m i => GoMap.set m i (rows i))
        ([] : GoMap Nat Nat))) (srt sp)).rowVals specs r = g.rowVals specs r := by
    intro r
    simp only [Grid.viewFromAttrs, Grid.viewFromRows, Grid.rowVals, Bool.false_eq_true, if_false]
  unfold Grid.mapOverRows
  have hp : (Grid.viewFromAttrs (Grid.viewFromRows g ((List.range n).foldl (fun m i => GoMap.set m i (rows i))
        ([] : GoMap Nat Nat))) (srt sp)).mapPrep specs = g.mapPrep specs := by
    simp only [Grid.viewFromAttrs, Grid.viewFromRows, Grid.mapPrep, Bool.false_eq_true, if_false]
  rw [hp, funext hv]

section Witness
private def fa : Attr := ⟨0, .float "a" 2⟩
private def ops1 : List Op := [.add fa, .extend 2, .set 0 1 (packU64 5)]

private theorem wit : ∃ st s, run 4096 ops1 = Res.ok st ∧ (∀ op ∈ ops1, basicOp op = true) ∧
    (addedAttrs ops1).Pairwise (fun a b => a.equals b = false) ∧ totalRows ops1 = 2 ∧
    st.d.maxRow = 2 ∧ st.d.allAttributes = [fa] ∧ st.d.getAttribute fa = Res.ok s ∧ s.attr = fa ∧
    (Grid.dense st.d).mapOverRows [s] [0, 1] (recorder fun _ => Ctl.cont) [] =
      Res.ok ([([packU64 0], 0), ([packU64 5], 1)], false) ∧ (Grid.dense st.d).cell fa 1 = packU64 5 ∧
      (Grid.dense st.d).resolveUnsorted [fa] = Res.ok [s] := by
  refine ⟨_, _, rfl, ?_, ?_, ?_, ?_, ?_, rfl, ?_, ?_, ?_, ?_⟩ <;> decide +kernel

/-- It is false of the code: a sample that draws row 1 twice is iterated over as rows 0 and 1. -/
theorem C89_refuted : ¬ TrainsOnSamples := by
  intro H
  obtain ⟨st, s, hrun, hb, hd, h2, hm, hat, hs, hsa, hmap, hcell, hru⟩ := wit
  have D := denseOK_run hb hrun hd
  rw [h2] at D
  have hin : ∀ a ∈ [fa], a ∈ (Grid.dense st.d).allAttributes := by
    intro a ha; show a ∈ st.d.allAttributes; rw [hat]; exact ha
  obtain ⟨v, hv, _, hva, hcl, hit⟩ := H (.dense st.d) 2 D.presents D.1 (by omega) id (fun l => List.Perm.refl _) (fun _ => 1)
    (by omega) [fa] hin
  rw [trainingInstances_eq D.presents (by omega) hru, Res.ok.injEq] at hv
  obtain ⟨v', hv', hmap'⟩ := C89_iteration (.dense st.d) 2 D.presents D.1 (by omega) id (fun l => List.Perm.refl _) (fun _ => 1)
    [fa] hin (recorder fun _ => Ctl.cont) [s] [0, 1] []
  rw [trainingInstances_eq D.presents (by omega) hru, Res.ok.injEq] at hv'
  rw [hv] at hv'
  subst hv'
  have hga : v.getAttribute fa = Res.ok s := by
    rw [← hv]
    simp [Grid.viewFromAttrs, Grid.getAttribute, Grid.findSpec, hsa, C28_equals_refl]
  obtain ⟨calls, c1, _, c3⟩ := hit [s] [0, 1]
    (by
      rw [← hv]
      simp [Grid.viewFromAttrs, Grid.viewFromRows, Grid.RowOrder, hm]; rfl)
    (by
      intro t ht
      rw [List.mem_singleton.1 ht]
      exact ⟨fa, hva.symm.subset (by simp), hga⟩)
  rw [hmap', hmap, Res.ok.injEq, Prod.mk.injEq] at c1
  have h0 := c3 ([packU64 0], 0) (by rw [← c1.1]; simp)
  have hc0 := hcl fa (by simp) 0 (by omega)
  simp only at hc0
  rw [hcell] at hc0
  simp only [Grid.cell, hga] at hc0
  cases hg : v.get s 0 with
  | ok b =>
    rw [hg] at hc0
    simp only at hc0
    simp only [mapRes, hg, Res.bind_ok, Res.ok.injEq, List.cons.injEq, and_true] at h0
    rw [h0] at hc0
    revert hc0
    decide +kernel
  | err => simp only [mapRes, hg, Res.bind_err] at h0; cases h0
  | panic => simp only [mapRes, hg, Res.bind_panic] at h0; cases h0

/-- Data meeting the hypotheses. -/
example : ∃ st, run 4096 ops1 = Res.ok st ∧ (Grid.dense st.d).Presents 2 ∧ (Grid.dense st.d).distinct := by
  obtain ⟨st, s, hrun, hb, hd, h2, _⟩ := wit
  have D := denseOK_run hb hrun hd
  rw [h2] at D
  exact ⟨st, hrun, D.presents, D.1⟩
end Witness

end Golearn
