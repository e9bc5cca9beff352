import Verif.Props.C18
import Verif.Props.C10

/-! # C19: views iterate the rows they present -/

namespace Golearn

/-- The full property for a grid: `MapOverRows` calls the callback once for each row `i` the grid
presents, with exactly the values `Get` returns for row `i`. -/
def IteratesWhatItShows (g : Grid) : Prop :=
  ∀ (specs : List Spec) (order : List Nat), g.RowOrder order →
    (∀ s ∈ specs, ∃ a ∈ g.allAttributes, g.getAttribute a = Res.ok s) →
    ∃ calls, g.mapOverRows specs order (recorder fun _ => Ctl.cont) [] = Res.ok (calls, false) ∧
      (calls.map Prod.snd).Perm (List.range g.size.2) ∧
      ∀ c ∈ calls, mapRes (fun s => g.get s c.2) specs = Res.ok c.1

theorem presents_iterates {g : Grid} {n : Nat} (P : g.Presents n) : IteratesWhatItShows g := by
  intro specs order horder hs
  obtain ⟨h1, h2⟩ := P.iter specs hs
  have hp := P.order order horder
  have hlt : ∀ r ∈ order, r < n := fun r hr => List.mem_range.1 (hp.subset hr)
  refine ⟨order.map fun r => (specs.map fun s => g.cell s.attr r, r), ?_, ?_, ?_⟩
  · simp only [Grid.mapOverRows, h1, Res.bind_ok]
    have := mapOver_all (g.rowVals specs) (fun r => specs.map fun s => g.cell s.attr r)
      (recorder fun _ => Ctl.cont) (fun calls v r => calls ++ [(v, r)]) order
      (fun r hr => h2 r (hlt r hr)) (fun s r _ => rfl) []
    rw [this]
    have : ∀ (o : List Nat) (acc : List (List Bytes × Nat)),
        o.foldl (fun calls r => calls ++ [(specs.map fun s => g.cell s.attr r, r)]) acc =
        acc ++ o.map fun r => (specs.map fun s => g.cell s.attr r, r) := by
      intro o
      induction o with
      | nil => simp
      | cons x xs ih => intro acc; simp [ih]
    rw [this]; simp
  · rw [List.map_map, P.rows]
    have : (Prod.snd ∘ fun r => (specs.map fun s => g.cell s.attr r, r)) = id := rfl
    rw [this, List.map_id]
    exact hp
  · intro c hc
    obtain ⟨r, hr, rfl⟩ := List.mem_map.1 hc
    apply mapRes_of_ok
    intro s hsm
    obtain ⟨a, ha, hg⟩ := hs s hsm
    obtain ⟨e1, e2⟩ := P.get_spec ha hg
    rw [e2 r (hlt r hr), e1]

/-- Views of visible rows and views of attributes, over any grid that behaves as a table, iterate
exactly what they show, in whatever order Go visits the row map. Missing from the full property:
views built from a row mapping (`NewInstancesViewFromRows`), for which it is false. -/
theorem C19_view_iteration_partial (src : Grid) (n : Nat) (P : src.Presents n) (hd : src.distinct)
    (attrs : List Attr) (hattrs : ∀ a ∈ attrs, a ∈ src.allAttributes)
    (specs : List Spec) (hspecs : src.Resolves attrs specs)
    (rows : List Nat) (hrows : ∀ r ∈ rows, r < n) :
    IteratesWhatItShows (Grid.viewFromVisible src rows specs) ∧
    IteratesWhatItShows (Grid.viewFromAttrs src specs) := by
  obtain ⟨_, r2⟩ := P.resolves hattrs hspecs
  exact ⟨presents_iterates (visible_presents P hd r2 hrows).1,
    presents_iterates (attrs_presents P hd r2).1⟩

section Witness
private def fa : Attr := ⟨0, .float "a" 2⟩
private def ops1 : List Op := [.add fa, .extend 2, .set 0 1 (packU64 5)]

private theorem wit : ∃ st s, run 4096 ops1 = Res.ok st ∧ (∀ op ∈ ops1, basicOp op = true) ∧
    (addedAttrs ops1).Pairwise (fun a b => a.equals b = false) ∧ totalRows ops1 = 2 ∧
    st.d.maxRow = 2 ∧ st.d.allAttributes = [fa] ∧ st.d.getAttribute fa = Res.ok s ∧
    (Grid.viewFromRows (.dense st.d) [(0, 1), (1, 0)]).mapOverRows [s] [0, 1]
      (recorder fun _ => Ctl.cont) [] = Res.ok ([([packU64 0], 0), ([packU64 5], 1)], false) ∧
    (Grid.viewFromRows (.dense st.d) [(0, 1), (1, 0)]).get s 0 = Res.ok (packU64 5) := by
  refine ⟨_, _, rfl, ?_, ?_, ?_, ?_, ?_, rfl, ?_, ?_⟩ <;> decide +kernel

/-- For a view built from a row mapping (as `LazyShuffle`, `LazySort` and `SampleWithReplacement`
return) iteration ignores the mapping: rows 0 and 1 exchanged by the view come out unexchanged. -/
theorem C19_rows_view_iteration_fails :
    ∃ (src : Grid) (m : GoMap Nat Nat), src.Presents 2 ∧ src.distinct ∧
      ¬ IteratesWhatItShows (Grid.viewFromRows src m) := by
  obtain ⟨st, s, hrun, hb, hd, h2, hm, hat, hs, hmap, hget⟩ := wit
  have D := denseOK_run hb hrun hd
  rw [h2] at D
  refine ⟨.dense st.d, [(0, 1), (1, 0)], D.presents, D.1, ?_⟩
  intro H
  obtain ⟨calls, c1, _, c3⟩ := H [s] [0, 1]
    (by simp [Grid.viewFromRows, Grid.RowOrder, hm]; rfl)
    (by
      intro t ht
      simp only [List.mem_singleton] at ht
      subst ht
      exact ⟨fa, by simp [Grid.viewFromRows, Grid.allAttributes, hat],
        by simpa [Grid.viewFromRows, Grid.getAttribute] using hs⟩)
  rw [hmap, Res.ok.injEq, Prod.mk.injEq] at c1
  have := c3 ([packU64 0], 0) (by rw [← c1.1]; simp)
  simp only [mapRes, hget, Res.bind_ok, Res.ok.injEq, List.cons.injEq, and_true] at this
  revert this
  decide +kernel

/-- A grid meeting the hypotheses of the partial theorem. -/
example : ∃ st sp, run 4096 ops1 = Res.ok st ∧ (Grid.dense st.d).Presents 2 ∧
    (Grid.dense st.d).distinct ∧ (Grid.dense st.d).Resolves [fa] sp := by
  obtain ⟨st, s, hrun, hb, hd, h2, _, hat, hs, _⟩ := wit
  have D := denseOK_run hb hrun hd
  rw [h2] at D
  refine ⟨st, [s], hrun, D.presents, D.1, [s], ?_, List.Perm.refl _⟩
  simp [Grid.resolveUnsorted, mapRes, Grid.getAttribute, hs]
end Witness

end Golearn
