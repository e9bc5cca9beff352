import Verif.Proofs.View
import Verif.Proofs.DenseTable

/-! # C18: views read through to the source -/

namespace Golearn

/-- A view of visible rows (`NewInstancesViewFromVisible(src, rows, attrs)`) over any grid that
behaves as a table of `n` rows: it reports `len(rows)` rows; each of its attributes resolves and
reading it at row `i` returns the source's value at `rows[i]`; reading any other row panics. -/
theorem C18_view_reads_through (src : Grid) (n : Nat) (P : src.Presents n) (hd : src.distinct)
    (attrs : List Attr) (hattrs : ∀ a ∈ attrs, a ∈ src.allAttributes)
    (specs : List Spec) (hspecs : src.Resolves attrs specs)
    (rows : List Nat) (hrows : ∀ r ∈ rows, r < n) :
    (Grid.viewFromVisible src rows specs).size.2 = rows.length ∧
    (∀ a ∈ attrs, ∃ s, (Grid.viewFromVisible src rows specs).getAttribute a = Res.ok s ∧ s.attr = a ∧
      ∀ i (h : i < rows.length),
        (Grid.viewFromVisible src rows specs).get s i = Res.ok (src.cell a rows[i])) ∧
    ∀ s i, rows.length ≤ i → (Grid.viewFromVisible src rows specs).get s i = Res.panic := by
  obtain ⟨r1, r2⟩ := P.resolves hattrs hspecs
  obtain ⟨VP, Vc⟩ := visible_presents P hd r2 hrows
  refine ⟨VP.rows, ?_, ?_⟩
  · intro a ha
    have ha' : a ∈ specs.map Spec.attr := r1.symm.subset ha
    obtain ⟨s, h1, h2, h3⟩ := VP.read a ha'
    refine ⟨s, h1, h2, ?_⟩
    intro i h
    rw [h3 i h, Vc a ha' i h]
  · intro s i h
    simp only [Grid.viewFromVisible, Grid.get, rowsOfList_get]
    rw [List.getElem?_eq_none_iff.2 h]
    simp

/-- Views compose: a view of a view reads the composed row. -/
theorem C18_views_compose (src : Grid) (n : Nat) (P : src.Presents n) (hd : src.distinct)
    (attrs : List Attr) (hattrs : ∀ a ∈ attrs, a ∈ src.allAttributes) (hnd : attrs.Nodup)
    (specs : List Spec) (hspecs : src.Resolves attrs specs)
    (rows : List Nat) (hrows : ∀ r ∈ rows, r < n)
    (attrs' : List Attr) (hattrs' : ∀ a ∈ attrs', a ∈ attrs)
    (specs' : List Spec) (hspecs' : (Grid.viewFromVisible src rows specs).Resolves attrs' specs')
    (rows' : List Nat) (hrows' : ∀ r ∈ rows', r < rows.length) :
    ∀ a ∈ attrs', ∀ i (h : i < rows'.length),
      (Grid.viewFromVisible (Grid.viewFromVisible src rows specs) rows' specs').cell a i =
        src.cell a (rows[rows'[i]]'(hrows' _ (List.getElem_mem h))) := by
  obtain ⟨r1, r2⟩ := P.resolves hattrs hspecs
  obtain ⟨VP, Vc⟩ := visible_presents P hd r2 hrows
  have hd' : (Grid.viewFromVisible src rows specs).distinct := by
    unfold Grid.distinct Grid.viewFromVisible Grid.allAttributes
    refine distinct_perm r1.symm ?_
    refine List.Pairwise.imp_of_mem ?_ (List.nodup_iff_pairwise_ne.1 hnd)
    intro a b ha hb hne
    cases he : a.equals b with
    | false => rfl
    | true => exact absurd (distinct_eq hd (hattrs a ha) (hattrs b hb) he) hne
  obtain ⟨q1, q2⟩ := VP.resolves (attrs := attrs') (specs := specs')
    (fun a ha => r1.symm.subset (hattrs' a ha)) hspecs'
  obtain ⟨_, Wc⟩ := visible_presents VP hd' q2 hrows'
  intro a ha i h
  rw [Wc a (q1.symm.subset ha) i h, Vc a (r1.symm.subset (hattrs' a ha))]

section Examples
private def fa : Attr := ⟨0, .float "a" 2⟩
private def fb : Attr := ⟨1, .bin "b"⟩
private def ops1 : List Op :=
  [.add fa, .add fb, .extend 3, .set 0 1 (packU64 5), .set 0 2 (packU64 6), .set 1 1 [1#8]]
/-- A view of rows 2, 1, 2 of a three-row grid, and a view of rows 1, 0 of that. -/
example : ∃ st sp sp', run 4096 ops1 = Res.ok st ∧ (∀ op ∈ ops1, basicOp op = true) ∧
    (addedAttrs ops1).Pairwise (fun a b => a.equals b = false) ∧
    (Grid.dense st.d).resolveUnsorted [fa, fb] = Res.ok sp ∧
    (Grid.viewFromVisible (.dense st.d) [2, 1, 2] sp).resolveUnsorted [fa] = Res.ok sp' ∧
    (List.range 2).map ((Grid.viewFromVisible (Grid.viewFromVisible (.dense st.d) [2, 1, 2] sp)
      [1, 0] sp').cell fa) = [packU64 5, packU64 6] := by
  refine ⟨_, _, _, rfl, ?_, ?_, rfl, rfl, ?_⟩ <;> decide +kernel
end Examples

end Golearn
