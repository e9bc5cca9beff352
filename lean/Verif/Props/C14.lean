import Verif.Proofs.SortSpec

/-! # C14: Sort permutes whole rows -/

namespace Golearn

theorem resolved_of_lookup {g : Grid} {n : Nat} (P : g.Presents n) {specs : List Spec}
    (h : ∀ s ∈ specs, ∃ a ∈ g.allAttributes, g.getAttribute a = Res.ok s) : Resolved g specs := by
  intro s hs
  obtain ⟨a, ha, hg⟩ := h s hs
  have := (P.get_spec ha hg).1
  rw [this]; exact ⟨ha, hg⟩

/-- `Sort` on `DenseInstances` reached by any history of client calls, for every list of attribute
specifications of the grid and both directions: it succeeds, keeps attributes, class attributes and
size, and there is a permutation `σ` of the row numbers such that in every column row `r` of the
result is row `σ r` of the original. -/
theorem C14_sort_permutes (pg : Nat) (ops : List Op) (st : St)
    (hb : ∀ op ∈ ops, basicOp op = true) (hrun : run pg ops = Res.ok st)
    (hd : (addedAttrs ops).Pairwise (fun a b => a.equals b = false))
    (srt : List Spec → List Spec) (hsrt : ∀ l, (srt l).Perm l)
    (specs : List Spec) (hs : ∀ s ∈ specs, ∃ a ∈ st.d.allAttributes, st.d.getAttribute a = Res.ok s)
    (descending : Bool) :
    ∃ d' σ, sortDense srt st.d descending specs = Res.ok d' ∧
      ((List.range (totalRows ops)).map σ).Perm (List.range (totalRows ops)) ∧
      (Grid.dense d').Presents (totalRows ops) ∧
      d'.allAttributes = st.d.allAttributes ∧ d'.allClassAttributes = st.d.allClassAttributes ∧
      ∀ a ∈ st.d.allAttributes, ∀ r, r < totalRows ops →
        (Grid.dense d').cell a r = (Grid.dense st.d).cell a (σ r) := by
  have D := denseOK_run hb hrun hd
  obtain ⟨d', sws, _, h2, h3, h4, h5, h6, h7⟩ :=
    sortDense_spec hsrt D (resolved_of_lookup D.presents hs) descending
  refine ⟨d', _, h3, sortRow_perm h2 descending, h4.presents, h5, ?_, h7⟩
  simp only [Dense.allClassAttributes, h6]

section Examples
private def ops1 : List Op :=
  [.add ⟨0, .float "a" 2⟩, .add ⟨1, .bin "b"⟩, .extend 4,
   .set 0 0 (packU64 9), .set 0 1 (packU64 5), .set 0 2 (packU64 6), .set 1 1 [1#8],
   .set 0 3 (packU64 5)]
/-- A four-row grid sorted on its first column meets the hypotheses; the result in both
directions. -/
example : (∀ op ∈ ops1, basicOp op = true) ∧
    (addedAttrs ops1).Pairwise (fun a b => a.equals b = false) ∧
    ∀ desc : Bool, ((run 4096 ops1).bind fun st =>
      (st.d.getAttribute ⟨0, .float "a" 2⟩).bind fun s =>
      (sortDense id st.d desc [s]).map fun d' =>
        (List.range 4).map fun r => ((Grid.dense d').cell ⟨0, .float "a" 2⟩ r,
          (Grid.dense d').cell ⟨1, .bin "b"⟩ r)) =
    Res.ok (if desc then
        [(packU64 9, [0#8]), (packU64 6, [0#8]), (packU64 5, [0#8]), (packU64 5, [1#8])]
      else [(packU64 5, [1#8]), (packU64 5, [0#8]), (packU64 6, [0#8]), (packU64 9, [0#8])]) := by
  decide +kernel
end Examples

end Golearn
