import Verif.Props.C14

/-! # C16: LazySort shows the same order as Sort -/

namespace Golearn

/-- On `DenseInstances` reached by any history of client calls, for every list of attribute
specifications and both directions, the view returned by `LazySort` has the same size as the
physically sorted grid and reads, in every column and row, the same value through `GetAttribute` and
`Get`. (`st.d` is the source after the call: `LazySort` returns a view and writes nothing.) -/
theorem C16_lazy_sort_agrees (pg : Nat) (ops : List Op) (st : St)
    (hb : ∀ op ∈ ops, basicOp op = true) (hrun : run pg ops = Res.ok st)
    (hd : (addedAttrs ops).Pairwise (fun a b => a.equals b = false))
    (srt : List Spec → List Spec) (hsrt : ∀ l, (srt l).Perm l)
    (specs : List Spec) (hs : ∀ s ∈ specs, ∃ a ∈ st.d.allAttributes, st.d.getAttribute a = Res.ok s)
    (order : List Nat) (ho : (Grid.dense st.d).RowOrder order) (descending : Bool) :
    ∃ v d', lazySort (.dense st.d) order descending specs = Res.ok v ∧
      sortDense srt st.d descending specs = Res.ok d' ∧
      v.size = d'.size ∧ v.allAttributes = d'.allAttributes ∧
      ∀ a ∈ st.d.allAttributes, ∃ s t, v.getAttribute a = Res.ok s ∧ d'.getAttribute a = Res.ok t ∧
        ∀ r, r < totalRows ops → ∃ b, v.get s r = Res.ok b ∧ d'.get t r = Res.ok b := by
  have D := denseOK_run hb hrun hd
  have R := resolved_of_lookup D.presents hs
  obtain ⟨d', sws, h1, h2, h3, h4, h5, _, h7⟩ := sortDense_spec hsrt D R descending
  obtain ⟨m, sws', e1, e2, e3, e4⟩ := lazySort_spec D.presents D.typed R ho descending
  have hord : order = List.range st.d.maxRow := ho
  rw [hord, h1, Res.ok.injEq] at e1
  subst e1
  have hlt : ∀ r, r < totalRows ops → (GoMap.get? m r).getD r < totalRows ops := by
    intro r hr
    rw [e4 r hr]
    exact List.mem_range.1 ((sortRow_perm h2 descending).subset
      (List.mem_map.2 ⟨r, List.mem_range.2 hr, rfl⟩))
  refine ⟨_, d', e3, h3, ?_, by rw [h5]; rfl, ?_⟩
  · -- sizes
    have hm : m.length ≤ totalRows ops := by
      simp only [lazySort, hord, h1, Res.bind_ok, D.presents.rows] at e3
      rw [Res.bind_eq_ok] at e3
      obtain ⟨arr1, f1, f2⟩ := e3
      rw [Res.map_eq_ok] at f2
      obtain ⟨arr, f3, f4⟩ := f2
      have hv : ∀ m m' : GoMap Nat Nat, Grid.viewFromRows (.dense st.d) m =
          Grid.viewFromRows (.dense st.d) m' → m = m' := by
        intro m m' h
        simp only [Grid.viewFromRows, Grid.view.injEq, Option.some.injEq] at h
        exact h.2.2.1
      have hlen1 : arr1.length = totalRows ops := by
        obtain ⟨l, g1, g2, _⟩ := swapEntriesAll_spec sws (List.range (totalRows ops)) (by simpa using h2)
        rw [f1, Res.ok.injEq] at g1
        subst g1; simpa using g2
      have hlen : arr.length = totalRows ops := by
        cases descending with
        | false =>
          simp only [Bool.false_eq_true, if_false, Res.ok.injEq] at f3
          subst f3; exact hlen1
        | true =>
          obtain ⟨l, g1, g2, _⟩ := swapEntriesAll_spec (reverseSwaps (totalRows ops)) arr1 (by
            rw [hlen1]; exact reverseSwaps_bnd _)
          simp only [if_true] at f3
          rw [f3, Res.ok.injEq] at g1
          subst g1; omega
      have := hv _ _ f4
      rw [← this, ← hlen]
      have key : ∀ (l : List (Nat × Nat)) (m : GoMap Nat Nat),
          (l.foldl (fun (m : GoMap Nat Nat) p => if p.2 = p.1 then m else m.set p.2 p.1) m).length
            ≤ m.length + l.length := by
        intro l
        induction l with
        | nil => intro m; simp
        | cons p ps ih =>
          intro m
          rw [List.foldl_cons]
          refine Nat.le_trans (ih _) ?_
          have hset : ∀ (m : GoMap Nat Nat) (k v : Nat), (m.set k v).length ≤ m.length + 1 := by
            intro m k v
            induction m with
            | nil => simp [GoMap.set]
            | cons x xs ih =>
              unfold GoMap.set
              split
              · simp
              · simpa using ih
          split
          · simp
          · have := hset m p.2 p.1
            simp; omega
      refine Nat.le_trans (key _ _) ?_
      simp
    have r1 : st.d.size.2 = totalRows ops := D.presents.rows
    have r2 : d'.size.2 = totalRows ops := h4.presents.rows
    have c1 : d'.size.1 = st.d.size.1 := by
      obtain ⟨_, W, hs1, I1, _⟩ := D
      obtain ⟨_, W', hs2, I2, _⟩ := h4
      simp [Dense.size, h5]
    apply Prod.ext
    · simp only [Grid.viewFromRows, Grid.size]; exact c1.symm
    · show (if m.length > st.d.size.2 then m.length else st.d.size.2) = d'.size.2
      rw [if_neg (by omega)]
      omega
  · intro a ha
    obtain ⟨t, t1, t2, t3⟩ := h4.presents.read a (show a ∈ d'.allAttributes from h5 ▸ ha)
    obtain ⟨s, s1, s2, _⟩ := D.presents.read a ha
    refine ⟨s, t, by simpa [Grid.viewFromRows, Grid.getAttribute] using s1, t1, ?_⟩
    intro r hr
    obtain ⟨⟨s', g1, _, g3⟩, _⟩ := rowsView_cell D.presents m ha (hlt r hr)
    have : s' = s := by
      simp only [Grid.viewFromRows, Grid.getAttribute] at g1 s1
      rw [s1, Res.ok.injEq] at g1
      exact g1.symm
    subst this
    refine ⟨_, g3, ?_⟩
    have := t3 r hr
    simp only [Grid.get] at this
    rw [this, h7 a ha r hr, e4 r hr]

/-- For any grid that presents its rows (dense instances, views of visible rows, attribute views,
lazily filtered instances), in any row order its iteration may use: `LazySort` succeeds and returns a
row view of the grid in which row `r` reads source row `σ r`, for a permutation `σ` that orders the
rows like `C15_sort_order_partial`. -/
theorem C16_lazy_sort_any_grid (g : Grid) (n : Nat) (P : g.Presents n) (T : g.typed n)
    (specs : List Spec) (hs : ∀ s ∈ specs, ∃ a ∈ g.allAttributes, g.getAttribute a = Res.ok s)
    (order : List Nat) (ho : g.RowOrder order) (descending : Bool) :
    ∃ (m : GoMap Nat Nat) (σ : Nat → Nat),
      lazySort g order descending specs = Res.ok (Grid.viewFromRows g m) ∧
      ((List.range n).map σ).Perm (List.range n) ∧
      (∀ a ∈ g.allAttributes, ∀ r, r < n → (Grid.viewFromRows g m).cell a r = g.cell a (σ r)) ∧
      ∀ r q, r < q → q < n →
        let lo := if descending then q else r
        let hi := if descending then r else q
        let key := rowKeyFlipped g (specs.map Spec.attr)
        lexLt (key (σ lo)) (key (σ hi)) ∨ (key (σ lo) = key (σ hi) ∧ σ lo < σ hi) := by
  have R := resolved_of_lookup P hs
  obtain ⟨m, sws, e1, e2, e3, e4⟩ := lazySort_spec P T R ho descending
  obtain ⟨sws', f1, _, f3⟩ := createSortSpec_spec P T R ho
  rw [e1, Res.ok.injEq] at f1
  subst f1
  have hp := sortRow_perm e2 descending
  refine ⟨m, sortRow sws n descending, e3, hp, ?_, ?_⟩
  · intro a ha r hr
    have hlt : (GoMap.get? m r).getD r < n := by
      rw [e4 r hr]
      exact List.mem_range.1 (hp.subset (List.mem_map.2 ⟨r, List.mem_range.2 hr, rfl⟩))
    rw [(rowsView_cell P m ha hlt).2, e4 r hr]
  · intro r q hrq hq
    simp only
    cases descending with
    | false => exact f3 r q hrq hq
    | true => exact f3 (n - 1 - q) (n - 1 - r) (by omega) (by omega)

section Examples
private def ops1 : List Op :=
  [.add ⟨0, .float "a" 2⟩, .add ⟨1, .bin "b"⟩, .extend 3,
   .set 0 0 (packU64 9), .set 0 1 (packU64 5), .set 0 2 (packU64 6), .set 1 1 [1#8]]
/-- A three-row grid sorted on its first column meets the hypotheses; the view shows rows 1, 2, 0. -/
example : (∀ op ∈ ops1, basicOp op = true) ∧
    (addedAttrs ops1).Pairwise (fun a b => a.equals b = false) ∧
    ((run 4096 ops1).bind fun st => (st.d.getAttribute ⟨0, .float "a" 2⟩).bind fun s =>
      (lazySort (.dense st.d) (List.range 3) false [s]).map fun v =>
        (List.range 3).map fun r => (v.cell ⟨0, .float "a" 2⟩ r, v.cell ⟨1, .bin "b"⟩ r)) =
    Res.ok [(packU64 5, [1#8]), (packU64 6, [0#8]), (packU64 9, [0#8])] := by
  decide +kernel
end Examples

end Golearn
