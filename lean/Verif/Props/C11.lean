import Verif.Proofs.Copy
import Verif.Proofs.World

/-! # C11: a dense copy is equal to its source and independent of it -/

namespace Golearn

/-- `NewDenseCopy(g)`, for any grid `g` (dense, view, filtered, nested) that behaves as a table of
`n` rows with pairwise different attributes and well-formed values, and for any map orders used
while copying: the copy succeeds, is again a table of `n` rows, has exactly the attributes and the
class attributes of `g`, and every cell holds the value `g` shows there. -/
theorem C11_dense_copy (pg : Nat) (g : Grid) (n : Nat) (P : g.Presents n) (hd : g.distinct)
    (ht : g.typed n) (hc : ∀ c ∈ g.allClassAttributes, c ∈ g.allAttributes)
    (classes : List Attr) (hclasses : classes.Perm g.allClassAttributes)
    (order : List Nat) (horder : g.RowOrder order) :
    ∃ d, newDenseCopy pg g classes order = Res.ok d ∧
      (Grid.dense d).Presents n ∧ (Grid.dense d).distinct ∧ (Grid.dense d).typed n ∧
      d.allAttributes.Perm g.allAttributes ∧
      (∀ x, x ∈ d.allClassAttributes ↔ x ∈ g.allClassAttributes) ∧
      ∀ a ∈ g.allAttributes, ∀ r, r < n → (Grid.dense d).cell a r = g.cell a r := by
  -- the specifications of the source, in attribute order
  have hlook : ∃ look : Attr → Spec, ∀ a ∈ g.allAttributes,
      g.getAttribute a = Res.ok (look a) ∧ (look a).attr = a := by
    refine ⟨fun a => match g.getAttribute a with | .ok s => s | _ => ⟨none, 0, a⟩, ?_⟩
    intro a ha
    obtain ⟨s, h1, h2, _⟩ := P.read a ha
    simp only [h1]
    exact ⟨trivial, h2⟩
  obtain ⟨look, hlook⟩ := hlook
  obtain ⟨w, hw⟩ : ∃ w : Nat → List Bytes, w = fun r => g.allAttributes.map fun a => g.cell a r :=
    ⟨_, rfl⟩
  have hmap : ∀ r, ((g.allAttributes.map look).map fun s => g.cell s.attr r) = w r := by
    intro r
    rw [hw, List.map_map]
    apply List.map_congr_left
    intro a ha
    simp [(hlook a ha).2]
  have hit := P.iter (g.allAttributes.map look) (by
    intro s hs
    obtain ⟨a, ha, rfl⟩ := List.mem_map.1 hs
    exact ⟨a, ha, (hlook a ha).1⟩)
  have hop := P.order order horder
  have hlt : ∀ r ∈ order, r < n := fun r hr => List.mem_range.1 (hop.subset hr)
  obtain ⟨hb, hadd, htot⟩ := copyOps_facts g.allAttributes classes n order w
  -- the history is legal, so it runs
  have hsets : ∀ op ∈ order.flatMap (fun r => rowOps 0 r (w r)), ∃ h r v a, op = Op.set h r v ∧
      g.allAttributes[h]? = some a ∧ r < n ∧ acceptable (defaultKind a) v := by
    intro op hop'
    obtain ⟨r, hr, hr'⟩ := List.mem_flatMap.1 hop'
    obtain ⟨i, v, hv, rfl⟩ := (mem_rowOps _ _ _ _).1 hr'
    rw [hw, List.getElem?_map, Option.map_eq_some_iff] at hv
    obtain ⟨a, ha, rfl⟩ := hv
    exact ⟨0 + i, r, _, a, rfl, by simpa using ha, hlt r hr,
      wellFormed_acceptable (ht a (List.mem_of_getElem? ha) r (hlt r hr))⟩
  have hlegal : LegalSeq [] (copyOps g.allAttributes classes n order w) := by
    rw [copyOps, legalSeq_append]
    refine ⟨legal_adds [] (by simp) _, ?_⟩
    rw [legalSeq_append]
    refine ⟨legal_classes _ _, trivial, ?_⟩
    have h0 := copyOps_facts g.allAttributes classes n [] w
    apply legal_sets g.allAttributes n
    · have := h0.2.1
      simpa [copyOps] using this
    · have := h0.2.2
      simpa [copyOps] using this
    · exact hsets
  obtain ⟨st, hrun⟩ := run_of_legal pg _ hb hlegal
  have hcopy := newDenseCopy_run pg g classes order look w st (fun a ha => (hlook a ha).1)
    hit.1 (by intro r hr; rw [hit.2 r (hlt r hr), hmap]) (by rw [P.rows]; exact hrun)
  obtain ⟨I, _, _⟩ := run_inv pg _ st (basic_noLate hb) hrun
  obtain ⟨B, hat⟩ := run_basic pg _ st hb hrun
  rw [htot] at I
  rw [hadd] at hat
  have hperm : st.d.allAttributes.Perm g.allAttributes := hat ▸ I.listed
  have hd' : (Grid.dense st.d).distinct := distinct_perm hperm.symm hd
  refine ⟨st.d, hcopy, dense_presents I hd', hd', dense_typed I B hd', hperm, ?_, ?_⟩
  · have hcl := (C09_class_attributes pg _ st hb hrun (by rw [hadd]; exact hd)).1
    intro x
    rw [hcl x]
    constructor
    · rintro ⟨pre, b, post, e, hx, he, _⟩
      have hbm : Op.addClass b ∈ copyOps g.allAttributes classes n order w := by rw [e]; simp
      have hbc : b ∈ classes := by
        simp only [copyOps, List.mem_append, List.mem_map, List.mem_cons] at hbm
        rcases hbm with ⟨a, _, h⟩ | ⟨a, ha, h⟩ | h | h
        · cases h
        · cases h; exact ha
        · cases h
        · obtain ⟨_, _, _, _, h, _⟩ := hsets _ h
          cases h
      have hxa : x ∈ g.allAttributes := by
        rw [← hadd, e, addedAttrs_append]; exact List.mem_append_left _ hx
      have hbg := hclasses.subset hbc
      rw [distinct_eq hd hxa (hc b hbg) he]
      exact hbg
    · intro hx
      obtain ⟨c1, c2, hsplit⟩ := List.append_of_mem (hclasses.symm.subset hx)
      refine ⟨g.allAttributes.map Op.add ++ c1.map Op.addClass, x,
        c2.map Op.addClass ++ (Op.extend n :: order.flatMap fun r => rowOps 0 r (w r)), ?_, ?_,
        C28_equals_refl x, ?_⟩
      · rw [copyOps, hsplit]; simp
      · have h0 := (copyOps_facts g.allAttributes c1 n [] w).2.1
        rw [addedAttrs_append]
        apply List.mem_append_left
        have : addedAttrs (g.allAttributes.map Op.add) = g.allAttributes := by
          have := (copyOps_facts g.allAttributes [] n [] w).2.1
          simpa [copyOps, addedAttrs_append, addedAttrs] using this
        rw [this]
        exact hc x hx
      · intro c hcm
        exfalso
        simp only [List.mem_append, List.mem_map, List.mem_cons] at hcm
        rcases hcm with ⟨a, _, h⟩ | h | h
        · cases h
        · cases h
        · obtain ⟨_, _, _, _, h, _⟩ := hsets _ h
          cases h
  · intro a ha r hr
    obtain ⟨s, h1, h2, h3⟩ := dense_lookup I hd' (hperm.symm.subset ha)
    have hcell := dense_cell I hd' h3 hr
    rw [h2] at hcell
    obtain ⟨i, hi, hia⟩ := List.getElem_of_mem h3
    have hsi : st.handles[i]? = some s := by rw [List.getElem?_eq_getElem hi, hia]
    have hai : g.allAttributes[i]? = some a := by rw [← hat, List.getElem?_map, hsi]; simp [h2]
    obtain ⟨k, hk, hg⟩ := I.cells i s r hsi hr
    rw [B.stored i s hsi, h2] at hk
    simp only [Option.some.injEq] at hk
    subst hk
    have hlw : lastWrite (copyOps g.allAttributes classes n order w) i r = some (g.cell a r) := by
      apply lastWrite_eq
      · refine ⟨Op.set i r (g.cell a r), ?_, by simp [writes]⟩
        simp only [copyOps, List.mem_append, List.mem_cons]
        right; right; right
        rw [List.mem_flatMap]
        refine ⟨r, hop.symm.subset (List.mem_range.2 hr), ?_⟩
        rw [mem_rowOps]
        exact ⟨i, g.cell a r, by rw [hw]; simp [hai], by simp⟩
      · intro op hm v' hv'
        simp only [copyOps, List.mem_append, List.mem_map, List.mem_cons] at hm
        rcases hm with ⟨_, _, rfl⟩ | ⟨_, _, rfl⟩ | rfl | h
        · cases hv'
        · cases hv'
        · cases hv'
        · obtain ⟨r', _, hr'⟩ := List.mem_flatMap.1 h
          obtain ⟨j, v, hv, rfl⟩ := (mem_rowOps _ _ _ _).1 hr'
          simp only [writes, Nat.zero_add] at hv'
          split at hv'
          · rename_i hjr
            obtain ⟨rfl, rfl⟩ := hjr
            simp only [Option.some.injEq] at hv'
            subst hv'
            rw [hw] at hv
            simp only [List.getElem?_map, hai, Option.map_some, Option.some.injEq] at hv
            exact hv.symm
          · cases hv'
    rw [hlw, wellFormed_cellValue (ht a ha r hr)] at hg
    rw [hg] at hcell
    exact (Res.ok.inj hcell).symm

/-- The hypotheses hold for every dense grid a client can build with `AddAttribute`, `Extend`, `Set`
and the class-attribute calls, when its attributes are pairwise different. -/
theorem C11_dense_copy_of_dense (pg : Nat) (ops : List Op) (st : St)
    (hb : ∀ op ∈ ops, basicOp op = true) (hrun : run pg ops = Res.ok st)
    (hd : (addedAttrs ops).Pairwise (fun a b => a.equals b = false))
    (classes : List Attr) (hclasses : classes.Perm st.d.allClassAttributes) :
    ∃ d, newDenseCopy pg (.dense st.d) classes (List.range (totalRows ops)) = Res.ok d ∧
      d.size = st.d.size ∧ d.allAttributes.Perm st.d.allAttributes ∧
      (∀ x, x ∈ d.allClassAttributes ↔ x ∈ st.d.allClassAttributes) ∧
      ∀ a ∈ st.d.allAttributes, ∀ r, r < totalRows ops →
        (Grid.dense d).cell a r = (Grid.dense st.d).cell a r := by
  obtain ⟨I, _, _⟩ := run_inv pg ops st (basic_noLate hb) hrun
  obtain ⟨B, hat⟩ := run_basic pg ops st hb hrun
  have hd' : (Grid.dense st.d).distinct := distinct_perm (hat ▸ I.listed.symm) hd
  obtain ⟨d, h1, h2, _, _, h5, h6, h7⟩ := C11_dense_copy pg (.dense st.d) _ (dense_presents I hd') hd'
    (dense_typed I B hd') (by
      intro c hc
      have := (C09_class_attributes pg ops st hb hrun hd).1 c
      obtain ⟨pre, b, post, e, hx, _⟩ := this.1 hc
      apply (hat ▸ I.listed.symm : (addedAttrs ops).Perm st.d.allAttributes).subset
      rw [e, addedAttrs_append]; exact List.mem_append_left _ hx)
    classes hclasses (List.range (totalRows ops)) (by simp [Grid.RowOrder, I.hrows])
  refine ⟨d, h1, ?_, h5, h6, h7⟩
  have := h2.rows
  simp only [Grid.size] at this
  have e : d.size.1 = st.d.size.1 := h5.length_eq
  have e2 : d.size.2 = st.d.size.2 := by rw [this]; exact I.hrows.symm
  exact Prod.ext e e2

/-- `NewDenseCopy` in a program that also uses other tables, views, filtered grids and slices: after any
history, copying any grid `g` gives a new table with the contents `newDenseCopy` computes from what `g`
shows, and changes no existing table. Whatever the client does afterwards, the copy changes only
through calls on the copy and writes into slices the copy handed out, and the source, like every other
table, only through calls on it and slices it handed out. -/
theorem C11_copy_independent (pg : Nat) (srt : List Spec → List Spec) (before after : List MOp)
    (w w1 w2 : World) (h : World.run pg srt before = Res.ok w) (g : HGrid) (classes : List Attr)
    (order : List Nat) (h1 : w.step pg srt (.copy g classes order) = Res.ok w1)
    (h2 : World.runFrom pg srt w1 after = Res.ok w2) :
    w1.tables.length = w.tables.length + 1 ∧
    newDenseCopy pg (w.grid g) classes order = Res.ok (w1.table w.tables.length) ∧
    (∀ i, i < w.tables.length → w1.table i = w.table i) ∧
    ((∀ op ∈ after, ¬ op.actsOn w2.held w.tables.length) →
      w2.table w.tables.length = w1.table w.tables.length) ∧
    ((∀ op ∈ after, ¬ op.actsOn w2.held g.root) →
      w2.table g.root = w.table g.root ∧ w2.grid g = w.grid g) := by
  have I := run_inv_world pg srt before h
  have E := step_effect pg srt I _ h1
  have hone := h1
  simp only [World.step] at h1
  split at h1
  · rename_i hroot
    rw [Res.map_eq_ok] at h1
    obtain ⟨p, hp, rfl⟩ := h1
    obtain ⟨d, hd, G, K, B, hat⟩ := (HGrid.copy_sim pg g classes order I.ok).ok_left hp
    have hlen : (w.tables ++ [p.1]).length = w.tables.length + 1 := by simp
    have hold : ∀ i, i < w.tables.length →
        World.table ⟨p.2, w.tables ++ [p.1], w.held⟩ i = w.table i := fun i hi =>
      (step_other pg srt I _ hone hi w.held ⟨[], by simp⟩ (fun k => k)).2
    have later : ∀ i, i < w.tables.length + 1 → (∀ op ∈ after, ¬ op.actsOn w2.held i) →
        w2.table i = World.table ⟨p.2, w.tables ++ [p.1], w.held⟩ i := fun i hi hno =>
      (runFrom_other pg srt i w2.held after E.inv h2 ⟨[], by simp⟩ (by simp only [hlen]; omega) hno).2
    refine ⟨hlen, ?_, hold, later _ (Nat.lt_succ_self _), ?_⟩
    · simp only [World.grid, hd, World.table]
      rw [show tableAt (w.tables ++ [p.1]) w.tables.length = p.1 by simp [tableAt], hat]
    · intro hno
      have e := (later g.root (by omega) hno).trans (hold g.root hroot)
      exact ⟨e, grid_congr g e⟩
  · cases h1

section Examples
private def ops1 : List Op :=
  [.add ⟨0, .float "a" 2⟩, .add ⟨1, .bin "b"⟩, .addClass ⟨7, .bin "b"⟩, .extend 2,
   .set 0 1 (packU64 5), .set 1 1 [3#8]]
/-- A grid with two columns, a class attribute and data meets the hypotheses; the copy is not
trivial. -/
example : ∃ st d, run 4096 ops1 = Res.ok st ∧ (∀ op ∈ ops1, basicOp op = true) ∧
    (addedAttrs ops1).Pairwise (fun a b => a.equals b = false) ∧
    newDenseCopy 4096 (.dense st.d) st.d.allClassAttributes [0, 1] = Res.ok d ∧
    (Grid.dense d).cell ⟨0, .float "a" 2⟩ 1 = packU64 5 ∧
    (Grid.dense d).cell ⟨1, .bin "b"⟩ 1 = [1#8] ∧ d.allClassAttributes = [⟨1, .bin "b"⟩] := by
  refine ⟨_, _, rfl, ?_, ?_, rfl, ?_⟩ <;> decide +kernel
private def a1 : Attr := ⟨0, .float "a" 2⟩
private def s1 : Spec := ⟨some 0, 0, a1⟩
private def before1 : List MOp :=
  [.new, .build 0 (.add a1), .extend 0 2, .make (packU64 5), .make (packU64 7), .set 0 s1 1 0,
   .get (.table 0) s1 0]
/-- Copies of a table and of a view of it that swaps the rows; afterwards the table is changed with
`Set` and through a slice it handed out, and the first copy with `Set`. Each shows only its own
changes. -/
example : ∃ w w1 w2, World.run 4096 id before1 = Res.ok w ∧
    World.runFrom 4096 id w [.copy (.table 0) [] [0, 1],
      .copy (.view (.table 0) none (some [(0, 1), (1, 0)]) [] true) [] [1, 0]] = Res.ok w1 ∧
    World.runFrom 4096 id w1 [.set 0 s1 1 1, .poke 2 (packU64 9), .set 1 s1 0 1] = Res.ok w2 ∧
    [0, 1, 2].map (fun i => ((w1.table i).get s1 0, (w1.table i).get s1 1)) =
      [(Res.ok (packU64 0), Res.ok (packU64 5)), (Res.ok (packU64 0), Res.ok (packU64 5)),
       (Res.ok (packU64 5), Res.ok (packU64 0))] ∧
    [0, 1, 2].map (fun i => ((w2.table i).get s1 0, (w2.table i).get s1 1)) =
      [(Res.ok (packU64 9), Res.ok (packU64 7)), (Res.ok (packU64 7), Res.ok (packU64 5)),
       (Res.ok (packU64 5), Res.ok (packU64 0))] := by
  refine ⟨_, _, _, rfl, rfl, rfl, ?_, ?_⟩ <;> decide +kernel
end Examples

end Golearn
