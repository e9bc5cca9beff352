import Verif.Proofs.Filtered
import Verif.Model.Convert
import Verif.Props.C11

/-! # C33: lazily filtered instances are consistent

`Get` is right for every filter. `MapOverRows` (base/filtered.go:187-190) calls `Transform` on every
column it is asked for, including those the filter does not convert, so the English claim fails for it;
it holds for filters that leave such columns alone. -/

namespace Golearn

/-- `Get` on a lazily filtered grid, for every source that behaves as a table and every filter that
fits it: a column the filter does not convert shows the source's value; a converted one shows the
filter's transform of the source's value. The filtered grid has exactly these columns, pairwise
different, and the source's number of rows. -/
theorem C33_get (src : Grid) (n : Nat) (P : src.Presents n) (hd : src.distinct) (f : Filter)
    (F : FilterFits src f n) :
    (∀ a, a ∈ (Grid.newFiltered src f).allAttributes ↔
      PassedThrough src f a ∨ ∃ p ∈ f.attrs, p.new = a) ∧
    (Grid.newFiltered src f).distinct ∧ (Grid.newFiltered src f).size.2 = n ∧
    (∀ a, PassedThrough src f a → ∃ s, (Grid.newFiltered src f).getAttribute a = Res.ok s ∧
      ∀ r, r < n → (Grid.newFiltered src f).get s r = Res.ok (src.cell a r)) ∧
    (∀ p ∈ f.attrs, ∃ s, (Grid.newFiltered src f).getAttribute p.new = Res.ok s ∧
      ∀ r, r < n → ∃ v, (Grid.newFiltered src f).get s r = Res.ok v ∧
        f.transform p.old p.new (src.cell p.old r) = Res.ok v) := by
  refine ⟨mem_filtered_attrs hd F, filtered_distinct hd F, ?_, ?_, ?_⟩
  · obtain ⟨cls, e⟩ := newFiltered_shape src f
    rw [e]
    exact P.rows
  · intro a h
    obtain ⟨s, h1, _, _, _, h5⟩ := filtered_passed P h
    exact ⟨s, h1, h5⟩
  · intro p hp
    obtain ⟨s, o, h1, _, _, _, _, h6⟩ := filtered_converted P F hp
    refine ⟨s, h1, ?_⟩
    intro r hr
    obtain ⟨v, hv⟩ := F.total p hp r hr
    exact ⟨v, by rw [h6 r hr, hv], hv⟩

/-- The class attributes of the filtered grid are those of the source, replaced by their converted
forms where the filter converts them. -/
theorem C33_class_attributes (src : Grid) (n : Nat) (f : Filter) (hd : src.distinct) (F : FilterFits src f n)
    (hc : ∀ c ∈ src.allClassAttributes, c ∈ src.allAttributes)
    (hnew : ∀ p ∈ f.attrs, ∀ a ∈ src.allAttributes, p.new.equals a = true → p.old = a) (x : Attr) :
    x ∈ (Grid.newFiltered src f).allClassAttributes ↔
      (PassedThrough src f x ∧ x ∈ src.allClassAttributes) ∨
      ∃ p ∈ f.attrs, p.old ∈ src.allClassAttributes ∧ x = p.new := by
  rw [filtered_class]
  constructor
  · rintro ⟨c, hc1, ⟨h, rfl⟩ | ⟨_, p, hp, h, rfl⟩⟩
    · exact Or.inl ⟨h, hc1⟩
    · refine Or.inr ⟨p, hp, ?_, rfl⟩
      rcases h with h | h
      · rw [distinct_eq hd (F.known p hp) (hc c hc1) h]; exact hc1
      · rw [hnew p hp c (hc c hc1) h]; exact hc1
  · rintro (⟨h, hx⟩ | ⟨p, hp, hx, rfl⟩)
    · exact ⟨x, hx, Or.inl ⟨h, rfl⟩⟩
    · exact ⟨p.old, hx, Or.inr ⟨fun h => h.2 p hp rfl, p, hp, Or.inl (C28_equals_refl _), rfl⟩⟩

/-- The full claim about iteration: a row delivered by `MapOverRows` holds what `Get` returns. -/
def FilteredIterates (src : Grid) (n : Nat) (f : Filter) : Prop :=
  ∀ specs, (∀ s ∈ specs, ∃ a ∈ (Grid.newFiltered src f).allAttributes,
      (Grid.newFiltered src f).getAttribute a = Res.ok s) →
    (Grid.newFiltered src f).mapPrep specs = Res.ok () ∧
    ∀ r, r < n → ∃ vs, (Grid.newFiltered src f).rowVals specs r = Res.ok vs ∧
      List.Forall₂ (fun s v => (Grid.newFiltered src f).get s r = Res.ok v) specs vs

/-- If the filter returns the values of the columns it does not convert unchanged, the filtered grid
behaves as a table of the same number of rows: in particular `MapOverRows` delivers what `Get`
returns. Missing: filters that do not (see `C33_iteration_fails`). -/
theorem C33_iteration_partial (src : Grid) (n : Nat) (P : src.Presents n) (hd : src.distinct) (f : Filter)
    (F : FilterFits src f n)
    (hid : ∀ a, PassedThrough src f a → ∀ r, r < n → f.transform a a (src.cell a r) = Res.ok (src.cell a r)) :
    (Grid.newFiltered src f).Presents n ∧ FilteredIterates src n f := by
  have hread : ∀ a ∈ (Grid.newFiltered src f).allAttributes, ∃ s o b,
      (Grid.newFiltered src f).getAttribute a = Res.ok s ∧ s.attr = a ∧
      src.getAttribute b = Res.ok o ∧ o.attr = b ∧ b ∈ src.allAttributes ∧
      Grid.newToOld f src (Grid.unfilteredMap src f) s = Res.ok o ∧
      ∀ r, r < n → (Grid.newFiltered src f).get s r = Res.ok ((Grid.newFiltered src f).cell a r) ∧
        f.transform o.attr s.attr (src.cell b r) = Res.ok ((Grid.newFiltered src f).cell a r) := by
    intro a ha
    rcases (mem_filtered_attrs hd F a).1 ha with h | ⟨p, hp, rfl⟩
    · obtain ⟨s, h1, h2, h3, h4, h5⟩ := filtered_passed P h
      refine ⟨s, s, a, h1, h2, h3, h2, h.1, h4, ?_⟩
      intro r hr
      have hc : (Grid.newFiltered src f).cell a r = src.cell a r := by
        conv_lhs => unfold Grid.cell
        simp only [h1, h5 r hr]
      rw [hc, h2]
      exact ⟨h5 r hr, hid a h r hr⟩
    · obtain ⟨s, o, h1, h2, h3, h4, h5, h6⟩ := filtered_converted P F hp
      refine ⟨s, o, p.old, h1, h2, h3, h4, F.known p hp, h5, ?_⟩
      intro r hr
      obtain ⟨v, hv⟩ := F.total p hp r hr
      have hg := h6 r hr
      rw [hv] at hg
      have hc : (Grid.newFiltered src f).cell p.new r = v := by
        unfold Grid.cell
        simp only [h1, hg]
      rw [hc, h2, h4]
      exact ⟨hg, hv⟩
  obtain ⟨cls, e⟩ := newFiltered_shape src f
  have PP : (Grid.newFiltered src f).Presents n := by
    refine ⟨?_, ?_, ?_, ?_⟩
    · rw [e]; exact P.rows
    · intro a ha
      obtain ⟨s, _, _, h1, h2, _, _, _, _, h6⟩ := hread a ha
      exact ⟨s, h1, h2, fun r hr => (h6 r hr).1⟩
    · intro o ho
      rw [e] at ho
      exact P.order o ho
    · intro specs hs
      obtain ⟨old, hold⟩ : ∃ old : Spec → Spec, ∀ s ∈ specs,
          Grid.newToOld f src (Grid.unfilteredMap src f) s = Res.ok (old s) ∧
          (old s).attr ∈ src.allAttributes ∧ src.getAttribute (old s).attr = Res.ok (old s) ∧
          ∀ r, r < n → f.transform (old s).attr s.attr (src.cell (old s).attr r) =
            Res.ok ((Grid.newFiltered src f).cell s.attr r) := by
        refine ⟨fun s => match Grid.newToOld f src (Grid.unfilteredMap src f) s with
          | .ok o => o | _ => s, ?_⟩
        intro s hsm
        obtain ⟨a, ha, hga⟩ := hs s hsm
        obtain ⟨t, o, b, h1, h2, h3, h4, h5, h6, h7⟩ := hread a ha
        rw [h1, Res.ok.injEq] at hga
        subst hga
        simp only [h6]
        refine ⟨trivial, h4 ▸ h5, h4 ▸ h3, ?_⟩
        intro r hr
        have := (h7 r hr).2
        rw [h2] at this ⊢
        rw [h4] at this ⊢
        exact this
      have hm : mapRes (Grid.newToOld f src (Grid.unfilteredMap src f)) specs = Res.ok (specs.map old) :=
        mapRes_of_ok _ _ _ fun s hsm => (hold s hsm).1
      obtain ⟨i1, i2⟩ := P.iter (specs.map old) (by
        intro s hsm
        obtain ⟨t, ht, rfl⟩ := List.mem_map.1 hsm
        exact ⟨_, (hold t ht).2.1, (hold t ht).2.2.1⟩)
      refine ⟨?_, ?_⟩
      · rw [e]
        simp only [Grid.mapPrep, hm, i1]
      · intro r hr
        conv_lhs => rw [e]
        simp only [Grid.rowVals, hm, i2 r hr, Res.bind_ok]
        have hz : (((specs.map old).zip specs).zip ((specs.map old).map fun s => src.cell s.attr r)) =
            specs.map fun s => ((old s, s), src.cell (old s).attr r) := by
          clear hs hold hm i1 i2
          induction specs with
          | nil => rfl
          | cons s ss ih => simp only [List.map_cons, List.zip_cons_cons, ih]
        rw [hz]
        rw [mapRes_eq_ok]
        have : ∀ l : List Spec, (∀ s ∈ l, s ∈ specs) → List.Forall₂
            (fun (p : (Spec × Spec) × Bytes) b => f.transform p.1.1.attr p.1.2.attr p.2 = Res.ok b)
            (l.map fun s => ((old s, s), src.cell (old s).attr r))
            (l.map fun s => (Grid.newFiltered src f).cell s.attr r) := by
          intro l
          induction l with
          | nil => intro _; exact List.Forall₂.nil
          | cons s ss ih =>
            intro h
            exact List.Forall₂.cons ((hold s (h s (by simp))).2.2.2 r hr) (ih fun t ht => h t (by simp [ht]))
        exact this specs fun s h => h
  refine ⟨PP, ?_⟩
  intro specs hs
  obtain ⟨i1, i2⟩ := PP.iter specs hs
  refine ⟨i1, ?_⟩
  intro r hr
  refine ⟨_, i2 r hr, ?_⟩
  clear i1 i2
  induction specs with
  | nil => exact List.Forall₂.nil
  | cons s ss ih =>
    refine List.Forall₂.cons ?_ (ih fun t ht => hs t (by simp [ht]))
    obtain ⟨a, ha, hga⟩ := hs s (by simp)
    obtain ⟨e1, e2⟩ := PP.get_spec ha hga
    show _ = Res.ok ((Grid.newFiltered src f).cell s.attr r)
    rw [e1]
    exact e2 r hr

section Witness
private def fA : Attr := ⟨0, .float "a" 2⟩
private def fB : Attr := ⟨1, .float "b" 2⟩
/-- Row 0 holds 1.0 in both columns, row 1 holds 0.0. -/
private def ops1 : List Op :=
  [.add fA, .add fB, .extend 2, .set 0 0 (packU64 f64One), .set 1 0 (packU64 f64One)]
/-- The binary conversion filter, asked to convert column `a` only. -/
private def flt : Filter := Conv.binary (fun i => 10 + i) [fA]

/-- What `Get` and `MapOverRows` show of row 0: column `b` is not converted, `Get` shows its eight
bytes, and iteration shows the single byte of the conversion. -/
private theorem shown : ((run 4096 ops1).bind fun st =>
      let g := Grid.newFiltered (.dense st.d) flt
      (g.resolveUnsorted g.allAttributes).bind fun specs =>
        (mapRes (fun s => g.get s 0) specs).bind fun got =>
          (g.mapOverRows specs [0, 1] (fun out v _ => Res.ok (out ++ [v], Ctl.cont)) []).map fun p =>
            (g.allAttributes.map Attr.body, got, p.1)) =
    Res.ok ([.bin "a", .float "b" 2], [[1#8], packU64 f64One],
      [[[1#8], [1#8]], [[0#8], [0#8]]]) := by decide +kernel

private theorem witness : ∃ st, run 4096 ops1 = Res.ok st ∧
    st.d.allAttributes = [fA, fB] ∧
    (Grid.newFiltered (.dense st.d) flt).allAttributes = [⟨10, .bin "a"⟩, fB] ∧
    (Grid.newFiltered (.dense st.d) flt).getAttribute fB = Res.ok ⟨some 0, 1, fB⟩ ∧
    (Grid.newFiltered (.dense st.d) flt).get ⟨some 0, 1, fB⟩ 0 = Res.ok (packU64 f64One) ∧
    (Grid.newFiltered (.dense st.d) flt).rowVals [⟨some 0, 1, fB⟩] 0 = Res.ok [[1#8]] ∧
    (∀ r ∈ [0, 1], ((flt.transform fA ⟨10, .bin "a"⟩ ((Grid.dense st.d).cell fA r)).isOk = true)) := by
  refine ⟨_, rfl, ?_, ?_, ?_, ?_, ?_, ?_⟩
  all_goals decide +kernel

/-- The claim about iteration fails, for a filter of the library used as documented on a grid of two
float columns of which it converts one. -/
theorem C33_iteration_fails : ∃ (ops : List Op) (st : St) (f : Filter),
    (∀ op ∈ ops, basicOp op = true) ∧ run 4096 ops = Res.ok st ∧
    f = Conv.binary (fun i => 10 + i) [fA] ∧
    FilterFits (.dense st.d) f (totalRows ops) ∧ ¬ FilteredIterates (.dense st.d) (totalRows ops) f := by
  obtain ⟨st, h1, h2, h3, h4, h5, h6, h7⟩ := witness
  refine ⟨ops1, st, _, by decide, h1, rfl, ?_, ?_⟩
  · have hat : (Conv.binary (fun i => 10 + i) [fA]).attrs = [⟨fA, ⟨10, .bin "a"⟩⟩] := by decide
    refine ⟨?_, ?_, ?_, ?_, ?_⟩
    · intro p hp
      rw [hat, List.mem_singleton] at hp
      subst hp
      show fA ∈ st.d.allAttributes
      rw [h2]; simp
    · rw [hat]; simp
    · intro p hp q hq _
      rw [hat, List.mem_singleton] at hp hq
      rw [hp, hq]
    · rintro p hp a ⟨ha, _⟩
      rw [hat, List.mem_singleton] at hp
      subst hp
      have ha' : a ∈ st.d.allAttributes := ha
      rw [h2] at ha'
      rcases List.mem_cons.1 ha' with rfl | ha'
      · decide
      · rw [List.mem_singleton] at ha'
        subst ha'
        decide
    · intro p hp r hr
      rw [hat, List.mem_singleton] at hp
      subst hp
      have hr2 : r ∈ [0, 1] := by
        have : totalRows ops1 = 2 := by decide
        rw [this] at hr
        simp only [List.mem_cons, List.not_mem_nil, or_false]
        omega
      have := h7 r hr2
      revert this
      show ((flt.transform fA ⟨10, .bin "a"⟩ ((Grid.dense st.d).cell fA r)).isOk = true) →
        ∃ v, flt.transform fA ⟨10, .bin "a"⟩ ((Grid.dense st.d).cell fA r) = Res.ok v
      cases hx : flt.transform fA ⟨10, .bin "a"⟩ ((Grid.dense st.d).cell fA r) with
      | ok v => intro _; exact ⟨v, rfl⟩
      | err => intro h; cases h
      | panic => intro h; cases h
  · intro h
    obtain ⟨_, k⟩ := h [⟨some 0, 1, fB⟩] (by
      intro s hs
      rw [List.mem_singleton] at hs
      subst hs
      refine ⟨fB, ?_, h4⟩
      have := h3
      unfold flt at this
      rw [this]; simp)
    obtain ⟨vs, k1, k2⟩ := k 0 (by decide)
    have h6' := h6
    unfold flt at h6'
    rw [h6', Res.ok.injEq] at k1
    subst k1
    cases k2 with
    | cons a b =>
      have h5' := h5
      unfold flt at h5'
      rw [h5', Res.ok.injEq] at a
      revert a
      decide

/-- The same grid with both columns converted meets the hypotheses of `C33_iteration_partial`: there
is nothing left to pass through. -/
example : ((run 4096 ops1).bind fun st =>
      let g := Grid.newFiltered (.dense st.d) (Conv.binary (fun i => 10 + i) [fA, fB])
      (g.resolveUnsorted g.allAttributes).bind fun specs =>
        (mapRes (fun s => g.get s 0) specs).bind fun got =>
          (g.mapOverRows specs [0, 1] (fun out v _ => Res.ok (out ++ [v], Ctl.cont)) []).map fun p =>
            (g.allAttributes.map Attr.body, got, p.1)) =
    Res.ok ([.bin "a", .bin "b"], [[1#8], [1#8]], [[[1#8], [1#8]], [[0#8], [0#8]]]) := by decide +kernel
end Witness

end Golearn
