import Verif.Proofs.Table

namespace Golearn

theorem rowsOfList_get (rows : List Nat) (r : Nat) :
    GoMap.get? (Grid.rowsOfList rows) r = rows[r]? := by
  have key : ∀ (rows : List Nat) (b r : Nat),
      GoMap.get? ((List.range' b rows.length).zip rows) (b + r) = rows[r]? := by
    intro rows
    induction rows with
    | nil => intro b r; rfl
    | cons x xs ih =>
      intro b r
      rw [List.length_cons, List.range'_succ, List.zip_cons_cons]
      unfold GoMap.get?
      cases r with
      | zero => simp
      | succ r =>
        rw [if_neg (by omega)]
        have := ih (b + 1) r
        rw [show b + 1 + r = b + (r + 1) by omega] at this
        simpa using this
  have := key rows 0 r
  rw [Nat.zero_add] at this
  rw [← this, Grid.rowsOfList, List.range_eq_range']

theorem rowsOfList_keys (rows : List Nat) :
    (Grid.rowsOfList rows).map Prod.fst = List.range rows.length := by
  rw [Grid.rowsOfList, List.map_fst_zip]; simp

theorem findSpec_spec {src : Grid} {specs : List Spec} (hd : src.distinct)
    (hs : ∀ s ∈ specs, s.attr ∈ src.allAttributes ∧ src.getAttribute s.attr = Res.ok s)
    {a : Attr} (ha : a ∈ specs.map Spec.attr) :
    ∃ s ∈ specs, Grid.findSpec specs a = some s ∧ s.attr = a ∧ src.getAttribute a = Res.ok s := by
  have hin : a ∈ src.allAttributes := by
    obtain ⟨s, h, rfl⟩ := List.mem_map.1 ha
    exact (hs s h).1
  induction specs with
  | nil => simp at ha
  | cons x xs ih =>
    unfold Grid.findSpec
    split
    · rename_i he
      have hx := hs x (by simp)
      have : x.attr = a := distinct_eq hd hx.1 hin he
      exact ⟨x, by simp, rfl, this, this ▸ hx.2⟩
    · rename_i he
      have : a ∈ xs.map Spec.attr := by
        rcases List.mem_cons.1 ha with h | h
        · rw [h, C28_equals_refl] at he; simp at he
        · exact h
      obtain ⟨s, h1, h2⟩ := ih (fun s h => hs s (by simp [h])) this
      exact ⟨s, by simp [h1], h2⟩

theorem findSpec_iff (specs : List Spec) (a : Attr) :
    (∃ s, Grid.findSpec specs a = some s) ↔ ∃ s ∈ specs, s.attr.equals a = true := by
  induction specs with
  | nil => simp [Grid.findSpec]
  | cons x xs ih =>
    unfold Grid.findSpec
    by_cases h : x.attr.equals a = true
    · simp [h]
    · simp [h, ih]

/-- What the specifications passed to a view constructor satisfy. -/
def Resolved (src : Grid) (specs : List Spec) : Prop :=
  ∀ s ∈ specs, s.attr ∈ src.allAttributes ∧ src.getAttribute s.attr = Res.ok s

/-- A view of visible rows presents exactly those rows. -/
theorem visible_presents {src : Grid} {n : Nat} (P : src.Presents n) (hd : src.distinct)
    {specs : List Spec} (hs : Resolved src specs) {rows : List Nat} (hr : ∀ r ∈ rows, r < n) :
    (Grid.viewFromVisible src rows specs).Presents rows.length ∧
    ∀ a ∈ specs.map Spec.attr, ∀ r (h : r < rows.length),
      (Grid.viewFromVisible src rows specs).cell a r = src.cell a rows[r] := by
  have hcell : ∀ a ∈ specs.map Spec.attr, ∃ s, (Grid.viewFromVisible src rows specs).getAttribute a
      = Res.ok s ∧ s.attr = a ∧ src.getAttribute a = Res.ok s ∧ ∀ r (h : r < rows.length),
      (Grid.viewFromVisible src rows specs).get s r = Res.ok (src.cell a rows[r]) := by
    intro a ha
    obtain ⟨s, hsm, h1, h2, h3⟩ := findSpec_spec hd hs ha
    refine ⟨s, ?_, h2, h3, ?_⟩
    · simp only [Grid.viewFromVisible, Grid.getAttribute, h1]
    · intro r h
      simp only [Grid.viewFromVisible, Grid.get, rowsOfList_get, List.getElem?_eq_getElem h]
      have hin := (hs s hsm).1
      rw [h2] at hin
      exact (P.get_spec hin h3).2 _ (hr _ (List.getElem_mem h))
  have hval : ∀ a ∈ specs.map Spec.attr, ∀ r (h : r < rows.length),
      (Grid.viewFromVisible src rows specs).cell a r = src.cell a rows[r] := by
    intro a ha r h
    obtain ⟨s, h1, _, _, h3⟩ := hcell a ha
    unfold Grid.cell at *
    simp only [h1, h3 r h]
  refine ⟨⟨?_, ?_, ?_, ?_⟩, hval⟩
  · simp [Grid.size, Grid.viewFromVisible, Grid.rowsOfList]
  · intro a ha
    obtain ⟨s, h1, h2, _, h3⟩ := hcell a ha
    refine ⟨s, h1, h2, ?_⟩
    intro r h
    rw [h3 r h, hval a ha r h]
  · intro o ho
    simp only [Grid.viewFromVisible, Grid.RowOrder, if_true, Option.getD_some, rowsOfList_keys] at ho
    exact ho
  · intro sp hsp
    refine ⟨by simp [Grid.viewFromVisible, Grid.mapPrep], ?_⟩
    intro r h
    simp only [Grid.viewFromVisible, Grid.rowVals, if_true, Option.getD_some, rowsOfList_get,
      List.getElem?_eq_getElem h]
    apply mapRes_of_ok
    intro s hsm
    obtain ⟨a, ha, hga⟩ := hsp s hsm
    obtain ⟨t, h1, h2, h3, h4⟩ := hcell a ha
    rw [h1, Res.ok.injEq] at hga
    subst hga
    have e := h4 r h
    simp only [Grid.viewFromVisible, Grid.get, rowsOfList_get, List.getElem?_eq_getElem h] at e
    rw [e, h2]
    have := hval a ha r h
    simp only [Grid.viewFromVisible] at this
    rw [this]

/-- A view of some attributes presents the same rows. -/
theorem attrs_presents {src : Grid} {n : Nat} (P : src.Presents n) (hd : src.distinct)
    {specs : List Spec} (hs : Resolved src specs) :
    (Grid.viewFromAttrs src specs).Presents n ∧
    ∀ a ∈ specs.map Spec.attr, ∀ r,
      (Grid.viewFromAttrs src specs).cell a r = src.cell a r := by
  have hcell : ∀ a ∈ specs.map Spec.attr, ∃ s, (Grid.viewFromAttrs src specs).getAttribute a
      = Res.ok s ∧ s.attr = a ∧ src.getAttribute a = Res.ok s ∧ a ∈ src.allAttributes := by
    intro a ha
    obtain ⟨s, hsm, h1, h2, h3⟩ := findSpec_spec hd hs ha
    refine ⟨s, ?_, h2, h3, h2 ▸ (hs s hsm).1⟩
    simp only [Grid.viewFromAttrs, Grid.getAttribute, h1]
  have hget : ∀ s r, (Grid.viewFromAttrs src specs).get s r = src.get s r := by
    intro s r; simp only [Grid.viewFromAttrs, Grid.get]
  have hval : ∀ a ∈ specs.map Spec.attr, ∀ r,
      (Grid.viewFromAttrs src specs).cell a r = src.cell a r := by
    intro a ha r
    obtain ⟨s, h1, _, h3, _⟩ := hcell a ha
    simp only [Grid.cell, h1, h3, hget]
  refine ⟨⟨?_, ?_, ?_, ?_⟩, hval⟩
  · simp only [Grid.size, Grid.viewFromAttrs]; exact P.rows
  · intro a ha
    obtain ⟨s, h1, h2, h3, h4⟩ := hcell a ha
    refine ⟨s, h1, h2, ?_⟩
    intro r h
    rw [hget, hval a ha r]
    exact (P.get_spec h4 h3).2 r h
  · intro o ho
    simp only [Grid.viewFromAttrs, Grid.RowOrder] at ho
    exact P.order o (by simpa using ho)
  · intro sp hsp
    have hsp' : ∀ s ∈ sp, s.attr ∈ specs.map Spec.attr ∧ ∃ a ∈ src.allAttributes,
        src.getAttribute a = Res.ok s := by
      intro s hsm
      obtain ⟨a, ha, hga⟩ := hsp s hsm
      obtain ⟨t, h1, h2, h3, h4⟩ := hcell a ha
      rw [h1, Res.ok.injEq] at hga
      subst hga
      exact ⟨h2 ▸ ha, a, h4, h3⟩
    obtain ⟨i1, i2⟩ := P.iter sp (fun s hsm => (hsp' s hsm).2)
    refine ⟨by simpa [Grid.viewFromAttrs, Grid.mapPrep] using i1, ?_⟩
    intro r h
    have : (Grid.viewFromAttrs src specs).rowVals sp r = src.rowVals sp r := by
      simp [Grid.viewFromAttrs, Grid.rowVals]
    rw [this, i2 r h]
    congr 1
    apply List.map_congr_left
    intro s hsm
    rw [hval s.attr (hsp' s hsm).1 r]

/-- Class attributes inherited by a view: those of the source that are in the view. -/
theorem classFromSrc_mem (attrs : Option (List Spec)) (cls : List Attr) (x : Attr) :
    x ∈ ((Grid.classFromSrc attrs cls).filter fun p => p.2).map Prod.fst ↔
      x ∈ cls ∧ ∀ specs, attrs = some specs → ∃ s ∈ specs, s.attr.equals x = true := by
  have key : ∀ (cls : List Attr) (m : GoMap Attr Bool), (m.map Prod.fst).Nodup →
      (∀ p ∈ m, p.2 = true) →
      let m' := cls.foldl (fun m a => if Grid.classMatched attrs a then m.set a true else m) m
      (m'.map Prod.fst).Nodup ∧ (∀ p ∈ m', p.2 = true) ∧
      ∀ x, x ∈ m'.map Prod.fst ↔ x ∈ m.map Prod.fst ∨ (x ∈ cls ∧
        ∀ specs, attrs = some specs → ∃ s ∈ specs, s.attr.equals x = true) := by
    intro cls
    induction cls with
    | nil => intro m h1 h2; exact ⟨h1, h2, by simp⟩
    | cons a as ih =>
      intro m h1 h2
      simp only [List.foldl_cons]
      have hbi : Grid.classMatched attrs a = true ↔
          ∀ specs, attrs = some specs → ∃ s ∈ specs, s.attr.equals a = true := by
        unfold Grid.classMatched
        cases attrs with
        | none => simp
        | some specs => simp
      cases hb : Grid.classMatched attrs a with
      | true =>
        simp only [if_true]
        have h2' : ∀ p ∈ m.set a true, p.2 = true := by
          intro p hp
          have hn := GoMap.nodup_set m a true h1
          have hg := (GoMap.get?_of_mem _ hn p.1 p.2).1 (by simpa using hp)
          rw [GoMap.get?_set] at hg
          split at hg
          · simpa using hg.symm
          · exact h2 (p.1, p.2) ((GoMap.get?_of_mem _ h1 p.1 p.2).2 hg)
        obtain ⟨i1, i2, i3⟩ := ih (m.set a true) (GoMap.nodup_set m a true h1) h2'
        refine ⟨i1, i2, ?_⟩
        intro x
        rw [i3 x, GoMap.mem_keys_set]
        have := hbi.1 hb
        constructor
        · rintro (h | h)
          · rcases h with h | h
            · subst h; exact Or.inr ⟨by simp, this⟩
            · exact Or.inl h
          · exact Or.inr ⟨by simp [h.1], h.2⟩
        · rintro (h | ⟨h, h'⟩)
          · exact Or.inl (Or.inr h)
          · rcases List.mem_cons.1 h with rfl | h
            · exact Or.inl (Or.inl rfl)
            · exact Or.inr ⟨h, h'⟩
      | false =>
        simp only [Bool.false_eq_true, if_false]
        obtain ⟨i1, i2, i3⟩ := ih m h1 h2
        refine ⟨i1, i2, ?_⟩
        intro x
        rw [i3 x]
        constructor
        · rintro (h | h)
          · exact Or.inl h
          · exact Or.inr ⟨by simp [h.1], h.2⟩
        · rintro (h | ⟨h, h'⟩)
          · exact Or.inl h
          · rcases List.mem_cons.1 h with rfl | h
            · rw [hbi.2 h'] at hb; cases hb
            · exact Or.inr ⟨h, h'⟩
  obtain ⟨_, k2, k3⟩ := key cls [] (by simp) (by simp)
  have hf : (Grid.classFromSrc attrs cls).filter (fun p => p.2) = Grid.classFromSrc attrs cls := by
    rw [List.filter_eq_self]
    exact k2
  rw [hf]
  rw [Grid.classFromSrc, k3 x]
  simp

/-- Reading an unmasked row view. -/
theorem rowsView_cell {src : Grid} {n : Nat} (P : src.Presents n) (m : GoMap Nat Nat) {a : Attr}
    (ha : a ∈ src.allAttributes) {r : Nat} (hr : (m.get? r).getD r < n) :
    (∃ s, (Grid.viewFromRows src m).getAttribute a = Res.ok s ∧ s.attr = a ∧
      (Grid.viewFromRows src m).get s r = Res.ok (src.cell a ((m.get? r).getD r))) ∧
    (Grid.viewFromRows src m).cell a r = src.cell a ((m.get? r).getD r) := by
  obtain ⟨s, h1, h2, h3⟩ := P.read a ha
  have hg : (Grid.viewFromRows src m).getAttribute a = Res.ok s := by
    simp only [Grid.viewFromRows, Grid.getAttribute, h1]
  have hget : (Grid.viewFromRows src m).get s r = Res.ok (src.cell a ((m.get? r).getD r)) := by
    simp only [Grid.viewFromRows, Grid.get]
    cases hm : m.get? r with
    | none => rw [hm] at hr; simpa using h3 r (by simpa using hr)
    | some q => rw [hm] at hr; simpa using h3 q (by simpa using hr)
  refine ⟨⟨s, hg, h2, hget⟩, ?_⟩
  unfold Grid.cell
  simp only [hg, hget]
  rfl

end Golearn
