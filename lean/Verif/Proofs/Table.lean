import Verif.Spec.Table
import Verif.Proofs.Grid
import Verif.Proofs.ClassAttrs

namespace Golearn

theorem distinct_eq {l : List Attr} (hd : l.Pairwise (fun a b => a.equals b = false)) {a b : Attr}
    (ha : a ∈ l) (hb : b ∈ l) (he : a.equals b = true) : a = b := by
  obtain ⟨i, hi, rfl⟩ := List.getElem_of_mem ha
  obtain ⟨j, hj, rfl⟩ := List.getElem_of_mem hb
  rw [List.pairwise_iff_getElem] at hd
  rcases Nat.lt_trichotomy i j with h | h | h
  · rw [hd i j hi hj h] at he; cases he
  · subst h; rfl
  · have := hd j i hj hi h
    rw [C28_equals_symm _ _ he] at this; cases this

theorem distinct_perm {l l' : List Attr} (hp : l.Perm l')
    (hd : l.Pairwise (fun a b => a.equals b = false)) :
    l'.Pairwise (fun a b => a.equals b = false) := by
  refine hp.pairwise hd ?_
  intro a b h
  cases hb : b.equals a with
  | false => rfl
  | true => rw [C28_equals_symm _ _ hb] at h; cases h

theorem distinct_nodup {l : List Attr} (hd : l.Pairwise (fun a b => a.equals b = false)) :
    l.Nodup := by
  rw [List.nodup_iff_pairwise_ne]
  refine hd.imp ?_
  rintro a b h rfl
  rw [C28_equals_refl] at h; cases h

/-- In a dense grid with pairwise different attributes, each attribute resolves to its own
specification. -/
theorem dense_lookup {rows : Nat} {W : Nat → Nat → Option Bytes} {st : St} (I : Inv rows W st)
    (hd : (Grid.dense st.d).distinct) {a : Attr} (ha : a ∈ st.d.allAttributes) :
    ∃ s, st.d.getAttribute a = Res.ok s ∧ s.attr = a ∧ s ∈ st.handles := by
  have h := findInGroups_spec a st.d.ags 0
  unfold Dense.getAttribute
  cases hf : Dense.findInGroups a st.d.ags 0 with
  | none =>
    rw [hf] at h
    have := List.find?_eq_none.1 h a ha
    rw [C28_equals_refl] at this
    exact absurd rfl this
  | some t =>
    rw [hf] at h
    obtain ⟨i, g, e1, e2, e3, e4, e5⟩ := h
    obtain ⟨k, hk⟩ := I.complete i g t.position t.attr e2 e3
    have : (⟨some i, t.position, t.attr⟩ : Spec) = t := by
      rw [Nat.zero_add] at e1
      rw [← e1]
    rw [this] at hk
    exact ⟨t, rfl, distinct_eq hd (List.mem_of_find?_eq_some e5) ha e4, List.mem_of_getElem? hk⟩

theorem dense_handle_attr {rows : Nat} {W : Nat → Nat → Option Bytes} {st : St} (I : Inv rows W st)
    (hd : (Grid.dense st.d).distinct) {s : Spec} (hs : s ∈ st.handles) :
    s.attr ∈ st.d.allAttributes ∧ st.d.getAttribute s.attr = Res.ok s := by
  have hin : s.attr ∈ st.d.allAttributes := I.listed.symm.subset (List.mem_map.2 ⟨s, hs, rfl⟩)
  refine ⟨hin, ?_⟩
  obtain ⟨t, ht, hta, hth⟩ := dense_lookup I hd hin
  have hp : (st.handles.map Spec.attr).Pairwise (fun a b => a.equals b = false) :=
    distinct_perm I.listed hd
  rw [List.pairwise_map, List.pairwise_iff_getElem] at hp
  obtain ⟨i, hi, rfl⟩ := List.getElem_of_mem hs
  obtain ⟨j, hj, rfl⟩ := List.getElem_of_mem hth
  rw [ht]
  rcases Nat.lt_trichotomy i j with h | h | h
  · have := hp i j hi hj h
    rw [hta, C28_equals_refl] at this; cases this
  · subst h; rfl
  · have := hp j i hj hi h
    rw [hta, C28_equals_refl] at this; cases this

theorem dense_cell {rows : Nat} {W : Nat → Nat → Option Bytes} {st : St} (I : Inv rows W st)
    (hd : (Grid.dense st.d).distinct) {s : Spec} (hs : s ∈ st.handles) {r : Nat} (hr : r < rows) :
    st.d.get s r = Res.ok ((Grid.dense st.d).cell s.attr r) := by
  obtain ⟨h, hh, hhs⟩ := List.getElem_of_mem hs
  obtain ⟨k, _, hg⟩ := I.cells h s r (by rw [List.getElem?_eq_getElem hh, hhs]) hr
  simp only [Grid.cell, Grid.getAttribute, Grid.get, (dense_handle_attr I hd hs).2, hg]

theorem dense_presents {rows : Nat} {W : Nat → Nat → Option Bytes} {st : St} (I : Inv rows W st)
    (hd : (Grid.dense st.d).distinct) : (Grid.dense st.d).Presents rows where
  rows := I.hrows
  read := by
    intro a ha
    obtain ⟨s, h1, h2, h3⟩ := dense_lookup I hd ha
    refine ⟨s, h1, h2, ?_⟩
    intro r hr
    have := dense_cell I hd h3 hr
    rw [h2] at this
    exact this
  order := by
    intro o ho
    simp only [Grid.RowOrder] at ho
    rw [ho, I.hrows]
  iter := by
    intro specs hs
    refine ⟨rfl, ?_⟩
    intro r hr
    simp only [Grid.rowVals]
    apply mapRes_of_ok
    intro s hsm
    obtain ⟨a, ha, hg⟩ := hs s hsm
    obtain ⟨t, h1, h2, h3⟩ := dense_lookup I hd ha
    simp only [Grid.getAttribute] at hg
    rw [h1, Res.ok.injEq] at hg
    subst hg
    exact dense_cell I hd h3 hr

/-- A grid that presents its rows reads the same cell for a row whichever way it is reached. -/
theorem Grid.Presents.get_spec {g : Grid} {n : Nat} (P : g.Presents n) {a : Attr} {s : Spec}
    (ha : a ∈ g.allAttributes) (hs : g.getAttribute a = Res.ok s) :
    s.attr = a ∧ ∀ r, r < n → g.get s r = Res.ok (g.cell a r) := by
  obtain ⟨t, h1, h2, h3⟩ := P.read a ha
  rw [hs, Res.ok.injEq] at h1
  subst h1
  exact ⟨h2, h3⟩

/-- Resolving attributes of the grid gives one specification for each, in some order. -/
theorem Grid.Presents.resolves {g : Grid} {n : Nat} (P : g.Presents n) {attrs : List Attr}
    (ha : ∀ a ∈ attrs, a ∈ g.allAttributes) {specs : List Spec} (hr : g.Resolves attrs specs) :
    (specs.map Spec.attr).Perm attrs ∧
    ∀ s ∈ specs, s.attr ∈ g.allAttributes ∧ g.getAttribute s.attr = Res.ok s := by
  obtain ⟨l, hl, hp⟩ := hr
  have key : ∀ (as : List Attr), (∀ a ∈ as, a ∈ g.allAttributes) → ∀ l : List Spec,
      g.resolveUnsorted as = Res.ok l →
      l.map Spec.attr = as ∧ ∀ s ∈ l, s.attr ∈ g.allAttributes ∧ g.getAttribute s.attr = Res.ok s := by
    intro as
    induction as with
    | nil =>
      intro _ l h
      simp only [resolveUnsorted, mapRes, Res.ok.injEq] at h
      subst h; simp
    | cons a as ih =>
      intro ha l h
      obtain ⟨s, h1, h2, _⟩ := P.read a (ha a (by simp))
      simp only [resolveUnsorted, mapRes, h1, Res.bind_ok, Res.bind_eq_ok] at h
      obtain ⟨l', hl', h⟩ := h
      simp only [Res.ok.injEq] at h
      subst h
      obtain ⟨i1, i2⟩ := ih (fun b hb => ha b (by simp [hb])) l' hl'
      refine ⟨by simp [h2, i1], ?_⟩
      intro t ht
      rcases List.mem_cons.1 ht with rfl | ht
      · rw [h2]; exact ⟨ha a (by simp), h1⟩
      · exact i2 t ht
  obtain ⟨k1, k2⟩ := key attrs ha l hl
  refine ⟨?_, fun s hs => k2 s (hp.subset hs)⟩
  rw [← k1]
  exact hp.map _

theorem Grid.Presents.resolve_total {g : Grid} {n : Nat} (P : g.Presents n) {attrs : List Attr}
    (ha : ∀ a ∈ attrs, a ∈ g.allAttributes) : ∃ specs, g.resolveUnsorted attrs = Res.ok specs := by
  induction attrs with
  | nil => exact ⟨[], rfl⟩
  | cons a as ih =>
    obtain ⟨s, h1, _, _⟩ := P.read a (ha a (by simp))
    obtain ⟨l, hl⟩ := ih (fun b hb => ha b (by simp [hb]))
    refine ⟨s :: l, ?_⟩
    simp only [Grid.resolveUnsorted] at hl
    simp [Grid.resolveUnsorted, mapRes, h1, hl]

end Golearn
