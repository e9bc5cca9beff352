import Verif.Proofs.Copy
import Verif.Props.C03

/-! # Dense grids seen as tables, and how writes change them -/

namespace Golearn

/-- A dense grid reached by client calls, with pairwise different attributes kept in their default
storage. -/
def DenseOK (rows : Nat) (d : Dense) : Prop :=
  (Grid.dense d).distinct ∧ ∃ W hs, Inv rows W ⟨d, hs⟩ ∧
    ∀ (h : Nat) (s : Spec), hs[h]? = some s → kindOf d s = some (defaultKind s.attr)

theorem denseOK_run {pg : Nat} {ops : List Op} {st : St} (hb : ∀ op ∈ ops, basicOp op = true)
    (hrun : run pg ops = Res.ok st)
    (hd : (addedAttrs ops).Pairwise (fun a b => a.equals b = false)) :
    DenseOK (totalRows ops) st.d := by
  obtain ⟨I, _, _⟩ := run_inv pg ops st (basic_noLate hb) hrun
  obtain ⟨B, hat⟩ := run_basic pg ops st hb hrun
  exact ⟨distinct_perm (hat ▸ I.listed.symm) hd, _, _, I, B.stored⟩

theorem DenseOK.presents {rows : Nat} {d : Dense} (D : DenseOK rows d) :
    (Grid.dense d).Presents rows := by
  obtain ⟨hd, W, hs, I, _⟩ := D
  exact dense_presents I hd

theorem DenseOK.typed {rows : Nat} {d : Dense} (D : DenseOK rows d) :
    (Grid.dense d).typed rows := by
  obtain ⟨hd, W, hs, I, B⟩ := D
  intro a ha r hr
  obtain ⟨s, h1, h2, h3⟩ := dense_lookup I hd ha
  have hc := dense_cell I hd h3 hr
  rw [h2] at hc
  obtain ⟨h, hh, hhs⟩ := List.getElem_of_mem h3
  have hk := B h s (by rw [List.getElem?_eq_getElem hh, hhs])
  rw [h2] at hk
  unfold kindOf at hk
  unfold Dense.get at hc
  cases hp : s.pond with
  | none => rw [hp] at hk; cases hk
  | some id =>
    rw [hp] at hk
    simp only [hp] at hc
    cases hg : d.ags[id]? with
    | none => rw [Option.bind_some, hg] at hk; cases hk
    | some g =>
      simp only [Option.bind_some, hg, Option.map_some, Option.some.injEq] at hk
      simp only [hg] at hc
      exact group_get_wellFormed hk hc

theorem findInGroups_congr (q : Attr) (gs gs' : List Group) (b : Nat)
    (h : gs.map Group.attrs = gs'.map Group.attrs) :
    Dense.findInGroups q gs b = Dense.findInGroups q gs' b := by
  induction gs generalizing gs' b with
  | nil => cases gs' with
    | nil => rfl
    | cons _ _ => simp at h
  | cons x xs ih =>
    cases gs' with
    | nil => simp at h
    | cons y ys =>
      simp only [List.map_cons, List.cons.injEq] at h
      simp only [Dense.findInGroups, h.1, ih ys (b + 1) h.2]

theorem dense_set_lookup {d d' : Dense} {s : Spec} {row : Nat} {v : Bytes}
    (h : d.set s row v = Res.ok d') (a : Attr) : d'.getAttribute a = d.getAttribute a := by
  unfold Dense.set at h
  split at h
  · cases h
  · rename_i id hid
    split at h
    · cases h
    · rename_i g hg
      rw [Res.map_eq_ok] at h
      obtain ⟨g', h1, h2⟩ := h
      subst h2
      unfold Dense.getAttribute
      rw [findInGroups_congr a (d.ags.set id g') d.ags 0]
      apply List.ext_getElem?
      intro i
      simp only [List.getElem?_map]
      have hidl : id < d.ags.length := (List.getElem?_eq_some_iff.1 hg).1
      by_cases hi : id = i
      · subst hi
        rw [List.getElem?_set_self hidl, hg]
        simp [(Group.set_frame h1).2.1]
      · rw [List.getElem?_set_ne hi]

/-- Writing a well-formed value to a cell of a dense grid: it succeeds and changes that cell only. -/
theorem DenseOK.set {rows : Nat} {d : Dense} (D : DenseOK rows d) {a : Attr}
    (ha : a ∈ d.allAttributes) {s : Spec} (hs : d.getAttribute a = Res.ok s) {r : Nat}
    (hr : r < rows) {v : Bytes} (hv : wellFormed a v) :
    ∃ d', d.set s r v = Res.ok d' ∧ DenseOK rows d' ∧ d'.allAttributes = d.allAttributes ∧
      d'.classAttrs = d.classAttrs ∧ (∀ b, d'.getAttribute b = d.getAttribute b) ∧
      d'.fixed = d.fixed ∧
      ∀ b ∈ d.allAttributes, ∀ q, q < rows →
        (Grid.dense d').cell b q = if b = a ∧ q = r then v else (Grid.dense d).cell b q := by
  obtain ⟨hd, W, hs', I, B⟩ := D
  obtain ⟨t, h1, h2, h3⟩ := dense_lookup I hd ha
  rw [hs, Res.ok.injEq] at h1
  subst h1
  obtain ⟨h, hh, hhs⟩ := List.getElem_of_mem h3
  have hgt : hs'[h]? = some s := by rw [List.getElem?_eq_getElem hh, hhs]
  have hk := B h s hgt
  rw [h2] at hk
  obtain ⟨d', hset⟩ := set_total I hgt hk hr (wellFormed_acceptable hv)
  obtain ⟨_, I'⟩ := I.set hgt hset
  have hfr := C03_set_frame d d' s r v hset
  have hd' : (Grid.dense d').distinct := by
    simp only [Grid.distinct, Grid.allAttributes, hfr.2.1]; exact hd
  have hcls : d'.classAttrs = d.classAttrs ∧ d'.fixed = d.fixed := by
    obtain ⟨_, _, _, _, _, _, _, _, _, e⟩ := dense_set_ok I hgt hset
    rw [e]; exact ⟨rfl, rfl⟩
  refine ⟨d', hset, ⟨hd', _, _, I', ?_⟩, hfr.2.1, hcls.1, dense_set_lookup hset, hcls.2, ?_⟩
  · intro h' s' hs''
    rw [kindOf_set hset]
    exact B h' s' hs''
  · intro b hb q hq
    obtain ⟨t, g1, g2, g3⟩ := dense_lookup I hd hb
    obtain ⟨k, hkl, hkt⟩ := List.getElem_of_mem g3
    have hkt' : hs'[k]? = some t := by rw [List.getElem?_eq_getElem hkl, hkt]
    have hc := dense_cell I hd g3 hq
    have hc' := dense_cell I' hd' g3 hq
    rw [g2] at hc hc'
    obtain ⟨kd, c1, c2⟩ := I.cells k t q hkt' hq
    obtain ⟨kd', c1', c2'⟩ := I'.cells k t q hkt' hq
    rw [kindOf_set hset, c1] at c1'
    have := Option.some.inj c1'
    subst this
    have hbk := B k t hkt'
    rw [c1, Option.some.injEq] at hbk
    subst hbk
    simp only [updW] at c2'
    simp only at hc hc' c2 c2'
    rw [hc] at c2
    rw [hc'] at c2'
    by_cases hcond : b = a ∧ q = r
    · obtain ⟨rfl, rfl⟩ := hcond
      have : t = s := by
        rw [hs, Res.ok.injEq] at g1
        exact g1.symm
      subst this
      have hkh : h = k := I.inj h k t t hgt hkt' rfl rfl
      rw [if_pos ⟨hkh, rfl⟩] at c2'
      rw [if_pos ⟨rfl, rfl⟩, Res.ok.inj c2', g2]
      exact wellFormed_cellValue hv
    · rw [if_neg hcond]
      have : ¬ (h = k ∧ r = q) := by
        rintro ⟨rfl, rfl⟩
        rw [hgt, Option.some.injEq] at hkt'
        exact hcond ⟨by rw [← g2, ← hkt', h2], rfl⟩
      rw [if_neg this] at c2'
      rw [Res.ok.inj c2', Res.ok.inj c2]

end Golearn
