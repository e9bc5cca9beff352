import Verif.Props.C50
import Verif.Props.C89

/-! # Trees grown on a sample with replacement

A sample shows the rows that were drawn when its cells are read, and the rows of the original data when it is iterated
over. Its twin shows the drawn rows both ways. -/

namespace Golearn

/-! ## Grids that agree when cells are read -/

/-- Two grids that look the same unless they are iterated over. -/
structure Twin (v w : Grid) (n : Nat) : Prop where
  size : v.size = w.size
  attrs : v.allAttributes = w.allAttributes
  cls : v.allClassAttributes = w.allClassAttributes
  find : ∀ a, v.getAttribute a = w.getAttribute a
  get : ∀ s r, r < n → v.get s r = w.get s r

theorem Twin.cell {v w : Grid} {n : Nat} (T : Twin v w n) (a : Attr) {r : Nat} (hr : r < n) : v.cell a r = w.cell a r := by
  unfold Grid.cell
  rw [T.find a]
  cases w.getAttribute a with
  | ok s => simp only [T.get s r hr]
  | err => rfl
  | panic => rfl

theorem Twin.getClass {v w : Grid} {n : Nat} (T : Twin v w n) (fo : FloatOps) {r : Nat} (hr : r < n) :
    getClass fo v r = getClass fo w r := by
  unfold Golearn.getClass
  rw [T.cls]
  cases w.allClassAttributes with
  | nil => rfl
  | cons a as =>
    cases as with
    | nil =>
      simp only [T.find a]
      cases (w.getAttribute a).orPanic with
      | ok s => simp only [Res.bind_ok, T.get s r hr]
      | err => rfl
      | panic => rfl
    | cons b bs => rfl

theorem Twin.dist {v w : Grid} {n : Nat} (T : Twin v w n) (hn : w.size.2 = n) (fo : FloatOps) :
    getClassDistribution fo v = getClassDistribution fo w := by
  unfold getClassDistribution
  rw [T.size, hn]
  have : ∀ (rows : List Nat), (∀ r ∈ rows, r < n) → ∀ m, classDistLoop fo v rows m = classDistLoop fo w rows m := by
    intro rows
    induction rows with
    | nil => intro _ m; rfl
    | cons r rs ih =>
      intro h m
      simp only [classDistLoop, T.getClass fo (h r (by simp))]
      cases Golearn.getClass fo w r with
      | ok c => simp only [Res.bind_ok]; exact ih (fun q hq => h q (by simp [hq])) _
      | err => rfl
      | panic => rfl
  exact this _ (fun r hr => List.mem_range.1 hr) _

theorem Twin.after {v w : Grid} {n : Nat} (T : Twin v w n) (hn : w.size.2 = n) (fo : FloatOps) (a : Attr) :
    distAfterSplit fo v a = distAfterSplit fo w a := by
  unfold distAfterSplit
  rw [T.size, hn, T.find a]
  cases (w.getAttribute a).orPanic with
  | err => rfl
  | panic => rfl
  | ok s =>
    simp only [Res.bind_ok]
    have : ∀ (rows : List Nat), (∀ r ∈ rows, r < n) → ∀ m,
        splitLoop fo v s (a.getString fo) rows m = splitLoop fo w s (a.getString fo) rows m := by
      intro rows
      induction rows with
      | nil => intro _ m; rfl
      | cons r rs ih =>
        intro h m
        have hr := h r (by simp)
        simp only [splitLoop, T.getClass fo hr, T.get s r hr]
        have := ih (fun q hq => h q (by simp [hq]))
        simp only [this]
    exact this _ (fun r hr => List.mem_range.1 hr) _

/-- Views of the same rows of twins present the same table. -/
theorem twin_visible {fo : FloatOps} {v w : Grid} {n m : Nat} (T : Twin v w n) {rows : List Nat} (hr : ∀ r ∈ rows, r < n)
    {specs : List Spec} {lab : Nat → String} {cls : Attr} (D : TreeData fo (Grid.viewFromVisible w rows specs) m lab cls) :
    TreeData fo (Grid.viewFromVisible v rows specs) m lab cls ∧
    ∀ a r, (Grid.viewFromVisible v rows specs).cell a r = (Grid.viewFromVisible w rows specs).cell a r := by
  have hget : ∀ s r, (Grid.viewFromVisible v rows specs).get s r = (Grid.viewFromVisible w rows specs).get s r := by
    intro s r
    simp only [Grid.viewFromVisible, Grid.get, rowsOfList_get]
    cases h : rows[r]? with
    | none => rfl
    | some q => simp only [T.get s q (hr q (List.mem_of_getElem? h))]
  have hfind : ∀ a, (Grid.viewFromVisible v rows specs).getAttribute a =
      (Grid.viewFromVisible w rows specs).getAttribute a := fun a => rfl
  have hcell : ∀ a r, (Grid.viewFromVisible v rows specs).cell a r = (Grid.viewFromVisible w rows specs).cell a r := by
    intro a r
    unfold Grid.cell
    rw [hfind a]
    simp only [hget]
  have hvals : ∀ sp r, (Grid.viewFromVisible v rows specs).rowVals sp r = (Grid.viewFromVisible w rows specs).rowVals sp r := by
    intro sp r
    simp only [Grid.viewFromVisible, Grid.rowVals, if_true, Option.getD_some, rowsOfList_get]
    cases h : rows[r]? with
    | none => rfl
    | some q =>
      simp only
      apply mapRes_congr
      intro s _
      exact T.get s q (hr q (List.mem_of_getElem? h))
  have hatt : (Grid.viewFromVisible v rows specs).allAttributes = (Grid.viewFromVisible w rows specs).allAttributes := rfl
  have hsize : (Grid.viewFromVisible v rows specs).size = (Grid.viewFromVisible w rows specs).size := by
    simp only [Grid.viewFromVisible, Grid.size, if_true]
  refine ⟨⟨⟨by rw [hsize]; exact D.rows.rows, ?_, ?_, ?_⟩, by rw [Grid.distinct, hatt]; exact D.distinct, ?_, ?_, D.nonempty,
    by rw [hsize, hatt]; exact D.width, by rw [hatt]; exact D.wide, ?_, by rw [hatt]; exact D.classIn, ?_⟩, hcell⟩
  · intro a ha
    obtain ⟨s, h1, h2, h3⟩ := D.rows.read a ha
    exact ⟨s, h1, h2, fun r hr' => by rw [hget, hcell]; exact h3 r hr'⟩
  · intro o ho; exact D.rows.order o ho
  · intro sp hsp
    obtain ⟨i1, i2⟩ := D.rows.iter sp hsp
    refine ⟨by simp [Grid.viewFromVisible, Grid.mapPrep], ?_⟩
    intro r hr'
    rw [hvals, i2 r hr']
    congr 1
    exact List.map_congr_left fun s _ => (hcell _ _).symm
  · intro a ha r hr'; rw [hcell]; exact D.typed a ha r hr'
  · intro a ha r hr'; rw [hcell]; exact D.readable a ha r hr'
  · have : (Grid.viewFromVisible v rows specs).allClassAttributes = (Grid.viewFromVisible w rows specs).allClassAttributes := by
      show ((Grid.classFromSrc (some specs) v.allClassAttributes).filter fun p => p.2).map Prod.fst =
        ((Grid.classFromSrc (some specs) w.allClassAttributes).filter fun p => p.2).map Prod.fst
      rw [T.cls]
    rw [this]; exact D.classAttr
  · intro r hr'; rw [hcell]; exact D.label r hr'

/-- A view of some rows and attributes of training data, with the class attribute, is training data. -/
theorem treeData_rows {fo : FloatOps} {g : Grid} {n : Nat} {lab : Nat → String} {cls : Attr} (D : TreeData fo g n lab cls)
    {specs : List Spec} (hs : Resolved g specs) (hd : (specs.map Spec.attr).Pairwise fun a b => a.equals b = false)
    (hcls : cls ∈ specs.map Spec.attr) (hw : 2 ≤ specs.length) {rows : List Nat} (hr : ∀ r ∈ rows, r < n) (hne : rows ≠ []) :
    TreeData fo (Grid.viewFromVisible g rows specs) rows.length (fun i => lab (rows.getD i 0)) cls ∧
    ∀ b ∈ specs.map Spec.attr, ∀ i (h : i < rows.length), (Grid.viewFromVisible g rows specs).cell b i = g.cell b rows[i] := by
  obtain ⟨V1, V2⟩ := visible_presents D.rows D.distinct hs hr
  have hsub : ∀ b ∈ specs.map Spec.attr, b ∈ g.allAttributes := by
    intro b hb
    obtain ⟨s, h, rfl⟩ := List.mem_map.1 hb
    exact (hs s h).1
  refine ⟨⟨V1, hd, ?_, ?_, List.length_pos_of_ne_nil hne, ?_, ?_, ?_, hcls, ?_⟩, V2⟩
  · intro b hb i hi
    rw [V2 b hb i hi]
    exact D.typed b (hsub b hb) _ (hr _ (List.getElem_mem hi))
  · intro b hb i hi
    rw [V2 b hb i hi]
    exact D.readable b (hsub b hb) _ (hr _ (List.getElem_mem hi))
  · simp [Grid.size, Grid.viewFromVisible, Grid.allAttributes]
  · simpa [Grid.viewFromVisible, Grid.allAttributes] using hw
  · have hm : Grid.classMatched (some specs) cls = true := by
      obtain ⟨s, hsm, rfl⟩ := List.mem_map.1 hcls
      simp only [Grid.classMatched, List.any_eq_true]
      exact ⟨s, hsm, C28_equals_refl _⟩
    show ((Grid.classFromSrc (some specs) g.allClassAttributes).filter fun p => p.2).map Prod.fst = [cls]
    rw [D.classAttr]
    simp [Grid.classFromSrc, hm, GoMap.set]
  · intro i hi
    rw [V2 cls hcls i hi]
    have : rows.getD i 0 = rows[i] := by simp [List.getD, hi]
    simp only [this]
    exact D.label _ (hr _ (List.getElem_mem hi))

/-! ## Samples -/

/-- The sample with replacement of the rows `rows`, with the attributes of `specs`. -/
def sampleView (g : Grid) (n : Nat) (rows : Nat → Nat) (specs : List Spec) : Grid :=
  Grid.viewFromAttrs (Grid.viewFromRows g ((List.range n).foldl (fun m i => GoMap.set m i (rows i)) ([] : GoMap Nat Nat))) specs

theorem sample_twin {g : Grid} {n : Nat} {cls : Attr} (hn : g.size.2 = n) (hcls : g.allClassAttributes = [cls])
    (rows : Nat → Nat) (specs : List Spec) :
    Twin (sampleView g n rows specs) (Grid.viewFromVisible g ((List.range n).map rows) specs) n := by
  have hlen := (sampleRows_len rows n).1
  refine ⟨?_, rfl, ?_, fun _ => rfl, ?_⟩
  · simp [sampleView, Grid.viewFromVisible, Grid.viewFromAttrs, Grid.viewFromRows, Grid.size, hn, hlen, Grid.rowsOfList]
  · have h : ∀ m, (Grid.viewFromRows g m).allClassAttributes = [cls] := by
      intro m
      show ((Grid.classFromSrc none g.allClassAttributes).filter fun p => p.2).map Prod.fst = [cls]
      rw [hcls]; rfl
    show ((Grid.classFromSrc (some specs) (Grid.viewFromRows g _).allClassAttributes).filter fun p => p.2).map Prod.fst =
      ((Grid.classFromSrc (some specs) g.allClassAttributes).filter fun p => p.2).map Prod.fst
    rw [h, hcls]
  · intro s r hr
    have h1 := sampleRows_get rows n r
    rw [if_pos hr] at h1
    have h2 : GoMap.get? (Grid.rowsOfList ((List.range n).map rows)) r = some (rows r) := by
      rw [rowsOfList_get]; simp [hr]
    simp only [sampleView, Grid.viewFromAttrs, Grid.viewFromRows, Grid.viewFromVisible, Grid.get, h1, h2]

theorem sample_vals (g : Grid) (n : Nat) (rows : Nat → Nat) (specs sp : List Spec) (r : Nat) :
    (sampleView g n rows specs).rowVals sp r = g.rowVals sp r := by
  simp [sampleView, Grid.viewFromAttrs, Grid.viewFromRows, Grid.rowVals]

theorem sample_prep (g : Grid) (n : Nat) (rows : Nat → Nat) (specs sp : List Spec) :
    (sampleView g n rows specs).mapPrep sp = g.mapPrep sp := by
  simp [sampleView, Grid.viewFromAttrs, Grid.viewFromRows, Grid.mapPrep]

theorem sample_order (g : Grid) (n : Nat) (rows : Nat → Nat) (specs : List Spec) (o : List Nat) :
    (sampleView g n rows specs).RowOrder o ↔ g.RowOrder o := by
  simp [sampleView, Grid.viewFromAttrs, Grid.viewFromRows, Grid.RowOrder]

end Golearn
