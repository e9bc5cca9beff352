import Verif.Spec.Show
import Verif.Props.C01
import Verif.Props.C09
import Verif.Proofs.ChiTable
import Verif.Proofs.DenseTable
import Verif.Proofs.Mat

/-!
# C114: data sets print their attributes, class attributes and rows
-/

namespace Golearn

theorem join_lines {α : Type} (l : List α) (f : α → String) : String.join (l.map fun x => f x ++ "\n") = endLines (l.map f) := by
  unfold endLines
  rw [List.map_map]; rfl

/-- The lines of data show the first rows. -/
theorem dataLines_spec (fo : FloatOps) (get : Spec → Nat → Res Bytes) (cell : Attr → Nat → Bytes) (specs : List Spec) (k : Nat)
    (txt : Attr → Nat → String) (hget : ∀ s ∈ specs, ∀ r, r < k → get s r = Res.ok (cell s.attr r))
    (htxt : ∀ s ∈ specs, ∀ r, r < k → s.attr.getString fo (cell s.attr r) = Res.ok (txt s.attr r)) :
    (mapRes (dataLine fo get specs) (List.range k)).map String.join = Res.ok (endLines (listedRows (specs.map Spec.attr) txt k)) := by
  rw [mapRes_of_ok _ (fun r => "\t" ++ String.join ((specs.map Spec.attr).map fun a => txt a r ++ " ") ++ "\n"), Res.map_ok, join_lines]
  · rfl
  · intro r hr
    have hr := List.mem_range.1 hr
    unfold dataLine
    rw [mapRes_of_ok _ (fun s => txt s.attr r), Res.map_ok, List.map_map, List.map_map]
    · rfl
    · intro s hs
      rw [cellString, hget s hs r hr, Res.bind_ok, htxt s hs r hr]

theorem attrLines_spec (specs : List Spec) (star : Spec → Bool) (isClass : Attr → Bool) (h : ∀ s ∈ specs, star s = isClass s.attr) :
    attrLines (specs.map fun s => (s, star s)) = endLines (listedAttrs (specs.map Spec.attr) isClass) := by
  unfold attrLines listedAttrs
  rw [← join_lines, List.map_map, List.map_map]
  congr 1
  apply List.map_congr_left
  intro s hs
  simp only [Function.comp_apply, h s hs]
  split <;> rfl

theorem toText_spec (fo : FloatOps) (fname : Filter → String) (srt : List Spec → List Spec) (hsrt : ∀ l, (srt l).Perm l) (g : Grid) (n : Nat)
    (P : g.Presents n) (k : Nat) (hk : g.shownAtMost = k) (txt : Attr → Nat → String) (isClass : Attr → Bool)
    (htxt : ∀ a ∈ g.allAttributes, ∀ r, r < min k n → a.getString fo (g.cell a r) = Res.ok (txt a r))
    (hcl : ∀ s, s.attr ∈ g.allAttributes → g.getAttribute s.attr = Res.ok s → g.starred s = isClass s.attr) :
    ∃ as, as.Perm g.allAttributes ∧ ((∀ l, srt l = l) → as = g.allAttributes) ∧
      g.toText fo fname srt = Res.ok (g.heading fname ++ endLines (listedAttrs as isClass) ++ g.dataHeading ++
        endLines (listedRows as txt (min k n)) ++ g.ending n (min k n)) := by
  subst hk
  obtain ⟨specs, e1, ms, ws⟩ := resolveUnsorted_attrs P (as := g.allAttributes) fun a h => h
  have hmem : ∀ s ∈ srt specs, s.attr ∈ g.allAttributes ∧ g.getAttribute s.attr = Res.ok s :=
    fun s hs => ws s ((hsrt specs).mem_iff.1 hs)
  refine ⟨(srt specs).map Spec.attr, ms ▸ (hsrt specs).map _, fun h => by rw [h, ms], ?_⟩
  have hd := dataLines_spec fo g.get g.cell (srt specs) (min g.shownAtMost n) txt
    (fun s hs r hr => by
      obtain ⟨s', h1, -, h3⟩ := P.read s.attr (hmem s hs).1
      rw [(hmem s hs).2] at h1
      cases h1
      exact h3 r (by omega))
    (fun s hs r hr => htxt _ (hmem s hs).1 r hr)
  obtain ⟨lines, hl, hj⟩ := Res.map_eq_ok.1 hd
  unfold Grid.toText
  rw [Grid.resolve, e1, Res.map_ok, Res.bind_ok, P.rows, hl, Res.map_ok, hj,
    attrLines_spec (srt specs) g.starred isClass fun s hs => hcl s (hmem s hs).1 (hmem s hs).2]

/-- The number of rows that are not shown. -/
def leftText (n : Nat) : String :=
  if n ≤ 30 then "All rows displayed" else "\t...\n" ++ toString (n - 30) ++ " row(s) undisplayed"

theorem rowsLeft_eq (n : Nat) : rowsLeft n (min 30 n) = leftText n := by
  unfold rowsLeft leftText
  by_cases h : n ≤ 30
  · rw [if_pos h, if_neg (by omega)]
  · rw [if_neg h, if_pos (by omega)]
    congr 3
    omega

theorem flag_mem {m : GoMap Attr Bool} (hn : (m.map Prod.fst).Nodup) (a : Attr) :
    Grid.flag m a = decide (a ∈ (m.filter fun p => p.2).map Prod.fst) := by
  unfold Grid.flag
  have : (m.get? a).getD false = true ↔ a ∈ (m.filter fun p => p.2).map Prod.fst := by
    constructor
    · intro h
      cases hg : m.get? a with
      | none => rw [hg] at h; cases h
      | some b =>
        rw [hg] at h
        have hb : b = true := h
        subst hb
        exact List.mem_map.2 ⟨(a, true), List.mem_filter.2 ⟨(GoMap.get?_of_mem _ hn _ _).2 hg, rfl⟩, rfl⟩
    · intro h
      obtain ⟨⟨b, v⟩, h1, rfl⟩ := List.mem_map.1 h
      obtain ⟨h1, h2⟩ := List.mem_filter.1 h1
      have hv : v = true := h2
      subst hv
      rw [(GoMap.get?_of_mem _ hn _ _).1 h1]; rfl
  rw [Bool.eq_iff_iff, this, decide_eq_true_iff]

/-- `String` of a data set that any history of calls has made: the numbers of rows and attributes, a line for each attribute with a star
in front of the class attributes, a line for each of the first thirty rows with the texts of its cells, and how many rows are left. -/
theorem C114_dense_partial (fo : FloatOps) (fname : Filter → String) (srt : List Spec → List Spec) (hsrt : ∀ l, (srt l).Perm l) (pg : Nat) (ops : List Op)
    (st : St) (hb : ∀ op ∈ ops, basicOp op = true) (hrun : run pg ops = Res.ok st)
    (hd : (addedAttrs ops).Pairwise (fun a b => a.equals b = false)) (txt : Attr → Nat → String)
    (htxt : ∀ a ∈ st.d.allAttributes, ∀ r, r < min 30 (totalRows ops) → a.getString fo ((Grid.dense st.d).cell a r) = Res.ok (txt a r)) :
    ∃ as, as.Perm st.d.allAttributes ∧ ((∀ l, srt l = l) → as = st.d.allAttributes) ∧
      (Grid.dense st.d).toText fo fname srt = Res.ok
        ("Instances with " ++ toString (totalRows ops) ++ " row(s) " ++ toString as.length ++ " attribute(s)\nAttributes: \n" ++
          endLines (listedAttrs as fun a => decide (a ∈ st.d.allClassAttributes)) ++ "\nData:\n" ++
          endLines (listedRows as txt (min 30 (totalRows ops))) ++ leftText (totalRows ops)) := by
  have D := denseOK_run hb hrun hd
  have P := D.presents
  have C := run_class pg ops st hb hrun hd
  have K := (C09_class_attributes pg ops st hb hrun hd).1
  obtain ⟨I, _, _⟩ := run_inv pg ops st (basic_noLate hb) hrun
  obtain ⟨as, h1, h2, h3⟩ := toText_spec fo fname srt hsrt (.dense st.d) (totalRows ops) P 30 rfl txt (fun a => decide (a ∈ st.d.allClassAttributes)) htxt
    (by
      intro s hs hg
      obtain ⟨t, ht, -, hth⟩ := dense_lookup I D.1 hs
      have : t = s := by
        have hg : st.d.getAttribute s.attr = Res.ok s := hg
        rw [hg] at ht; cases ht; rfl
      subst this
      have hv := C.val t hth
      rw [← K] at hv
      show (st.d.classAttrs.get? t).getD false = _
      by_cases h : t.attr ∈ st.d.allClassAttributes
      · rw [hv.2 h, decide_eq_true h]; rfl
      · rw [decide_eq_false h]
        cases hc : st.d.classAttrs.get? t with
        | none => rfl
        | some b =>
          cases b
          · rfl
          · exact absurd (hv.1 hc) h)
  refine ⟨as, h1, h2, h3.trans ?_⟩
  clear h3
  have hrows : st.d.maxRow = totalRows ops := P.rows
  have hcols : st.d.size.1 = as.length := h1.length_eq.symm
  have e1 : (Grid.dense st.d).heading fname =
      "Instances with " ++ toString (totalRows ops) ++ " row(s) " ++ toString as.length ++ " attribute(s)\nAttributes: \n" := by
    rw [← hrows, ← hcols]; rfl
  have e2 : (Grid.dense st.d).dataHeading = "\nData:\n" := rfl
  have e3 : ∀ a b, (Grid.dense st.d).ending a b = rowsLeft a b := fun _ _ => rfl
  rw [e1, e2, e3, rowsLeft_eq]

/-- `String` of a view. -/
theorem C114_view_partial (fo : FloatOps) (fname : Filter → String) (srt : List Spec → List Spec) (hsrt : ∀ l, (srt l).Perm l) (src : Grid)
    (attrs : Option (List Spec)) (rows : Option (GoMap Nat Nat)) (cls : GoMap Attr Bool) (mask : Bool) (n : Nat) (g : Grid)
    (hg : g = .view src attrs rows cls mask) (P : g.Presents n) (hn : (cls.map Prod.fst).Nodup) (txt : Attr → Nat → String)
    (htxt : ∀ a ∈ g.allAttributes, ∀ r, r < min 30 n → a.getString fo (g.cell a r) = Res.ok (txt a r)) :
    ∃ as, as.Perm g.allAttributes ∧ ((∀ l, srt l = l) → as = g.allAttributes) ∧
      g.toText fo fname srt = Res.ok
        ("InstancesView with " ++ toString n ++ " row(s) " ++ toString g.size.1 ++ " attribute(s)\n" ++
          (if attrs = none then "" else "With defined Attribute view\n") ++ (if rows = none then "" else "With defined Row view\n") ++
          (if mask then "Row masking on.\n" else "") ++ "Attributes:\n" ++
          endLines (listedAttrs as fun a => decide (a ∈ g.allClassAttributes)) ++ "Data:" ++
          endLines (listedRows as txt (min 30 n)) ++ leftText n) := by
  obtain ⟨as, h1, h2, h3⟩ := toText_spec fo fname srt hsrt g n P 30 (by rw [hg]; rfl) txt (fun a => decide (a ∈ g.allClassAttributes)) htxt
    (by
      intro s _ _
      rw [hg]
      exact flag_mem hn s.attr)
  refine ⟨as, h1, h2, h3.trans ?_⟩
  clear h3
  have hr := P.rows
  have e1 : g.heading fname = "InstancesView with " ++ toString n ++ " row(s) " ++ toString g.size.1 ++ " attribute(s)\n" ++
      (if attrs = none then "" else "With defined Attribute view\n") ++ (if rows = none then "" else "With defined Row view\n") ++
      (if mask then "Row masking on.\n" else "") ++ "Attributes:\n" := by
    rw [← hr, hg]
    cases attrs <;> cases rows <;> rfl
  have e2 : g.dataHeading = "Data:" := by rw [hg]; rfl
  have e3 : ∀ a b, g.ending a b = rowsLeft a b := by rw [hg]; intros; rfl
  rw [e1, e2, e3, rowsLeft_eq]

/-- `String` of a lazily filtered data set: only five rows are shown, without saying how many there are. -/
theorem C114_filtered_partial (fo : FloatOps) (fname : Filter → String) (srt : List Spec → List Spec) (hsrt : ∀ l, (srt l).Perm l) (f : Filter) (src : Grid)
    (cls unf : GoMap Attr Bool) (n : Nat) (g : Grid) (hg : g = .filt f src cls unf) (P : g.Presents n) (hn : (cls.map Prod.fst).Nodup)
    (txt : Attr → Nat → String) (htxt : ∀ a ∈ g.allAttributes, ∀ r, r < min 5 n → a.getString fo (g.cell a r) = Res.ok (txt a r)) :
    ∃ as, as.Perm g.allAttributes ∧ ((∀ l, srt l = l) → as = g.allAttributes) ∧
      g.toText fo fname srt = Res.ok
        ("Lazily filtered instances using " ++ fname f ++ "\nAttributes: \n" ++
          endLines (listedAttrs as fun a => decide (a ∈ g.allClassAttributes)) ++ "\nData:\n" ++ endLines (listedRows as txt (min 5 n))) := by
  obtain ⟨as, h1, h2, h3⟩ := toText_spec fo fname srt hsrt g n P 5 (by rw [hg]; rfl) txt (fun a => decide (a ∈ g.allClassAttributes)) htxt
    (by
      intro s _ _
      rw [hg]
      exact flag_mem hn s.attr)
  refine ⟨as, h1, h2, h3.trans ?_⟩
  clear h3
  have e1 : g.heading fname = "Lazily filtered instances using " ++ fname f ++ "\nAttributes: \n" := by rw [hg]; rfl
  have e2 : g.dataHeading = "\nData:\n" := by rw [hg]; rfl
  have e3 : ∀ a b, g.ending a b = "" := by rw [hg]; intros; rfl
  rw [e1, e2, e3, String.append_empty]

theorem intercalate_flatten (ls : List (List String)) (h : ∀ l ∈ ls, l ≠ []) :
    " ".intercalate (ls.map fun l => " ".intercalate l) = " ".intercalate ls.flatten := by
  induction ls with
  | nil => rfl
  | cons l ls ih =>
    have ih := ih fun x hx => h x (List.mem_cons_of_mem _ hx)
    by_cases hl : ls = []
    · subst hl
      simp only [List.map_cons, List.map_nil, String.intercalate_singleton, List.flatten_cons, List.flatten_nil, List.append_nil]
    · have hf : ls.flatten ≠ [] := by
        obtain ⟨x, xs, rfl⟩ := List.exists_cons_of_ne_nil hl
        have := h x (by simp)
        simp [this]
      rw [List.map_cons, String.intercalate_cons_of_ne_nil (by simpa using hl), ih, List.flatten_cons,
        String.intercalate_append_of_ne_nil (h l (by simp)) hf]

theorem group_rowString {rows : Nat} {W : Nat → Nat → Option Bytes} {st : St} (I : Inv rows W st) (D : DenseOK rows st.d) (fo : FloatOps)
    (txt : Attr → Nat → String) (r : Nat) (hr : r < rows)
    (htxt : ∀ a ∈ st.d.allAttributes, a.getString fo ((Grid.dense st.d).cell a r) = Res.ok (txt a r)) (p : Group) (hp : p ∈ st.d.ags) :
    p.rowString fo r = Res.ok (" ".intercalate (p.attrs.map fun a => txt a r)) := by
  obtain ⟨id, hid⟩ := List.mem_iff_getElem?.1 hp
  unfold Group.rowString
  rw [mapRes_of_ok _ (fun q : Attr × Nat => txt q.1 r), Res.map_ok]
  · have : (p.attrs.zipIdx.map fun q : Attr × Nat => txt q.1 r) = p.attrs.map fun a => txt a r := by
      rw [← List.zipIdx_map_fst 0 p.attrs, List.map_map, List.zipIdx_map_fst]
      rfl
    rw [this]
  · rintro ⟨a, i⟩ hq
    have ha : p.attrs[i]? = some a := by
      have := List.mem_zipIdx_iff_getElem?.1 hq
      simpa using this
    obtain ⟨h, hh⟩ := I.complete id p i a hid ha
    obtain ⟨h1, h2⟩ := dense_handle_attr I D.1 (List.mem_of_getElem? hh)
    obtain ⟨s', e1, -, e3⟩ := D.presents.read a h1
    rw [show (Grid.dense st.d).getAttribute a = Res.ok (⟨some id, i, a⟩ : Spec) from h2] at e1
    cases e1
    have e4 : st.d.get ⟨some id, i, a⟩ r = _ := e3 r hr
    have : st.d.get ⟨some id, i, a⟩ r = p.get i r := by simp only [Dense.get, hid]
    rw [← this, e4, Res.bind_ok]
    exact htxt a h1

/-- `RowString` of a data set without groups that have no attribute: the texts of the cells of the row with a space in between. -/
theorem C114_row_dense_partial (fo : FloatOps) (srt : List Spec → List Spec) (pg : Nat) (ops : List Op) (st : St) (hb : ∀ op ∈ ops, basicOp op = true)
    (hrun : run pg ops = Res.ok st) (hd : (addedAttrs ops).Pairwise (fun a b => a.equals b = false)) (hne : ∀ p ∈ st.d.ags, p.attrs ≠ [])
    (txt : Attr → Nat → String) (r : Nat) (hr : r < totalRows ops)
    (htxt : ∀ a ∈ st.d.allAttributes, a.getString fo ((Grid.dense st.d).cell a r) = Res.ok (txt a r)) :
    (Grid.dense st.d).rowString fo srt r = Res.ok (rowText st.d.allAttributes txt r) := by
  have D := denseOK_run hb hrun hd
  obtain ⟨I, _, _⟩ := run_inv pg ops st (basic_noLate hb) hrun
  show (mapRes (fun p : Group => p.rowString fo r) st.d.ags).map _ = _
  rw [mapRes_of_ok _ _ _ fun p hp => group_rowString I D fo txt r hr htxt p hp, Res.map_ok]
  have := intercalate_flatten (st.d.ags.map fun p => p.attrs.map fun a => txt a r) (by
    intro l hl
    obtain ⟨p, hp, rfl⟩ := List.mem_map.1 hl
    simpa using hne p hp)
  rw [List.map_map] at this
  refine (congrArg Res.ok this).trans ?_
  unfold rowText Dense.allAttributes
  rw [List.flatMap, List.map_flatten, List.map_map]
  rfl

/-- `RowString` of a view or of a lazily filtered data set. -/
theorem C114_row_partial (fo : FloatOps) (srt : List Spec → List Spec) (hsrt : ∀ l, (srt l).Perm l) (g : Grid) (n : Nat) (hg : ∀ d, g ≠ .dense d)
    (P : g.Presents n) (txt : Attr → Nat → String) (r : Nat) (hr : r < n)
    (htxt : ∀ a ∈ g.allAttributes, a.getString fo (g.cell a r) = Res.ok (txt a r)) :
    ∃ as, as.Perm g.allAttributes ∧ ((∀ l, srt l = l) → as = g.allAttributes) ∧ g.rowString fo srt r = Res.ok (rowText as txt r) := by
  obtain ⟨specs, e1, ms, ws⟩ := resolveUnsorted_attrs P (as := g.allAttributes) fun a h => h
  have hmem : ∀ s ∈ srt specs, s.attr ∈ g.allAttributes ∧ g.getAttribute s.attr = Res.ok s :=
    fun s hs => ws s ((hsrt specs).mem_iff.1 hs)
  refine ⟨(srt specs).map Spec.attr, ms ▸ (hsrt specs).map _, fun h => by rw [h, ms], ?_⟩
  have e : g.rowString fo srt r =
      (g.resolve srt g.allAttributes).bind fun specs => (mapRes (cellString fo g.get r) specs).map fun ts => " ".intercalate ts := by
    cases g with
    | dense d => exact absurd rfl (hg d)
    | view => rfl
    | filt => rfl
  rw [e, Grid.resolve, e1, Res.map_ok, Res.bind_ok, mapRes_of_ok _ (fun s => txt s.attr r), Res.map_ok]
  · unfold rowText
    rw [List.map_map]
    rfl
  · intro s hs
    obtain ⟨s', h1, -, h3⟩ := P.read s.attr (hmem s hs).1
    rw [(hmem s hs).2] at h1
    cases h1
    rw [cellString, h3 r hr, Res.bind_ok, htxt _ (hmem s hs).1]

theorem matOps_data (ops : List MatOp) (m : MatInst) : (ops.foldl MatOp.apply m).data = m.data ∧ (ops.foldl MatOp.apply m).rows = m.rows := by
  induction ops generalizing m with
  | nil => exact ⟨rfl, rfl⟩
  | cons op ops ih =>
    rw [List.foldl_cons]
    have h : (MatOp.apply m op).data = m.data ∧ (MatOp.apply m op).rows = m.rows := by
      cases op with
      | addClass a =>
        simp only [MatOp.apply, MatInst.addClassAttribute]
        cases m.getAttribute a <;> exact ⟨rfl, rfl⟩
      | removeClass a =>
        simp only [MatOp.apply, MatInst.removeClassAttribute]
        cases m.getAttribute a <;> exact ⟨rfl, rfl⟩
    exact ⟨(ih _).1.trans h.1, (ih _).2.trans h.2⟩

/-- `String` of instances over a matrix after any calls, when the sort keeps the order. -/
theorem C114_mat_partial (fo : FloatOps) (srt : List Spec → List Spec) (hsrt : ∀ l, srt l = l) (fresh : Nat → Nat) (rows cols : Nat) (data : List (List U64))
    (hfit : MatFits rows cols data) (ops : List MatOp) (isClass : Nat → Bool)
    (hcl : ∀ i, i < cols → (isClass i = true ↔ matDesignated ops ⟨fresh i, .float (toString i) 2⟩)) :
    (ops.foldl MatOp.apply (MatInst.new fresh rows cols data)).toText fo srt = Res.ok
      ("Instances with " ++ toString rows ++ " row(s) " ++ toString cols ++ " attribute(s)\nAttributes: \n" ++
        endLines ((List.range cols).map fun i => (if isClass i then "*" else "") ++ "\t" ++ ("FloatAttribute(" ++ toString i ++ ")")) ++ "\nData:\n" ++
        endLines ((List.range (min 30 rows)).map fun r =>
          "\t" ++ String.join ((List.range cols).map fun i => fo.fmt 2 (matEntry data r i) ++ " ")) ++ leftText rows) := by
  obtain ⟨h1, h2, h3, h4⟩ := MatInst.class_inv fresh rows cols data ops
  obtain ⟨g1, g2⟩ := matOps_data ops (MatInst.new fresh rows cols data)
  generalize ops.foldl MatOp.apply (MatInst.new fresh rows cols data) = m at *
  have g1 : m.data = data := g1
  have g2 : m.rows = rows := g2
  let sp : Nat → Spec := fun i => ⟨some 0, i, ⟨fresh i, .float (toString i) 2⟩⟩
  have hat : m.attributes = (List.range cols).map fun i => ⟨fresh i, .float (toString i) 2⟩ := h1
  have hres : m.resolveAll srt = Res.ok ((List.range cols).map sp) := by
    unfold MatInst.resolveAll
    have : mapRes (fun a => (m.getAttribute a).orPanic) m.attributes = Res.ok ((List.range cols).map sp) := by
      rw [mapRes_eq_ok, hat, List.forall₂_map_left_iff, List.forall₂_map_right_iff, List.forall₂_same]
      intro i hi
      unfold MatInst.getAttribute
      rw [h1, MatInst.find_new fresh rows cols data _ i (List.mem_range.1 hi) 2 rfl]
      rfl
    rw [this, Res.map_ok, hsrt]
  have hget : ∀ r i, r < rows → i < cols → m.get (sp i) r = Res.ok (packFloatBits (matEntry data r i)) := by
    intro r i hr hi
    have hr' : r < data.length := by have := hfit.1; omega
    have hl := hfit.2 data[r] (List.getElem_mem _)
    have hi' : i < data[r].length := by omega
    have : m.at? r i = Res.ok (matEntry data r i) := by
      have e1 : m.data[r]? = some data[r] := by rw [g1]; simp [hr']
      simp only [MatInst.at?, e1, matEntry, List.getD_eq_getElem?_getD, List.getElem?_eq_getElem hr', List.getElem?_eq_getElem hi', Option.getD_some]
    unfold MatInst.get
    simp only [sp, this, Res.map_ok]
  have hline : ∀ r, r < rows → dataLine fo m.get ((List.range cols).map sp) r =
      Res.ok (("\t" ++ String.join ((List.range cols).map fun i => fo.fmt 2 (matEntry data r i) ++ " ")) ++ "\n") := by
    intro r hr
    unfold dataLine
    have : mapRes (cellString fo m.get r) ((List.range cols).map sp) = Res.ok ((List.range cols).map fun i => fo.fmt 2 (matEntry data r i)) := by
      rw [mapRes_eq_ok, List.forall₂_map_left_iff, List.forall₂_map_right_iff, List.forall₂_same]
      intro i hi
      rw [cellString, hget r i hr (List.mem_range.1 hi), Res.bind_ok]
      show (unpackFloatBits _).map (fo.fmt 2) = _
      rw [show unpackFloatBits (packFloatBits (matEntry data r i)) = Res.ok (matEntry data r i) from C01_unpack_pack _]
      rfl
    rw [this, Res.map_ok, List.map_map]
    rfl
  have hlines := mapRes_of_ok _ _ (List.range (min 30 rows)) fun r hr => hline r (by have := List.mem_range.1 hr; omega)
  have hattr : attrLines (((List.range cols).map sp).zipIdx.map fun p => (p.1, (m.classAttrs.get? p.2).getD false)) =
      endLines ((List.range cols).map fun i => (if isClass i then "*" else "") ++ "\t" ++ ("FloatAttribute(" ++ toString i ++ ")")) := by
    unfold attrLines
    rw [← join_lines]
    congr 1
    rw [List.map_map]
    apply List.ext_getElem
    · simp
    · intro i hi hj
      have hi : i < cols := by simpa using hj
      have hc : (m.classAttrs.get? i).getD false = isClass i := by
        rw [Bool.eq_iff_iff, hcl i hi, ← h4 i hi]
        cases m.classAttrs.get? i with
        | none => simp
        | some b => simp
      simp only [List.getElem_map, List.getElem_zipIdx, Function.comp_apply, List.getElem_range, Nat.zero_add, hc]
      cases isClass i <;> rfl
  unfold MatInst.toText
  rw [hres, Res.bind_ok, g2, hlines, Res.map_ok, hattr, join_lines, rowsLeft_eq, hat, List.length_map, List.length_range]

namespace C114

def x : Attr := ⟨1, .float "x" 2⟩
def c : Attr := ⟨2, .cat "c" ["lo", "hi"]⟩
def c' : Attr := ⟨3, .cat "c" ["lo", "hi"]⟩
def fo : FloatOps := ⟨fun _ u => if u = 0 then "0.00" else "1.00", fun _ _ => false⟩
def ops : List Op := [.add x, .add c, .addClass c, .extend 2, .set 0 1 (packFloatBits 1), .set 1 0 (packU64 1)]
def emptyGroup : List Op := [.add x, .create "spare" 8, .add c, .extend 1]
def dense (l : List Op) : Dense := match run 4096 l with | .ok st => st.d | _ => Dense.new
def cls (g : Grid) (a : Attr) : Grid := match g.addClassAttribute a with | .ok g' => g' | _ => g

end C114

open C114 in
/-- The hypotheses are met, and the text is the expected one. -/
theorem C114_witness :
    (∃ st, run 4096 ops = Res.ok st ∧ (addedAttrs ops).Pairwise (fun a b => a.equals b = false) ∧ (∀ p ∈ st.d.ags, p.attrs ≠ []) ∧
      ∀ a ∈ st.d.allAttributes, ∀ r, r < 2 → (a.getString fo ((Grid.dense st.d).cell a r)).isOk = true) ∧
    (Grid.dense (dense ops)).toText fo (fun _ => "") id = Res.ok
      "Instances with 2 row(s) 2 attribute(s)\nAttributes: \n\tFloatAttribute(x)\n*\tCategoricalAttribute(\"c\", [lo hi])\n\nData:\n\t0.00 hi \n\t1.00 lo \nAll rows displayed" ∧
    (Grid.dense (dense ops)).rowString fo id 0 = Res.ok "0.00 hi" := by
  refine ⟨⟨_, rfl, by decide, by decide +kernel, by decide +kernel⟩, by decide +kernel, by decide +kernel⟩

open C114 in
/-- What the code does not keep. A class attribute that a view was given through an equal attribute has no star. In a view the first row stands
on the line of the heading. A group without attributes leaves two spaces in a row string. The row string of a matrix is its number. When the
sort changes the order, the stars of a matrix stand at other columns. -/
theorem C114_refuted :
    ((cls (.view (.dense (dense ops)) none none [] false) c').allClassAttributes = [c'] ∧ c'.equals c = true ∧
      (cls (.view (.dense (dense ops)) none none [] false) c').toText fo (fun _ => "") id = Res.ok
        "InstancesView with 2 row(s) 2 attribute(s)\nAttributes:\n\tFloatAttribute(x)\n\tCategoricalAttribute(\"c\", [lo hi])\nData:\t0.00 hi \n\t1.00 lo \nAll rows displayed") ∧
    (Grid.dense (dense emptyGroup)).rowString fo id 0 = Res.ok "0.00  lo" ∧
    (MatInst.new id 1 2 [[0, 1]]).rowString 0 = "0" ∧
    (MatOp.apply (MatInst.new id 1 2 [[0, 1]]) (.addClass ⟨9, .float "0" 2⟩)).toText fo List.reverse = Res.ok
      "Instances with 1 row(s) 2 attribute(s)\nAttributes: \n*\tFloatAttribute(1)\n\tFloatAttribute(0)\n\nData:\n\t1.00 0.00 \nAll rows displayed" := by
  refine ⟨⟨by decide +kernel, by decide +kernel, by decide +kernel⟩, by decide +kernel, by decide +kernel, by decide +kernel⟩

open C114 in
/-- A categorical attribute that has no category yet cannot be printed: `String` panics as soon as there is a row. -/
theorem C114_no_category :
    (Grid.dense (dense [.add ⟨5, .cat "c" []⟩, .extend 1])).toText fo (fun _ => "") id = Res.panic ∧
    (Grid.dense (dense [.add ⟨5, .cat "c" []⟩, .extend 1])).rowString fo id 0 = Res.panic := by
  decide +kernel

end Golearn
