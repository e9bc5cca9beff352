import Verif.Proofs.CartLoss

/-! # Fitting CART trees to data sets, and predicting -/

namespace Golearn

section
variable {K : Type} [Field K] [LinearOrder K] {Y : Type}

theorem grown_height {imp : List Y → K} {pick : List Y → Y → Prop} {w : Nat} (n : CNode K Y) (limit : Option Nat)
    (rows : LRows K Y) (h : n.Grown imp pick w limit rows) : ∀ d, limit = some d → n.height ≤ d := by
  induction n generalizing limit rows with
  | nil => intro d _; exact Nat.zero_le _
  | node l r t f a b nd ihl ihr =>
    intro d hd
    subst hd
    obtain ⟨h1, _, _, _, h5, h6⟩ := h
    have e1 := ihl _ _ h5 (d - 1) rfl
    have e2 := ihr _ _ h6 (d - 1) rfl
    have : d ≠ 0 := fun e => h1 (by rw [e])
    simp only [CNode.height]
    omega

/-- What a grown tree predicts: a label for the rows that take the same way. -/
theorem grown_predict {imp : List Y → K} {pick : List Y → Y → Prop} {w : Nat} (n : CNode K Y) (limit : Option Nat)
    (rows : LRows K Y) (hne : rows ≠ []) (h : n.Grown imp pick w limit rows) (x : List K) (hx : w ≤ x.length) :
    n.region x rows ≠ [] ∧ (n.region x rows).Sublist rows ∧
    ∃ o, predictNode n x = Res.ok o ∧ (n = .nil → o = none) ∧
      (n ≠ .nil → ∃ y, o = some y ∧ pick ((n.region x rows).map Prod.snd) y) := by
  induction n generalizing limit rows with
  | nil => exact ⟨hne, List.Sublist.refl _, none, rfl, fun _ => rfl, fun h => absurd rfl h⟩
  | node l r t f a b nd ihl ihr =>
    obtain ⟨_, ⟨hf, hs, _⟩, h3, h4, h5, h6⟩ := h
    have hv := colVal_get (f := f) (x := x) (by omega)
    simp only [CNode.region, predictNode, hv]
    by_cases hlt : colVal f x < t
    · simp only [hlt, if_true]
      obtain ⟨i1, i2, o, i3, i4, i5⟩ := ihl _ _ hs.1 h5
      refine ⟨i1, i2.trans List.filter_sublist, _, by rw [i3, Res.map_ok], fun h => (by cases h), fun _ => ⟨_, rfl, ?_⟩⟩
      by_cases hl : l = .nil
      · rw [i4 hl, hl]
        exact h3
      · obtain ⟨y, rfl, hy⟩ := i5 hl
        exact hy
    · simp only [hlt, if_false]
      obtain ⟨i1, i2, o, i3, i4, i5⟩ := ihr _ _ hs.2 h6
      refine ⟨i1, i2.trans List.filter_sublist, _, by rw [i3, Res.map_ok], fun h => (by cases h), fun _ => ⟨_, rfl, ?_⟩⟩
      by_cases hr : r = .nil
      · rw [i4 hr, hr]
        exact h4
      · obtain ⟨y, rfl, hy⟩ := i5 hr
        exact hy

/-- The rows are their columns and their labels. -/
theorem zip_rows (data : List (List K)) (y : List Y) (hlen : data.length = y.length) :
    (data.zip y).map Prod.fst = data ∧ (data.zip y).map Prod.snd = y :=
  ⟨List.map_fst_zip hlen.le, List.map_snd_zip hlen.ge⟩

theorem cartFit_spec [Zero Y] [IsStrictOrderedRing K] {e : CartEnv K Y} {imp : List Y → K} {pick : List Y → Y → Prop}
    {okY : Y → Prop} (hL : Computes e.loss imp pick okY) (hS : SortsIdx e.sortIdx) {w : Nat} (rows : LRows K Y)
    (hne : rows ≠ []) (hr : Rect w rows) (hok : ∀ p ∈ rows, okY p.2) :
    ∃ tree, cartFit e (rows.map Prod.fst) (rows.map Prod.snd) = Res.ok tree ∧
      (tree.ifNeeded.Grown imp pick w (depthLimit e.maxDepth) rows) ∧
      (tree.ifNeeded ≠ .nil → tree.ifNeeded = tree) ∧
      (tree.ifNeeded = .nil → ∃ a, tree = .node .nil .nil 0 0 a 0 false ∧
        if depthLimit e.maxDepth = some 0 then a = 0 else pick (rows.map Prod.snd) a) := by
  obtain ⟨l, r, t, f, a, b, nd, h1, h2, h3⟩ := bestSplit_spec hL hS (rows.length + 1) [] rows (by omega) hne hr hok
    (by simp) 0
  have hlim : limitAt e.maxDepth 0 = depthLimit e.maxDepth := by
    unfold limitAt depthLimit
    rw [sub_zero]
  rw [hlim] at h2 h3
  refine ⟨_, by unfold cartFit; rw [List.length_map]; exact h1, h2, ?_, ?_⟩
  · cases nd with
    | true => intro _; rfl
    | false => intro h; exact absurd rfl h
  · cases nd with
    | true => intro h; cases h
    | false =>
      intro _
      obtain ⟨rfl, rfl, rfl, rfl, rfl, h⟩ := h3 rfl
      exact ⟨a, rfl, h⟩
end

/-! ## From instances -/

section
variable {K : Type} [Field K] [LinearOrder K]

theorem nonClassFloats_mem {g : Grid} {a : Attr} (h : a ∈ g.nonClassFloats) : a ∈ g.allAttributes ∧ a.isFloat = true := by
  obtain ⟨h1, h2⟩ := List.mem_filter.1 h
  rw [Bool.and_eq_true] at h2
  exact ⟨h1, h2.1⟩

omit [LinearOrder K] in
theorem problemVec_spec {val : U64 → K} {srt : List Spec → List Spec} {order : List Nat} {g : Grid} {n : Nat}
    (P : g.Presents n) (T : g.typed n) (ho : g.RowOrder order) {fs : List Attr} (hfs : fs.Perm g.nonClassFloats)
    (hsp : ∀ sp : Attr → Spec, srt (g.nonClassFloats.map sp) = fs.map sp) :
    problemVec val srt order g = Res.ok ((List.range n).map (g.point val fs)) := by
  obtain ⟨sp, x1, x2⟩ := features_spec P T (num := g.nonClassFloats)
    (fun a ha => ⟨a, (nonClassFloats_mem ha).1, C28_equals_refl a, rfl⟩) (fun a ha => (nonClassFloats_mem ha).2)
  obtain ⟨x3, x4⟩ := x2 fs (fun a ha => hfs.subset ha)
  have o1 := P.order _ ho
  have hm := mapOver_all (g.rowVals (fs.map sp)) (fun r => fs.map fun a => g.cell a r) (problemCallback val)
    (fun m _ r => setRow m r (g.point val fs r)) order (fun r hr => (x4 r (List.mem_range.1 (o1.subset hr))).1)
    (by
      intro m r hr
      unfold problemCallback
      rw [(x4 r (List.mem_range.1 (o1.subset hr))).2 val, Res.map_ok]) (fun _ => [])
  unfold problemVec
  unfold Grid.resolve
  rw [x1, Res.map_ok, Res.bind_ok, hsp]
  unfold Grid.mapOverRows
  rw [x3, Res.bind_ok, hm]
  simp only [keepState, Res.map_ok, P.rows]
  congr 1
  apply List.map_congr_left
  intro r hr
  rw [setRow_foldl (fun r => g.point val fs r), if_pos (o1.symm.subset hr)]

theorem labelVec_spec {Y : Type} [Zero Y] {conv : U64 → Y} {srt : List Spec → List Spec} (hsrt : PositionSort srt)
    {order : List Nat} {g : Grid} {n : Nat} (P : g.Presents n) (T : g.typed n) (ho : g.RowOrder order) {cls : Attr}
    (hc : g.allClassAttributes = [cls]) (hcin : cls ∈ g.allAttributes) (hcf : cls.isFloat = true) :
    labelVec conv srt order g = Res.ok ((List.range n).map (g.number conv cls)) := by
  obtain ⟨fc, hfc, hspc⟩ := positionSort_attrs hsrt [cls]
  have hfc' : fc = [cls] := List.perm_singleton.1 hfc
  subst hfc'
  obtain ⟨spc, c1, c2⟩ := features_spec P T (num := [cls])
    (by intro a ha; rw [List.mem_singleton.1 ha]; exact ⟨cls, hcin, C28_equals_refl _, rfl⟩)
    (by intro a ha; rw [List.mem_singleton.1 ha]; exact hcf)
  obtain ⟨c3, c4⟩ := c2 [cls] (fun a ha => ha)
  have o1 := P.order _ ho
  have hm := mapOver_all (g.rowVals ([cls].map spc)) (fun r => [cls].map fun a => g.cell a r) (labelCallback conv)
    (fun m _ r => setRow m r (g.number conv cls r)) order (fun r hr => (c4 r (List.mem_range.1 (o1.subset hr))).1)
    (by
      intro m r hr
      simp only [List.map_cons, List.map_nil, labelCallback]
      obtain ⟨u, hu⟩ := unpack_typed T hcin hcf (List.mem_range.1 (o1.subset hr))
      rw [hu, Res.map_ok]
      unfold Grid.number
      rw [hu]) (fun _ => 0)
  unfold labelVec
  rw [hc]
  simp only [hcf, if_true]
  unfold Grid.resolve
  rw [c1, Res.map_ok, Res.bind_ok, hspc]
  unfold Grid.mapOverRows
  rw [c3, Res.bind_ok, hm]
  simp only [keepState, Res.map_ok, P.rows]
  congr 1
  apply List.map_congr_left
  intro r hr
  rw [setRow_foldl (fun r => g.number conv cls r), if_pos (o1.symm.subset hr)]

theorem labelled_fst {Y : Type} (g : Grid) (val : U64 → K) (fs : List Attr) (lab : Nat → Y) (n : Nat) :
    (g.labelled val fs lab n).map Prod.fst = (List.range n).map (g.point val fs) := by
  unfold Grid.labelled
  rw [List.map_map]
  rfl

theorem labelled_snd {Y : Type} (g : Grid) (val : U64 → K) (fs : List Attr) (lab : Nat → Y) (n : Nat) :
    (g.labelled val fs lab n).map Prod.snd = (List.range n).map lab := by
  unfold Grid.labelled
  rw [List.map_map]
  rfl

theorem labelled_rect {Y : Type} (g : Grid) (val : U64 → K) (fs : List Attr) (lab : Nat → Y) (n : Nat) :
    Rect fs.length (g.labelled val fs lab n) := by
  intro p hp
  obtain ⟨r, _, rfl⟩ := List.mem_map.1 hp
  simp [Grid.point]

/-- Fitting to a data set. -/
theorem cartFitGrid_spec {Y : Type} [Zero Y] [IsStrictOrderedRing K] {e : CartEnv K Y} {imp : List Y → K}
    {pick : List Y → Y → Prop} {okY : Y → Prop} (hL : Computes e.loss imp pick okY) (hS : SortsIdx e.sortIdx)
    {val : U64 → K} {conv : U64 → Y} {srt : List Spec → List Spec} (hsrt : PositionSort srt)
    {order order' : List Nat} {g : Grid} {n : Nat} (hn : n ≠ 0)
    (P : g.Presents n) (T : g.typed n) (ho : g.RowOrder order) (ho' : g.RowOrder order') {cls : Attr}
    (hc : g.allClassAttributes = [cls]) (hcin : cls ∈ g.allAttributes) (hcf : cls.isFloat = true)
    (hok : ∀ r, r < n → okY (g.number conv cls r)) {fs : List Attr} (hfs : fs.Perm g.nonClassFloats)
    (hsp : ∀ sp : Attr → Spec, srt (g.nonClassFloats.map sp) = fs.map sp) :
    ∃ tree, cartFitGrid e val conv srt order order' g = Res.ok tree ∧
      cartFit e ((g.labelled val fs (g.number conv cls) n).map Prod.fst)
        ((g.labelled val fs (g.number conv cls) n).map Prod.snd) = Res.ok tree := by
  obtain ⟨tree, h1, _⟩ := cartFit_spec hL hS (g.labelled val fs (g.number conv cls) n)
    (by
      unfold Grid.labelled
      intro h
      exact hn (by simpa using h))
    (labelled_rect g val fs _ n) (by
      intro p hp
      obtain ⟨r, hr, rfl⟩ := List.mem_map.1 hp
      exact hok r (List.mem_range.1 hr))
  refine ⟨tree, ?_, h1⟩
  unfold cartFitGrid
  rw [problemVec_spec P T ho hfs hsp, Res.bind_ok, labelVec_spec hsrt P T ho' hc hcin hcf, Res.bind_ok,
    ← labelled_fst (Y := Y) g val fs (g.number conv cls), ← labelled_snd g val fs (g.number conv cls)]
  exact h1
end

end Golearn
