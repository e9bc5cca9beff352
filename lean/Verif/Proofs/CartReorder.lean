import Verif.Proofs.CartGrid
import Verif.Proofs.Reorder

/-! # CART trees of the same rows in another order -/

namespace Golearn

/-- Two computations end in the same way, with related results. -/
def Res.Both {α β : Type} (R : α → β → Prop) : Res α → Res β → Prop
  | .ok a, .ok b => R a b
  | .err, .err => True
  | .panic, .panic => True
  | _, _ => False

theorem Res.both_bind {α β α' β' : Type} {R : α → β → Prop} {S : α' → β' → Prop} {x : Res α} {y : Res β} {f : α → Res α'}
    {g : β → Res β'} (h : Res.Both R x y) (hfg : ∀ a b, R a b → Res.Both S (f a) (g b)) :
    Res.Both S (x.bind f) (y.bind g) := by
  cases x <;> cases y <;> first | exact h.elim | exact trivial | exact hfg _ _ h

theorem Res.both_refl {α : Type} {R : α → α → Prop} (h : ∀ a, R a a) (x : Res α) : Res.Both R x x := by
  cases x <;> first | exact trivial | exact h _

theorem Res.both_eq {α : Type} {x y : Res α} (h : Res.Both (· = ·) x y) : x = y := by
  cases x <;> cases y <;> first | exact h.elim | rfl | exact congrArg _ h

section
variable {K : Type} [Field K] [LinearOrder K] {Y : Type}

theorem sortedUnique_perm {v v' : List K} (h : v.Perm v') : sortedUnique v = sortedUnique v' := by
  obtain ⟨a1, a2⟩ := sortedUnique_spec v
  obtain ⟨b1, b2⟩ := sortedUnique_spec v'
  have n1 : (sortedUnique v).Nodup := a1.imp fun h => h.ne
  have n2 : (sortedUnique v').Nodup := b1.imp fun h => h.ne
  have hp : (sortedUnique v).Perm (sortedUnique v') :=
    (List.perm_ext_iff_of_nodup n1 n2).2 fun x => by rw [a2, b2, h.mem_iff]
  exact hp.eq_of_pairwise (fun a b _ _ h1 h2 => absurd (h1.trans h2) (lt_irrefl _)) a1 b1

/-- Two splits of the rows in two orders. -/
def SameSplit (w : Nat) (s s' : Split K Y) : Prop :=
  ∃ L L' R R' : LRows K Y, s = ⟨L.map Prod.fst, R.map Prod.fst, L.map Prod.snd, R.map Prod.snd⟩ ∧
    s' = ⟨L'.map Prod.fst, R'.map Prod.fst, L'.map Prod.snd, R'.map Prod.snd⟩ ∧ L.Perm L' ∧ R.Perm R' ∧ Rect w L ∧ Rect w R

/-- The same best split, of the rows in two orders. -/
def SameBest (w : Nat) (b b' : CartBest K Y) : Prop :=
  b'.loss = b.loss ∧ b'.thr = b.thr ∧ b'.feat = b.feat ∧ b'.leftLabel = b.leftLabel ∧ b'.rightLabel = b.rightLabel ∧
    b'.leftLoss = b.leftLoss ∧ b'.rightLoss = b.rightLoss ∧ SameSplit w b.split b'.split

variable [Zero Y]

theorem thrLoop_same {loss : Loss K Y} (hperm : ∀ y y', y.Perm y' → loss y = loss y') {w f : Nat} (hf : f < w)
    {rows rows' : LRows K Y} (hr : Rect w rows) (hp : rows.Perm rows') (hs : SortedBy f rows) (hs' : SortedBy f rows')
    (num : Nat) (tried : List (Nat × K)) (ts : List K) (hts : ts.Pairwise (· ≤ ·)) (hsep : ∀ t ∈ ts, Separates f t rows)
    (cur cur' : Option (Split K Y))
    (hcur : cur = none ∧ cur' = none ∨
      ∃ t0, cur = some (splitOf f t0 rows) ∧ cur' = some (splitOf f t0 rows') ∧ ∀ t ∈ ts, t0 ≤ t)
    (b b' : CartBest K Y) (hb : SameBest w b b') :
    Res.Both (SameBest w) (thrLoop loss num tried f (rows.map Prod.fst) (rows.map Prod.snd) ts cur b)
      (thrLoop loss num tried f (rows'.map Prod.fst) (rows'.map Prod.snd) ts cur' b') := by
  induction ts generalizing cur cur' b b' with
  | nil => exact hb
  | cons t ts ih =>
    obtain ⟨hts1, hts2⟩ := List.pairwise_cons.1 hts
    have hst := hsep t (by simp)
    have hst' := separates_perm hp.symm hst
    have hr' : Rect w rows' := fun p h => hr p (hp.mem_iff.2 h)
    have hsep' : ∀ t ∈ ts, Separates f t rows := fun t h => hsep t (by simp [h])
    have e1 : nextSplit cur (rows.map Prod.fst) f (rows.map Prod.snd) t = Res.ok (splitOf f t rows) := by
      rcases hcur with ⟨rfl, _⟩ | ⟨t0, rfl, _, h0⟩
      · exact createSplit_spec t rows (rect_hasCol hf hr)
      · exact updateSplit_spec (h0 t (by simp)) rows (rect_hasCol hf hr) hs (separates_iff.1 hst).2
    have e2 : nextSplit cur' (rows'.map Prod.fst) f (rows'.map Prod.snd) t = Res.ok (splitOf f t rows') := by
      rcases hcur with ⟨_, rfl⟩ | ⟨t0, _, rfl, h0⟩
      · exact createSplit_spec t rows' (rect_hasCol hf hr')
      · exact updateSplit_spec (h0 t (by simp)) rows' (rect_hasCol hf hr') hs' (separates_iff.1 hst').2
    have pl : (lefts f t rows).Perm (lefts f t rows') := lefts_perm hp
    have pr : (rights f t rows).Perm (rights f t rows') := rights_perm hp
    have l1 : lossOr0 loss ((lefts f t rows').map Prod.snd) = lossOr0 loss ((lefts f t rows).map Prod.snd) := by
      unfold lossOr0; rw [hperm _ _ (pl.map Prod.snd)]
    have l2 : lossOr0 loss ((rights f t rows').map Prod.snd) = lossOr0 loss ((rights f t rows).map Prod.snd) := by
      unfold lossOr0; rw [hperm _ _ (pr.map Prod.snd)]
    rw [thrLoop, thrLoop]
    by_cases hv : validate tried f t = true
    · rw [if_pos hv, if_pos hv, e1, e2, Res.bind_ok, Res.bind_ok]
      simp only [splitOf, l1, l2, List.length_map, pl.length_eq, pr.length_eq]
      refine Res.both_bind (Res.both_refl (R := (· = ·)) (fun _ => rfl) _) ?_
      rintro l _ rfl
      refine Res.both_bind (Res.both_refl (R := (· = ·)) (fun _ => rfl) _) ?_
      rintro r _ rfl
      refine ih hts2 hsep' _ _ (Or.inr ⟨t, rfl, rfl, hts1⟩) _ _ ?_
      rw [hb.1]
      split
      · exact ⟨rfl, rfl, rfl, rfl, rfl, rfl, rfl, _, _, _, _, rfl, rfl, pl, pr,
          fun p h => hr p (List.mem_filter.1 h).1, fun p h => hr p (List.mem_filter.1 h).1⟩
      · exact hb
    · rw [if_neg hv, if_neg hv]
      refine ih hts2 hsep' _ _ ?_ _ _ hb
      rcases hcur with h | ⟨t0, h1, h2, h3⟩
      · exact Or.inl h
      · exact Or.inr ⟨t0, h1, h2, fun t h => h3 t (by simp [h])⟩

theorem featLoop_same [IsStrictOrderedRing K] {loss : Loss K Y} (hperm : ∀ y y', y.Perm y' → loss y = loss y')
    {s s' : List K → List Nat} (hs : SortsIdx s) (hs' : SortsIdx s') {w : Nat} {rows rows' : LRows K Y} (hr : Rect w rows)
    (hp : rows.Perm rows') (tried : List (Nat × K)) (fs : List Nat) (hfs : ∀ f ∈ fs, f < w) (b b' : CartBest K Y)
    (hb : SameBest w b b') :
    Res.Both (SameBest w) (featLoop loss s tried (rows.map Prod.fst) (rows.map Prod.snd) fs b)
      (featLoop loss s' tried (rows'.map Prod.fst) (rows'.map Prod.snd) fs b') := by
  induction fs generalizing b b' with
  | nil => exact hb
  | cons f fs ih =>
    have hf := hfs f (by simp)
    have hr' : Rect w rows' := fun p h => hr p (hp.mem_iff.2 h)
    obtain ⟨q, q1, q2, q3⟩ := reorder_spec (f := f) (w := w) hs rows
    obtain ⟨q', q1', q2', q3'⟩ := reorder_spec (f := f) (w := w) hs' rows'
    have hvals : (rows.map fun p => colVal f p.1).Perm (rows'.map fun p => colVal f p.1) := hp.map _
    rw [featLoop, featLoop, getFeature_spec hf rows hr, getFeature_spec hf rows' hr', Res.bind_ok, Res.bind_ok, q3, q3',
      Res.bind_ok, Res.bind_ok, ← sortedUnique_perm hvals]
    simp only [List.length_map, ← hp.length_eq]
    obtain ⟨u1, u2⟩ := sortedUnique_spec (rows.map fun p => colVal f p.1)
    refine Res.both_bind (thrLoop_same hperm hf (fun p h => hr p (q1.mem_iff.1 h)) (q1.trans (hp.trans q1'.symm)) q2 q2' _ _
      _ (midpoints_sorted _ u1) ?_ none none (Or.inl ⟨rfl, rfl⟩) b b' hb) ?_
    · intro t ht
      apply separates_perm q1
      obtain ⟨x, hx, z, hz, h1, h2⟩ := midpoints_mem _ u1 t ht
      obtain ⟨p, hp1, rfl⟩ := List.mem_map.1 ((u2 x).1 hx)
      obtain ⟨p', hp1', rfl⟩ := List.mem_map.1 ((u2 z).1 hz)
      exact separates_iff.2 ⟨⟨p, hp1, h1⟩, p', hp1', h2.le⟩
    · intro c c' hc
      exact ih (fun f h => hfs f (by simp [h])) c c' hc

theorem bestSplit_same [IsStrictOrderedRing K] {e e' : CartEnv K Y} (hl : e'.loss = e.loss) (hd : e'.maxDepth = e.maxDepth)
    (hperm : ∀ y y', y.Perm y' → e.loss y = e.loss y') (hs : SortsIdx e.sortIdx) (hs' : SortsIdx e'.sortIdx) {w : Nat}
    (fuel : Nat) (tried : List (Nat × K)) (rows rows' : LRows K Y) (hr : Rect w rows) (hp : rows.Perm rows') (depth : Int) :
    bestSplit e fuel tried (rows.map Prod.fst) (rows.map Prod.snd) depth =
      bestSplit e' fuel tried (rows'.map Prod.fst) (rows'.map Prod.snd) depth := by
  induction fuel generalizing tried rows rows' depth with
  | zero => rfl
  | succ fuel ih =>
    rw [bestSplit.eq_def e, bestSplit.eq_def e']
    simp only [hd]
    by_cases hlim : e.maxDepth ≠ -1 ∧ e.maxDepth < depth + 1
    · rw [if_pos hlim, if_pos hlim]
    rw [if_neg hlim, if_neg hlim]
    have hr' : Rect w rows' := fun p h => hr p (hp.mem_iff.2 h)
    cases hrows : rows with
    | nil =>
      subst hrows
      rw [hp.symm.eq_nil]
      rfl
    | cons p ps =>
      cases hrows' : rows' with
      | nil => rw [hrows, hrows'] at hp; exact absurd hp.eq_nil (by simp)
      | cons p' ps' =>
        have w1 : p.1.length = w := hr p (by rw [hrows]; simp)
        have w2 : p'.1.length = w := hr' p' (by rw [hrows']; simp)
        simp only [List.map_cons, w1, w2]
        have x1 : p.1 :: ps.map Prod.fst = rows.map Prod.fst := by rw [hrows]; rfl
        have x2 : p.2 :: ps.map Prod.snd = rows.map Prod.snd := by rw [hrows]; rfl
        have x3 : p'.1 :: ps'.map Prod.fst = rows'.map Prod.fst := by rw [hrows']; rfl
        have x4 : p'.2 :: ps'.map Prod.snd = rows'.map Prod.snd := by rw [hrows']; rfl
        rw [x1, x2, x3, x4, hl, ← hperm _ _ (hp.map Prod.snd)]
        apply Res.both_eq
        refine Res.both_bind (Res.both_refl (R := (· = ·)) (fun _ => rfl) _) ?_
        rintro o _ rfl
        refine Res.both_bind (featLoop_same hperm hs hs' hr hp tried (List.range w) (fun f h => List.mem_range.1 h) _ _
          ⟨rfl, rfl, rfl, rfl, rfl, rfl, rfl, rows, rows', rows, rows', rfl, rfl, hp, hp, hr, hr⟩) ?_
        intro b b' ⟨h1, h2, h3, h4, h5, h6, h7, L, L', R, R', h8, h9, pl, pr, rl, rr⟩
        rw [h1, h2, h3, h4, h5, h6, h7, h8, h9]
        simp only
        rw [ih _ L L' rl pl, ih _ R R' rr pr]
        exact Res.both_refl (R := (· = ·)) (fun _ => rfl) _

/-- Fitting to rows in another order, with another sort. -/
theorem cartFit_same [IsStrictOrderedRing K] {e e' : CartEnv K Y} (hl : e'.loss = e.loss) (hd : e'.maxDepth = e.maxDepth)
    (hperm : ∀ y y', y.Perm y' → e.loss y = e.loss y') (hs : SortsIdx e.sortIdx) (hs' : SortsIdx e'.sortIdx) {w : Nat}
    (rows rows' : LRows K Y) (hr : Rect w rows) (hp : rows.Perm rows') :
    cartFit e (rows.map Prod.fst) (rows.map Prod.snd) = cartFit e' (rows'.map Prod.fst) (rows'.map Prod.snd) := by
  unfold cartFit
  rw [List.length_map, List.length_map, ← hp.length_eq]
  exact bestSplit_same hl hd hperm hs hs' _ _ _ _ hr hp _

end

section
variable {K : Type} [Field K] [LinearOrder K]

theorem modeStep_perm {y y' : List Int} (h : y.Perm y') (labels : List Int) :
    modeStep (convertToMap y labels) = modeStep (convertToMap y' labels) := by
  funext best l
  unfold modeStep
  simp only [convertToMap_get, h.count_eq]

theorem classLoss_perm (lg : K → K) (labels : List Int) (c : Criterion) (y y' : List Int) (h : y.Perm y') :
    classLoss lg labels c y = classLoss lg labels c y' := by
  have hnil : y = [] ↔ y' = [] := ⟨fun e => by subst e; exact h.nil_eq.symm, fun e => by subst e; exact h.eq_nil⟩
  have e1 : giniLoss (K := K) labels y = giniLoss labels y' := by
    unfold giniLoss
    simp only [convertToMap_get, modeStep_perm h, h.count_eq, h.length_eq]
  have e2 : entropyLoss lg labels y = entropyLoss lg labels y' := by
    unfold entropyLoss
    simp only [convertToMap_get, modeStep_perm h, h.count_eq, h.length_eq]
  unfold classLoss
  simp only [hnil, e1, e2]

theorem regLoss_perm [IsStrictOrderedRing K] (c : Criterion) (y y' : List K) (h : y.Perm y') :
    regLoss c y = regLoss c y' := by
  have hnil : y = [] ↔ y' = [] := ⟨fun e => by subst e; exact h.nil_eq.symm, fun e => by subst e; exact h.eq_nil⟩
  have e1 : meanAbsErr y (averageOf y) = meanAbsErr y' (averageOf y') := by rw [meanAbsErr_eq, meanAbsErr_eq, mae_perm h]
  have e2 : meanSqErr y (averageOf y) = meanSqErr y' (averageOf y') := by rw [meanSqErr_eq, meanSqErr_eq, mse_perm h]
  have e3 : averageOf y = averageOf y' := by rw [averageOf_eq, averageOf_eq, meanK_perm h]
  unfold regLoss
  cases c <;> simp only [hnil] <;> first | rw [e1, e3] | rw [e2, e3]

theorem Reordered.labelled_perm {Y : Type} [Zero Y] {g g' : Grid} {n : Nat} {σ : Nat → Nat} (H : Reordered g g' n σ)
    (val : U64 → K) (conv : U64 → Y) (fs : List Attr) (hfs : ∀ a ∈ fs, a ∈ g.allAttributes) {cls : Attr}
    (hcls : cls ∈ g.allAttributes) :
    (g.labelled val fs (g.number conv cls) n).Perm (g'.labelled val fs (g'.number conv cls) n) := by
  unfold Grid.labelled
  have e : ((List.range n).map fun r => (g'.point val fs r, g'.number conv cls r)) =
      ((List.range n).map σ).map fun r => (g.point val fs r, g.number conv cls r) := by
    rw [List.map_map]
    apply List.map_congr_left
    intro r hr
    have hr := List.mem_range.1 hr
    have e1 : g'.point val fs r = g.point val fs (σ r) := by
      unfold Grid.point
      apply List.map_congr_left
      intro a ha
      unfold Grid.number
      rw [H.cells a (hfs a ha) r hr]
    have e2 : g'.number conv cls r = g.number conv cls (σ r) := by
      unfold Grid.number
      rw [H.cells cls hcls r hr]
    simp only [Function.comp, e1, e2]
  rw [e]
  exact (H.rows.symm.map _)

/-- Fitting to a data set with its rows in another order. -/
theorem cartFitGrid_same {Y : Type} [Zero Y] [IsStrictOrderedRing K] {e e' : CartEnv K Y} (hl : e'.loss = e.loss)
    (hd : e'.maxDepth = e.maxDepth) (hperm : ∀ y y', y.Perm y' → e.loss y = e.loss y') (hs : SortsIdx e.sortIdx)
    (hs' : SortsIdx e'.sortIdx) {val : U64 → K} {conv : U64 → Y} {srt : List Spec → List Spec} (hsrt : PositionSort srt)
    {o1 o2 o1' o2' : List Nat} {g g' : Grid} {n : Nat} {σ : Nat → Nat} (P : g.Presents n) (T : g.typed n)
    (H : Reordered g g' n σ) (h1 : g.RowOrder o1) (h2 : g.RowOrder o2) (h1' : g'.RowOrder o1') (h2' : g'.RowOrder o2')
    {cls : Attr} (hc : g.allClassAttributes = [cls]) (hcin : cls ∈ g.allAttributes) (hcf : cls.isFloat = true) :
    cartFitGrid e val conv srt o1 o2 g = cartFitGrid e' val conv srt o1' o2' g' := by
  obtain ⟨fs, hfs, hsp⟩ := positionSort_attrs hsrt g.nonClassFloats
  have hn : g'.nonClassFloats = g.nonClassFloats := by unfold Grid.nonClassFloats; rw [H.attrs, H.classes]
  have T' := H.typed T
  have hfs' : fs.Perm g'.nonClassFloats := by rw [hn]; exact hfs
  have hsp' : ∀ sp : Attr → Spec, srt (g'.nonClassFloats.map sp) = fs.map sp := by rw [hn]; exact hsp
  unfold cartFitGrid
  rw [problemVec_spec P T h1 hfs hsp, problemVec_spec H.table T' h1' hfs' hsp',
    Res.bind_ok, Res.bind_ok, labelVec_spec hsrt P T h2 hc hcin hcf,
    labelVec_spec hsrt H.table T' h2' (by rw [H.classes]; exact hc) (by rw [H.attrs]; exact hcin) hcf,
    Res.bind_ok, Res.bind_ok, ← labelled_fst (Y := Y) g val fs (g.number conv cls),
    ← labelled_snd g val fs (g.number conv cls), ← labelled_fst (Y := Y) g' val fs (g'.number conv cls),
    ← labelled_snd g' val fs (g'.number conv cls)]
  exact cartFit_same hl hd hperm hs hs' _ _ (labelled_rect g val fs _ n)
    (H.labelled_perm val conv fs (fun a ha => (nonClassFloats_mem (hfs.subset ha)).1) hcin)

end

end Golearn
