import Verif.Proofs.CartReorder
import Verif.Spec.Units
import Mathlib.Tactic.Ring

/-! # CART trees of rows in other units -/

namespace Golearn

section
variable {K : Type} [Field K] [LinearOrder K] {Y : Type}

theorem Units.conv_lt [IsStrictOrderedRing K] {u : Units K} (hu : u.Positive) (f : Nat) {a b : K} :
    u.conv f a < u.conv f b ↔ a < b := by
  unfold Units.conv
  rw [add_lt_add_iff_right, mul_lt_mul_iff_of_pos_left (hu f)]

theorem Units.conv_le [IsStrictOrderedRing K] {u : Units K} (hu : u.Positive) (f : Nat) {a b : K} :
    u.conv f a ≤ u.conv f b ↔ a ≤ b := by
  rw [← not_lt, ← not_lt, Units.conv_lt hu]

theorem Units.conv_inj [IsStrictOrderedRing K] {u : Units K} (hu : u.Positive) (f : Nat) {a b : K} :
    u.conv f a = u.conv f b ↔ a = b := by
  rw [le_antisymm_iff, le_antisymm_iff, Units.conv_le hu, Units.conv_le hu]

omit [LinearOrder K] in
theorem Units.row_get (u : Units K) {f : Nat} {x : List K} (hf : f < x.length) :
    (u.row x)[f]? = some (u.conv f (colVal f x)) := by
  unfold Units.row colVal
  rw [List.getElem?_mapIdx, List.getElem?_eq_getElem hf]
  simp [List.getD, hf]

omit [LinearOrder K] in
theorem Units.row_length (u : Units K) (x : List K) : (u.row x).length = x.length := by
  unfold Units.row
  exact List.length_mapIdx

omit [LinearOrder K] in
theorem Units.row_col (u : Units K) {f : Nat} {x : List K} (hf : f < x.length) :
    colVal f (u.row x) = u.conv f (colVal f x) := by
  have := u.row_get hf
  unfold colVal
  rw [List.getD_eq_getElem?_getD, this]
  rfl

omit [LinearOrder K] in
theorem Units.rows_snd (u : Units K) (rows : LRows K Y) : (u.rows rows).map Prod.snd = rows.map Prod.snd := by
  unfold Units.rows
  rw [List.map_map]
  rfl

omit [LinearOrder K] in
theorem Units.rows_length (u : Units K) (rows : LRows K Y) : (u.rows rows).length = rows.length := List.length_map _

theorem Units.rows_rect (u : Units K) {w : Nat} {rows : LRows K Y} (hr : Rect w rows) : Rect w (u.rows rows) := by
  intro p hp
  obtain ⟨q, hq, rfl⟩ := List.mem_map.1 hp
  rw [Units.row_length]
  exact hr q hq

theorem Units.lefts [IsStrictOrderedRing K] {u : Units K} (hu : u.Positive) {f : Nat} {rows : LRows K Y} (hc : HasCol f rows)
    (t : K) : Golearn.lefts f (u.conv f t) (u.rows rows) = u.rows (Golearn.lefts f t rows) := by
  unfold Golearn.lefts Units.rows
  rw [List.filter_map]
  congr 1
  apply List.filter_congr
  intro p hp
  simp only [Function.comp, u.row_col (hc p hp), Units.conv_lt hu]

theorem Units.rights [IsStrictOrderedRing K] {u : Units K} (hu : u.Positive) {f : Nat} {rows : LRows K Y} (hc : HasCol f rows)
    (t : K) : Golearn.rights f (u.conv f t) (u.rows rows) = u.rows (Golearn.rights f t rows) := by
  unfold Golearn.rights Units.rows
  rw [List.filter_map]
  congr 1
  apply List.filter_congr
  intro p hp
  simp only [Function.comp, u.row_col (hc p hp), Units.conv_lt hu]

theorem Units.separates [IsStrictOrderedRing K] {u : Units K} (hu : u.Positive) {f : Nat} {rows : LRows K Y} (hc : HasCol f rows)
    {t : K} (h : Separates f t rows) : Separates f (u.conv f t) (u.rows rows) := by
  unfold Separates
  rw [Units.lefts hu hc, Units.rights hu hc]
  unfold Units.rows
  exact ⟨by simpa using h.1, by simpa using h.2⟩

theorem Units.sortedUnique [IsStrictOrderedRing K] {u : Units K} (hu : u.Positive) (f : Nat) (vals : List K) :
    Golearn.sortedUnique (vals.map (u.conv f)) = (Golearn.sortedUnique vals).map (u.conv f) := by
  obtain ⟨a1, a2⟩ := sortedUnique_spec (vals.map (u.conv f))
  obtain ⟨b1, b2⟩ := sortedUnique_spec vals
  have b1' : ((Golearn.sortedUnique vals).map (u.conv f)).Pairwise (· < ·) :=
    List.pairwise_map.2 (b1.imp fun h => (Units.conv_lt hu f).2 h)
  have n1 : (Golearn.sortedUnique (vals.map (u.conv f))).Nodup := a1.imp fun h => h.ne
  have n2 : ((Golearn.sortedUnique vals).map (u.conv f)).Nodup := b1'.imp fun h => h.ne
  have hp : (Golearn.sortedUnique (vals.map (u.conv f))).Perm ((Golearn.sortedUnique vals).map (u.conv f)) :=
    (List.perm_ext_iff_of_nodup n1 n2).2 fun x => by
      rw [a2, List.mem_map, List.mem_map]
      simp only [b2]
  exact hp.eq_of_pairwise (fun a b _ _ h1 h2 => absurd (h1.trans h2) (lt_irrefl _)) a1 b1'

theorem Units.midpoints [IsStrictOrderedRing K] (u : Units K) (f : Nat) (l : List K) :
    Golearn.midpoints (l.map (u.conv f)) = (Golearn.midpoints l).map (u.conv f) := by
  induction l with
  | nil => rfl
  | cons a l ih =>
    cases l with
    | nil => rfl
    | cons b l =>
      rw [List.map_cons, List.map_cons, midpoints_cons, midpoints_cons, List.map_cons, ← List.map_cons (f := u.conv f), ih]
      congr 1
      unfold Units.conv
      field_simp
      ring

/-- The splits tried, in the other units. -/
def Units.tried (u : Units K) (l : List (Nat × K)) : List (Nat × K) := l.map fun s => (s.1, u.conv s.1 s.2)

theorem Units.validate [IsStrictOrderedRing K] {u : Units K} (hu : u.Positive) (tried : List (Nat × K)) (f : Nat) (t : K) :
    Golearn.validate (u.tried tried) f (u.conv f t) = Golearn.validate tried f t := by
  unfold Golearn.validate Units.tried
  rw [List.any_map]
  congr 2
  funext s
  by_cases h : s.1 = f
  · subst h
    simp only [Function.comp, Units.conv_inj hu]
  · have : (s.1 == f) = false := by simpa using h
    simp only [Function.comp, this, Bool.false_and]

/-- Two splits of the rows, in two orders and in two units. -/
def UnitSplit (u : Units K) (w : Nat) (s s' : Split K Y) : Prop :=
  ∃ L L' R R' : LRows K Y, s = ⟨L.map Prod.fst, R.map Prod.fst, L.map Prod.snd, R.map Prod.snd⟩ ∧
    s' = ⟨L'.map Prod.fst, R'.map Prod.fst, L'.map Prod.snd, R'.map Prod.snd⟩ ∧ (u.rows L).Perm L' ∧ (u.rows R).Perm R' ∧
    Rect w L ∧ Rect w R

/-- The same best split in two units; `o` is the loss at the start. -/
def UnitBest (u : Units K) (o : K) (w : Nat) (b b' : CartBest K Y) : Prop :=
  b'.loss = b.loss ∧ b'.feat = b.feat ∧ b'.leftLabel = b.leftLabel ∧ b'.rightLabel = b.rightLabel ∧
    b'.leftLoss = b.leftLoss ∧ b'.rightLoss = b.rightLoss ∧ UnitSplit u w b.split b'.split ∧
    ((b.loss = o ∧ b'.thr = b.thr) ∨ (b.loss < o ∧ b'.thr = u.conv b.feat b.thr))

variable [Zero Y]

theorem thrLoop_units [IsStrictOrderedRing K] {u : Units K} (hu : u.Positive) {loss : Loss K Y}
    (hperm : ∀ y y', y.Perm y' → loss y = loss y') {w f : Nat} (hf : f < w)
    {rows rows' : LRows K Y} (hr : Rect w rows) (hp : (u.rows rows).Perm rows') (hs : SortedBy f rows) (hs' : SortedBy f rows')
    (num : Nat) (tried : List (Nat × K)) (o : K) (ts : List K) (hts : ts.Pairwise (· ≤ ·))
    (hsep : ∀ t ∈ ts, Separates f t rows) (cur cur' : Option (Split K Y))
    (hcur : cur = none ∧ cur' = none ∨
      ∃ t0, cur = some (splitOf f t0 rows) ∧ cur' = some (splitOf f (u.conv f t0) rows') ∧ ∀ t ∈ ts, t0 ≤ t)
    (b b' : CartBest K Y) (hb : UnitBest u o w b b') :
    Res.Both (UnitBest u o w) (thrLoop loss num tried f (rows.map Prod.fst) (rows.map Prod.snd) ts cur b)
      (thrLoop loss num (u.tried tried) f (rows'.map Prod.fst) (rows'.map Prod.snd) (ts.map (u.conv f)) cur' b') := by
  induction ts generalizing cur cur' b b' with
  | nil => exact hb
  | cons t ts ih =>
    obtain ⟨hts1, hts2⟩ := List.pairwise_cons.1 hts
    have hst := hsep t (by simp)
    have hc := rect_hasCol hf hr
    have hst' := separates_perm hp.symm (Units.separates hu hc hst)
    have hr' : Rect w rows' := fun p h => u.rows_rect hr p (hp.mem_iff.2 h)
    have hsep' : ∀ t ∈ ts, Separates f t rows := fun t h => hsep t (by simp [h])
    have e1 : nextSplit cur (rows.map Prod.fst) f (rows.map Prod.snd) t = Res.ok (splitOf f t rows) := by
      rcases hcur with ⟨rfl, _⟩ | ⟨t0, rfl, _, h0⟩
      · exact createSplit_spec t rows hc
      · exact updateSplit_spec (h0 t (by simp)) rows hc hs (separates_iff.1 hst).2
    have e2 : nextSplit cur' (rows'.map Prod.fst) f (rows'.map Prod.snd) (u.conv f t) =
        Res.ok (splitOf f (u.conv f t) rows') := by
      rcases hcur with ⟨_, rfl⟩ | ⟨t0, _, rfl, h0⟩
      · exact createSplit_spec _ rows' (rect_hasCol hf hr')
      · exact updateSplit_spec ((Units.conv_le hu f).2 (h0 t (by simp))) rows' (rect_hasCol hf hr') hs'
          (separates_iff.1 hst').2
    have pl : (u.rows (lefts f t rows)).Perm (lefts f (u.conv f t) rows') := by
      rw [← Units.lefts hu hc]; exact lefts_perm hp
    have pr : (u.rows (rights f t rows)).Perm (rights f (u.conv f t) rows') := by
      rw [← Units.rights hu hc]; exact rights_perm hp
    have yl : ((lefts f t rows).map Prod.snd).Perm ((lefts f (u.conv f t) rows').map Prod.snd) := by
      rw [← u.rows_snd (lefts f t rows)]; exact pl.map _
    have yr : ((rights f t rows).map Prod.snd).Perm ((rights f (u.conv f t) rows').map Prod.snd) := by
      rw [← u.rows_snd (rights f t rows)]; exact pr.map _
    have l1 : lossOr0 loss ((lefts f (u.conv f t) rows').map Prod.snd) = lossOr0 loss ((lefts f t rows).map Prod.snd) := by
      unfold lossOr0; rw [hperm _ _ yl]
    have l2 : lossOr0 loss ((rights f (u.conv f t) rows').map Prod.snd) = lossOr0 loss ((rights f t rows).map Prod.snd) := by
      unfold lossOr0; rw [hperm _ _ yr]
    have n1 : (lefts f (u.conv f t) rows').length = (lefts f t rows).length := by rw [← pl.length_eq, u.rows_length]
    have n2 : (rights f (u.conv f t) rows').length = (rights f t rows).length := by rw [← pr.length_eq, u.rows_length]
    rw [List.map_cons, thrLoop, thrLoop, Units.validate hu]
    by_cases hv : Golearn.validate tried f t = true
    · rw [if_pos hv, if_pos hv, e1, e2, Res.bind_ok, Res.bind_ok]
      simp only [splitOf, l1, l2, List.length_map, n1, n2]
      refine Res.both_bind (Res.both_refl (R := (· = ·)) (fun _ => rfl) _) ?_
      rintro l _ rfl
      refine Res.both_bind (Res.both_refl (R := (· = ·)) (fun _ => rfl) _) ?_
      rintro r _ rfl
      refine ih hts2 hsep' _ _ (Or.inr ⟨t, rfl, rfl, hts1⟩) _ _ ?_
      rw [hb.1]
      have hle : b.loss ≤ o := by
        rcases hb.2.2.2.2.2.2.2 with h | h
        · exact h.1.le
        · exact h.1.le
      split
      · next hlt =>
        exact ⟨rfl, rfl, rfl, rfl, rfl, rfl, ⟨_, _, _, _, rfl, rfl, pl, pr,
          fun p h => hr p (List.mem_filter.1 h).1, fun p h => hr p (List.mem_filter.1 h).1⟩, Or.inr ⟨hlt.trans_le hle, rfl⟩⟩
      · exact hb
    · rw [if_neg hv, if_neg hv]
      refine ih hts2 hsep' _ _ ?_ _ _ hb
      rcases hcur with h | ⟨t0, h1, h2, h3⟩
      · exact Or.inl h
      · exact Or.inr ⟨t0, h1, h2, fun t h => h3 t (by simp [h])⟩

theorem featLoop_units [IsStrictOrderedRing K] {u : Units K} (hu : u.Positive) {loss : Loss K Y}
    (hperm : ∀ y y', y.Perm y' → loss y = loss y')
    {s s' : List K → List Nat} (hs : SortsIdx s) (hs' : SortsIdx s') {w : Nat} {rows rows' : LRows K Y} (hr : Rect w rows)
    (hp : (u.rows rows).Perm rows') (tried : List (Nat × K)) (o : K) (fs : List Nat) (hfs : ∀ f ∈ fs, f < w)
    (b b' : CartBest K Y) (hb : UnitBest u o w b b') :
    Res.Both (UnitBest u o w) (featLoop loss s tried (rows.map Prod.fst) (rows.map Prod.snd) fs b)
      (featLoop loss s' (u.tried tried) (rows'.map Prod.fst) (rows'.map Prod.snd) fs b') := by
  induction fs generalizing b b' with
  | nil => exact hb
  | cons f fs ih =>
    have hf := hfs f (by simp)
    have hc := rect_hasCol hf hr
    have hr' : Rect w rows' := fun p h => u.rows_rect hr p (hp.mem_iff.2 h)
    obtain ⟨q, q1, q2, q3⟩ := reorder_spec (f := f) (w := w) hs rows
    obtain ⟨q', q1', q2', q3'⟩ := reorder_spec (f := f) (w := w) hs' rows'
    have hvals : ((rows.map fun p => colVal f p.1).map (u.conv f)).Perm (rows'.map fun p => colVal f p.1) := by
      refine List.Perm.trans (List.Perm.of_eq ?_) (hp.map _)
      unfold Units.rows
      rw [List.map_map, List.map_map]
      apply List.map_congr_left
      intro p h
      exact (u.row_col (hc p h)).symm
    have hlen : rows'.length = rows.length := by rw [← hp.length_eq, u.rows_length]
    rw [featLoop, featLoop, getFeature_spec hf rows hr, getFeature_spec hf rows' hr', Res.bind_ok, Res.bind_ok, q3, q3',
      Res.bind_ok, Res.bind_ok, ← sortedUnique_perm hvals, Units.sortedUnique hu, Units.midpoints]
    simp only [List.length_map, hlen]
    obtain ⟨u1, u2⟩ := sortedUnique_spec (rows.map fun p => colVal f p.1)
    have hqq : (u.rows q).Perm q' := ((q1.map _).trans hp).trans q1'.symm
    refine Res.both_bind (thrLoop_units hu hperm hf (fun p h => hr p (q1.mem_iff.1 h)) hqq q2 q2' _ _ o
      _ (midpoints_sorted _ u1) ?_ none none (Or.inl ⟨rfl, rfl⟩) b b' hb) ?_
    · intro t ht
      apply separates_perm q1
      obtain ⟨x, hx, z, hz, h1, h2⟩ := midpoints_mem _ u1 t ht
      obtain ⟨p, hp1, rfl⟩ := List.mem_map.1 ((u2 x).1 hx)
      obtain ⟨p', hp1', rfl⟩ := List.mem_map.1 ((u2 z).1 hz)
      exact separates_iff.2 ⟨⟨p, hp1, h1⟩, p', hp1', h2.le⟩
    · intro c c' hc
      exact ih (fun f h => hfs f (by simp [h])) c c' hc

omit [LinearOrder K] [Zero Y] in
theorem Units.ifNeeded (u : Units K) (t : CNode K Y) : (u.tree t).ifNeeded = u.tree t.ifNeeded := by
  cases t with
  | nil => rfl
  | node l r t f a b nd => cases nd <;> rfl

theorem bestSplit_units [IsStrictOrderedRing K] {u : Units K} (hu : u.Positive) {e e' : CartEnv K Y} (hl : e'.loss = e.loss)
    (hd : e'.maxDepth = e.maxDepth)
    (hperm : ∀ y y', y.Perm y' → e.loss y = e.loss y') (hs : SortsIdx e.sortIdx) (hs' : SortsIdx e'.sortIdx) {w : Nat}
    (fuel : Nat) (tried : List (Nat × K)) (rows rows' : LRows K Y) (hr : Rect w rows) (hp : (u.rows rows).Perm rows')
    (depth : Int) :
    bestSplit e' fuel (u.tried tried) (rows'.map Prod.fst) (rows'.map Prod.snd) depth =
      (bestSplit e fuel tried (rows.map Prod.fst) (rows.map Prod.snd) depth).map u.tree := by
  induction fuel generalizing tried rows rows' depth with
  | zero => rfl
  | succ fuel ih =>
    rw [bestSplit.eq_def e, bestSplit.eq_def e']
    simp only [hd]
    by_cases hlim : e.maxDepth ≠ -1 ∧ e.maxDepth < depth + 1
    · rw [if_pos hlim, if_pos hlim]; rfl
    rw [if_neg hlim, if_neg hlim]
    have hr' : Rect w rows' := fun p h => u.rows_rect hr p (hp.mem_iff.2 h)
    cases hrows : rows with
    | nil =>
      subst hrows
      rw [show rows' = [] from hp.nil_eq.symm]
      rfl
    | cons p ps =>
      cases hrows' : rows' with
      | nil => rw [hrows, hrows'] at hp; exact absurd hp.eq_nil (by simp [Units.rows])
      | cons p' ps' =>
        have w1 : p.1.length = w := hr p (by rw [hrows]; simp)
        have w2 : p'.1.length = w := hr' p' (by rw [hrows']; simp)
        simp only [List.map_cons, w1, w2]
        have x1 : p.1 :: ps.map Prod.fst = rows.map Prod.fst := by rw [hrows]; rfl
        have x2 : p.2 :: ps.map Prod.snd = rows.map Prod.snd := by rw [hrows]; rfl
        have x3 : p'.1 :: ps'.map Prod.fst = rows'.map Prod.fst := by rw [hrows']; rfl
        have x4 : p'.2 :: ps'.map Prod.snd = rows'.map Prod.snd := by rw [hrows']; rfl
        have hy : (rows.map Prod.snd).Perm (rows'.map Prod.snd) := by rw [← u.rows_snd rows]; exact hp.map _
        rw [x1, x2, x3, x4, hl, ← hperm _ _ hy]
        cases ho : e.loss (rows.map Prod.snd) with
        | err => rfl
        | panic => rfl
        | ok o =>
          rw [Res.bind_ok, Res.bind_ok]
          have hfl := featLoop_units hu hperm hs hs' hr hp tried o.1 (List.range w) (fun f h => List.mem_range.1 h)
            ⟨o.1, ⟨rows.map Prod.fst, rows.map Prod.fst, rows.map Prod.snd, rows.map Prod.snd⟩, 0, 0, o.2, 0, o.1, o.1⟩
            ⟨o.1, ⟨rows'.map Prod.fst, rows'.map Prod.fst, rows'.map Prod.snd, rows'.map Prod.snd⟩, 0, 0, o.2, 0, o.1, o.1⟩
            ⟨rfl, rfl, rfl, rfl, rfl, rfl, ⟨rows, rows', rows, rows', rfl, rfl, hp, hp, hr, hr⟩, Or.inl ⟨rfl, rfl⟩⟩
          generalize featLoop e.loss e.sortIdx tried _ _ _ _ = A at hfl ⊢
          generalize featLoop e.loss e'.sortIdx (u.tried tried) _ _ _ _ = B at hfl ⊢
          cases A with
          | err => cases B <;> first | exact hfl.elim | rfl
          | panic => cases B <;> first | exact hfl.elim | rfl
          | ok b =>
            cases B with
            | err => exact hfl.elim
            | panic => exact hfl.elim
            | ok b' =>
              obtain ⟨h1, h3, h4, h5, h6, h7, ⟨L, L', R, R', h8, h9, pl, pr, rl, rr⟩, h2⟩ := hfl
              rw [Res.bind_ok, Res.bind_ok, h1, h3, h4, h5, h6, h7, h8, h9]
              rcases h2 with ⟨hlo, h2⟩ | ⟨hlo, h2⟩
              · rw [if_pos hlo, if_pos hlo, h2]
                rfl
              · rw [if_neg hlo.ne, if_neg hlo.ne, h2]
                by_cases hpos : 0 < b.loss
                · rw [if_pos hpos, if_pos hpos]
                  simp only
                  have t1 : u.tried tried ++ [(b.feat, u.conv b.feat b.thr)] = u.tried (tried ++ [(b.feat, b.thr)]) := by
                    simp [Units.tried]
                  have t2 : u.tried tried ++ [(b.feat, u.conv b.feat b.thr)] ++ [(b.feat, u.conv b.feat b.thr)] =
                      u.tried (tried ++ [(b.feat, b.thr)] ++ [(b.feat, b.thr)]) := by
                    simp [Units.tried]
                  have t3 : (if 0 < b.leftLoss then u.tried tried ++ [(b.feat, u.conv b.feat b.thr)] ++
                      [(b.feat, u.conv b.feat b.thr)] else u.tried tried ++ [(b.feat, u.conv b.feat b.thr)]) =
                      u.tried (if 0 < b.leftLoss then tried ++ [(b.feat, b.thr)] ++ [(b.feat, b.thr)]
                        else tried ++ [(b.feat, b.thr)]) := by
                    split
                    · exact t2
                    · exact t1
                  rw [t3, t1, ih _ L L' rl pl, ih _ R R' rr pr]
                  have hm : ∀ x : Res (CNode K Y), (x.map u.tree).map CNode.ifNeeded = (x.map CNode.ifNeeded).map u.tree := by
                    intro x
                    cases x with
                    | ok t => simp only [Res.map_ok, Units.ifNeeded]
                    | err => rfl
                    | panic => rfl
                  rw [hm, hm]
                  generalize Res.map CNode.ifNeeded (bestSplit e fuel _ (L.map Prod.fst) _ _) = X
                  generalize Res.map CNode.ifNeeded (bestSplit e fuel _ (R.map Prod.fst) _ _) = Z
                  by_cases c1 : 0 < b.leftLoss <;> by_cases c2 : 0 < b.rightLoss <;> simp only [c1, c2, if_true, if_false] <;>
                    cases X <;> cases Z <;> rfl
                · rw [if_neg hpos, if_neg hpos]
                  rfl

theorem cartFit_units [IsStrictOrderedRing K] {u : Units K} (hu : u.Positive) {e e' : CartEnv K Y} (hl : e'.loss = e.loss)
    (hd : e'.maxDepth = e.maxDepth)
    (hperm : ∀ y y', y.Perm y' → e.loss y = e.loss y') (hs : SortsIdx e.sortIdx) (hs' : SortsIdx e'.sortIdx) {w : Nat}
    (rows rows' : LRows K Y) (hr : Rect w rows) (hp : (u.rows rows).Perm rows') :
    cartFit e' (rows'.map Prod.fst) (rows'.map Prod.snd) = (cartFit e (rows.map Prod.fst) (rows.map Prod.snd)).map u.tree := by
  unfold cartFit
  rw [List.length_map, List.length_map, ← hp.length_eq, u.rows_length]
  exact bestSplit_units hu hl hd hperm hs hs' _ [] _ _ hr hp _

/-- Every node is marked as needed. -/
def CNode.AllNeeded : CNode K Y → Prop
  | .nil => True
  | .node l r _ _ _ _ nd => nd = true ∧ l.AllNeeded ∧ r.AllNeeded

theorem bestSplit_needed (e : CartEnv K Y) (fuel : Nat) (tried : List (Nat × K)) (data : List (List K)) (y : List Y) (depth : Int)
    (t : CNode K Y) (h : bestSplit e fuel tried data y depth = Res.ok t) : t.ifNeeded.AllNeeded := by
  induction fuel generalizing tried data y depth t with
  | zero => cases h
  | succ fuel ih =>
    rw [bestSplit.eq_def] at h
    simp only at h
    split at h
    · cases h; trivial
    · cases data with
      | nil => cases h
      | cons x xs =>
        simp only at h
        obtain ⟨o, _, h⟩ := Res.bind_eq_ok.1 h
        obtain ⟨b, _, h⟩ := Res.bind_eq_ok.1 h
        split at h
        · cases h; trivial
        · split at h
          · obtain ⟨l, hl, h⟩ := Res.bind_eq_ok.1 h
            obtain ⟨r, hr, h⟩ := Res.map_eq_ok.1 h
            subst h
            refine ⟨rfl, ?_, ?_⟩
            · split at hl
              · obtain ⟨l', hl', rfl⟩ := Res.map_eq_ok.1 hl
                exact ih _ _ _ _ _ hl'
              · cases hl; trivial
            · split at hr
              · obtain ⟨r', hr', rfl⟩ := Res.map_eq_ok.1 hr
                exact ih _ _ _ _ _ hr'
              · cases hr; trivial
          · cases h; exact ⟨rfl, trivial, trivial⟩

omit [Zero Y] in
theorem predict_units [IsStrictOrderedRing K] {u : Units K} (hu : u.Positive) (x : List K) (t : CNode K Y) (h : t.AllNeeded) :
    predictNode (u.tree t) (u.row x) = predictNode t x := by
  induction t with
  | nil => rfl
  | node l r t f a b nd ihl ihr =>
    obtain ⟨rfl, hl, hr⟩ := h
    simp only [Units.tree, predictNode]
    by_cases hf : f < x.length
    · rw [u.row_get hf, colVal_get hf]
      simp only [Units.conv_lt hu, ihl hl, ihr hr]
    · rw [List.getElem?_eq_none (by rw [u.row_length]; omega), List.getElem?_eq_none (by omega)]

end

end Golearn
