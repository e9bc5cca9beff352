import Verif.Proofs.CartReorder
import Verif.Spec.Relabel
import Mathlib.Tactic.Ring

/-! # CART trees of rows with labels in other units -/

namespace Golearn

section
variable {K : Type} [Field K] [LinearOrder K] {Y : Type} {φ : Y → Y}

omit [Field K] [LinearOrder K] in
theorem relabel_fst (rows : LRows K Y) : (relabel φ rows).map Prod.fst = rows.map Prod.fst := by
  unfold relabel
  rw [List.map_map]
  rfl

omit [Field K] [LinearOrder K] in
theorem relabel_snd (rows : LRows K Y) : (relabel φ rows).map Prod.snd = (rows.map Prod.snd).map φ := by
  unfold relabel
  rw [List.map_map, List.map_map]
  rfl

omit [Field K] [LinearOrder K] in
theorem relabel_length (rows : LRows K Y) : (relabel φ rows).length = rows.length := List.length_map _

theorem relabel_rect {w : Nat} {rows : LRows K Y} (hr : Rect w rows) : Rect w (relabel φ rows) := by
  intro p hp
  obtain ⟨q, hq, rfl⟩ := List.mem_map.1 hp
  exact hr q hq

theorem relabel_lefts (f : Nat) (t : K) (rows : LRows K Y) : lefts f t (relabel φ rows) = relabel φ (lefts f t rows) := by
  unfold lefts relabel
  rw [List.filter_map]
  rfl

theorem relabel_rights (f : Nat) (t : K) (rows : LRows K Y) : rights f t (relabel φ rows) = relabel φ (rights f t rows) := by
  unfold rights relabel
  rw [List.filter_map]
  rfl

theorem relabel_separates {f : Nat} {rows : LRows K Y} {t : K} (h : Separates f t rows) : Separates f t (relabel φ rows) := by
  unfold Separates
  rw [relabel_lefts, relabel_rights]
  unfold relabel
  exact ⟨by simpa using h.1, by simpa using h.2⟩

/-- Two splits of the rows, in two orders and with two labellings. -/
def RelSplit (φ : Y → Y) (w : Nat) (s s' : Split K Y) : Prop :=
  ∃ L L' R R' : LRows K Y, s = ⟨L.map Prod.fst, R.map Prod.fst, L.map Prod.snd, R.map Prod.snd⟩ ∧
    s' = ⟨L'.map Prod.fst, R'.map Prod.fst, L'.map Prod.snd, R'.map Prod.snd⟩ ∧ (relabel φ L).Perm L' ∧ (relabel φ R).Perm R' ∧
    Rect w L ∧ Rect w R

/-- The same best split with two labellings; `o` is the loss at the start. -/
def RelBest (φ : Y → Y) (c o : K) (w : Nat) (b b' : CartBest K Y) : Prop :=
  b'.loss = c * b.loss ∧ b'.feat = b.feat ∧ b'.thr = b.thr ∧ b'.leftLoss = c * b.leftLoss ∧ b'.rightLoss = c * b.rightLoss ∧
    RelSplit φ w b.split b'.split ∧
    (b.loss = o ∨ (b.loss < o ∧ b'.leftLabel = φ b.leftLabel ∧ b'.rightLabel = φ b.rightLabel))

/-- A loss of new labels is `c` times the loss of the old ones, with the new label. -/
def RelLoss (φ : Y → Y) (c : K) (loss : Loss K Y) : Prop :=
  ∀ y y', (y.map φ).Perm y' → loss y' = (loss y).map (fun p => (c * p.1, φ p.2)) ∧ loss y ≠ Res.err

variable [Zero Y]

theorem relLoss_or {c : K} {loss : Loss K Y} (h : RelLoss φ c loss) {y y' : List Y} (hp : (y.map φ).Perm y') :
    lossOr0 loss y' = (lossOr0 loss y).map fun p => (c * p.1, φ p.2) := by
  obtain ⟨h1, h2⟩ := h y y' hp
  unfold lossOr0
  rw [h1]
  cases hl : loss y with
  | ok p => rfl
  | err => exact absurd hl h2
  | panic => rfl

theorem thrLoop_relabel [IsStrictOrderedRing K] {c : K} (hc0 : 0 < c) {loss : Loss K Y} (hloss : RelLoss φ c loss)
    {w f : Nat} (hf : f < w)
    {rows rows' : LRows K Y} (hr : Rect w rows) (hp : (relabel φ rows).Perm rows') (hs : SortedBy f rows) (hs' : SortedBy f rows')
    (num : Nat) (tried : List (Nat × K)) (o : K) (ts : List K) (hts : ts.Pairwise (· ≤ ·))
    (hsep : ∀ t ∈ ts, Separates f t rows) (cur cur' : Option (Split K Y))
    (hcur : cur = none ∧ cur' = none ∨
      ∃ t0, cur = some (splitOf f t0 rows) ∧ cur' = some (splitOf f t0 rows') ∧ ∀ t ∈ ts, t0 ≤ t)
    (b b' : CartBest K Y) (hb : RelBest φ c o w b b') :
    Res.Both (RelBest φ c o w) (thrLoop loss num tried f (rows.map Prod.fst) (rows.map Prod.snd) ts cur b)
      (thrLoop loss num tried f (rows'.map Prod.fst) (rows'.map Prod.snd) ts cur' b') := by
  induction ts generalizing cur cur' b b' with
  | nil => exact hb
  | cons t ts ih =>
    obtain ⟨hts1, hts2⟩ := List.pairwise_cons.1 hts
    have hst := hsep t (by simp)
    have hc := rect_hasCol hf hr
    have hst' := separates_perm hp.symm (relabel_separates hst)
    have hr' : Rect w rows' := fun p h => relabel_rect hr p (hp.mem_iff.2 h)
    have hsep' : ∀ t ∈ ts, Separates f t rows := fun t h => hsep t (by simp [h])
    have e1 : nextSplit cur (rows.map Prod.fst) f (rows.map Prod.snd) t = Res.ok (splitOf f t rows) := by
      rcases hcur with ⟨rfl, _⟩ | ⟨t0, rfl, _, h0⟩
      · exact createSplit_spec t rows hc
      · exact updateSplit_spec (h0 t (by simp)) rows hc hs (separates_iff.1 hst).2
    have e2 : nextSplit cur' (rows'.map Prod.fst) f (rows'.map Prod.snd) t = Res.ok (splitOf f t rows') := by
      rcases hcur with ⟨_, rfl⟩ | ⟨t0, _, rfl, h0⟩
      · exact createSplit_spec _ rows' (rect_hasCol hf hr')
      · exact updateSplit_spec (h0 t (by simp)) rows' (rect_hasCol hf hr') hs' (separates_iff.1 hst').2
    have pl : (relabel φ (lefts f t rows)).Perm (lefts f t rows') := by
      rw [← relabel_lefts]; exact lefts_perm hp
    have pr : (relabel φ (rights f t rows)).Perm (rights f t rows') := by
      rw [← relabel_rights]; exact rights_perm hp
    have yl : (((lefts f t rows).map Prod.snd).map φ).Perm ((lefts f t rows').map Prod.snd) := by
      rw [← relabel_snd]; exact pl.map _
    have yr : (((rights f t rows).map Prod.snd).map φ).Perm ((rights f t rows').map Prod.snd) := by
      rw [← relabel_snd]; exact pr.map _
    have l1 := relLoss_or hloss yl
    have l2 := relLoss_or hloss yr
    have n1 : (lefts f t rows').length = (lefts f t rows).length := by rw [← pl.length_eq, relabel_length]
    have n2 : (rights f t rows').length = (rights f t rows).length := by rw [← pr.length_eq, relabel_length]
    rw [thrLoop, thrLoop]
    by_cases hv : Golearn.validate tried f t = true
    · rw [if_pos hv, if_pos hv, e1, e2, Res.bind_ok, Res.bind_ok]
      simp only [splitOf, l1, l2, List.length_map, n1, n2]
      cases hl : lossOr0 loss ((lefts f t rows).map Prod.snd) with
      | err => trivial
      | panic => trivial
      | ok l =>
      rw [Res.map_ok, Res.bind_ok, Res.bind_ok]
      cases hrr : lossOr0 loss ((rights f t rows).map Prod.snd) with
      | err => trivial
      | panic => trivial
      | ok r =>
      rw [Res.map_ok, Res.bind_ok, Res.bind_ok]
      refine ih hts2 hsep' _ _ (Or.inr ⟨t, rfl, rfl, hts1⟩) _ _ ?_
      have hsub : c * l.1 * ((lefts f t rows).length : K) / (num : K) + c * r.1 * ((rights f t rows).length : K) / (num : K) =
          c * (l.1 * ((lefts f t rows).length : K) / (num : K) + r.1 * ((rights f t rows).length : K) / (num : K)) := by ring
      simp only [hsub, hb.1, mul_lt_mul_iff_of_pos_left hc0]
      have hle : b.loss ≤ o := by
        rcases hb.2.2.2.2.2.2 with h | h
        · exact h.le
        · exact h.1.le
      split
      · next hlt =>
        exact ⟨rfl, rfl, rfl, rfl, rfl, ⟨_, _, _, _, rfl, rfl, pl, pr,
          fun p h => hr p (List.mem_filter.1 h).1, fun p h => hr p (List.mem_filter.1 h).1⟩,
          Or.inr ⟨hlt.trans_le hle, rfl, rfl⟩⟩
      · exact hb
    · rw [if_neg hv, if_neg hv]
      refine ih hts2 hsep' _ _ ?_ _ _ hb
      rcases hcur with h | ⟨t0, h1, h2, h3⟩
      · exact Or.inl h
      · exact Or.inr ⟨t0, h1, h2, fun t h => h3 t (by simp [h])⟩

theorem featLoop_relabel [IsStrictOrderedRing K] {c : K} (hc0 : 0 < c) {loss : Loss K Y} (hloss : RelLoss φ c loss)
    {s s' : List K → List Nat} (hs : SortsIdx s) (hs' : SortsIdx s') {w : Nat} {rows rows' : LRows K Y} (hr : Rect w rows)
    (hp : (relabel φ rows).Perm rows') (tried : List (Nat × K)) (o : K) (fs : List Nat) (hfs : ∀ f ∈ fs, f < w)
    (b b' : CartBest K Y) (hb : RelBest φ c o w b b') :
    Res.Both (RelBest φ c o w) (featLoop loss s tried (rows.map Prod.fst) (rows.map Prod.snd) fs b)
      (featLoop loss s' tried (rows'.map Prod.fst) (rows'.map Prod.snd) fs b') := by
  induction fs generalizing b b' with
  | nil => exact hb
  | cons f fs ih =>
    have hf := hfs f (by simp)
    have hr' : Rect w rows' := fun p h => relabel_rect hr p (hp.mem_iff.2 h)
    obtain ⟨q, q1, q2, q3⟩ := reorder_spec (f := f) (w := w) hs rows
    obtain ⟨q', q1', q2', q3'⟩ := reorder_spec (f := f) (w := w) hs' rows'
    have hvals : (rows.map fun p => colVal f p.1).Perm (rows'.map fun p => colVal f p.1) := by
      refine List.Perm.trans (List.Perm.of_eq ?_) (hp.map _)
      unfold relabel
      rw [List.map_map]
      rfl
    have hlen : rows'.length = rows.length := by rw [← hp.length_eq, relabel_length]
    rw [featLoop, featLoop, getFeature_spec hf rows hr, getFeature_spec hf rows' hr', Res.bind_ok, Res.bind_ok, q3, q3',
      Res.bind_ok, Res.bind_ok, ← sortedUnique_perm hvals]
    simp only [List.length_map, hlen]
    obtain ⟨u1, u2⟩ := sortedUnique_spec (rows.map fun p => colVal f p.1)
    have hqq : (relabel φ q).Perm q' := ((q1.map _).trans hp).trans q1'.symm
    refine Res.both_bind (thrLoop_relabel hc0 hloss hf (fun p h => hr p (q1.mem_iff.1 h)) hqq q2 q2' _ _ o
      _ (midpoints_sorted _ u1) ?_ none none (Or.inl ⟨rfl, rfl⟩) b b' hb) ?_
    · intro t ht
      apply separates_perm q1
      obtain ⟨x, hx, z, hz, h1, h2⟩ := midpoints_mem _ u1 t ht
      obtain ⟨p, hp1, rfl⟩ := List.mem_map.1 ((u2 x).1 hx)
      obtain ⟨p', hp1', rfl⟩ := List.mem_map.1 ((u2 z).1 hz)
      exact separates_iff.2 ⟨⟨p, hp1, h1⟩, p', hp1', h2.le⟩
    · intro c c' hc
      exact ih (fun f h => hfs f (by simp [h])) c c' hc

theorem bestSplit_relabel [IsStrictOrderedRing K] {c : K} (hc0 : 0 < c) {e e' : CartEnv K Y} (hl : e'.loss = e.loss)
    (hd : e'.maxDepth = e.maxDepth) (hloss : RelLoss φ c e.loss) (hs : SortsIdx e.sortIdx) (hs' : SortsIdx e'.sortIdx) {w : Nat}
    (fuel : Nat) (tried : List (Nat × K)) (rows rows' : LRows K Y) (hr : Rect w rows) (hp : (relabel φ rows).Perm rows')
    (depth : Int) :
    (bestSplit e' fuel tried (rows'.map Prod.fst) (rows'.map Prod.snd) depth).map CNode.ifNeeded =
      ((bestSplit e fuel tried (rows.map Prod.fst) (rows.map Prod.snd) depth).map CNode.ifNeeded).map (CNode.relabel φ) := by
  induction fuel generalizing tried rows rows' depth with
  | zero => rfl
  | succ fuel ih =>
    rw [bestSplit.eq_def e, bestSplit.eq_def e']
    simp only [hd]
    by_cases hlim : e.maxDepth ≠ -1 ∧ e.maxDepth < depth + 1
    · rw [if_pos hlim, if_pos hlim]; rfl
    rw [if_neg hlim, if_neg hlim]
    have hr' : Rect w rows' := fun p h => relabel_rect hr p (hp.mem_iff.2 h)
    cases hrows : rows with
    | nil =>
      subst hrows
      rw [show rows' = [] from hp.nil_eq.symm]
      rfl
    | cons p ps =>
      cases hrows' : rows' with
      | nil => rw [hrows, hrows'] at hp; exact absurd hp.eq_nil (by simp [relabel])
      | cons p' ps' =>
        have w1 : p.1.length = w := hr p (by rw [hrows]; simp)
        have w2 : p'.1.length = w := hr' p' (by rw [hrows']; simp)
        simp only [List.map_cons, w1, w2]
        have x1 : p.1 :: ps.map Prod.fst = rows.map Prod.fst := by rw [hrows]; rfl
        have x2 : p.2 :: ps.map Prod.snd = rows.map Prod.snd := by rw [hrows]; rfl
        have x3 : p'.1 :: ps'.map Prod.fst = rows'.map Prod.fst := by rw [hrows']; rfl
        have x4 : p'.2 :: ps'.map Prod.snd = rows'.map Prod.snd := by rw [hrows']; rfl
        have hy : ((rows.map Prod.snd).map φ).Perm (rows'.map Prod.snd) := by rw [← relabel_snd]; exact hp.map _
        rw [x1, x2, x3, x4, hl, (hloss _ _ hy).1]
        cases ho : e.loss (rows.map Prod.snd) with
        | err => rfl
        | panic => rfl
        | ok o =>
          rw [Res.map_ok, Res.bind_ok, Res.bind_ok]
          have hfl := featLoop_relabel hc0 hloss hs hs' hr hp tried o.1 (List.range w) (fun f h => List.mem_range.1 h)
            ⟨o.1, ⟨rows.map Prod.fst, rows.map Prod.fst, rows.map Prod.snd, rows.map Prod.snd⟩, 0, 0, o.2, 0, o.1, o.1⟩
            ⟨c * o.1, ⟨rows'.map Prod.fst, rows'.map Prod.fst, rows'.map Prod.snd, rows'.map Prod.snd⟩, 0, 0, φ o.2, 0,
              c * o.1, c * o.1⟩
            ⟨rfl, rfl, rfl, rfl, rfl, ⟨rows, rows', rows, rows', rfl, rfl, hp, hp, hr, hr⟩, Or.inl rfl⟩
          generalize featLoop e.loss e.sortIdx tried _ _ _ _ = A at hfl ⊢
          generalize featLoop e.loss e'.sortIdx tried _ _ _ _ = B at hfl ⊢
          cases A with
          | err => cases B <;> first | exact hfl.elim | rfl
          | panic => cases B <;> first | exact hfl.elim | rfl
          | ok b =>
            cases B with
            | err => exact hfl.elim
            | panic => exact hfl.elim
            | ok b' =>
              obtain ⟨h1, h3, h4, h6, h7, ⟨L, L', R, R', h8, h9, pl, pr, rl, rr⟩, h2⟩ := hfl
              rw [Res.bind_ok, Res.bind_ok, h1, h3, h4, h6, h7, h8, h9]
              simp only [mul_eq_mul_left_iff, hc0.ne', or_false, mul_pos_iff_of_pos_left hc0]
              rcases h2 with hlo | ⟨hlo, h2, h5⟩
              · rw [if_pos hlo, if_pos hlo]
                rfl
              · rw [if_neg hlo.ne, if_neg hlo.ne, h2, h5]
                by_cases hpos : 0 < b.loss
                · rw [if_pos hpos, if_pos hpos]
                  rw [ih _ L L' rl pl, ih _ R R' rr pr]
                  generalize Res.map CNode.ifNeeded (bestSplit e fuel _ (L.map Prod.fst) _ _) = X
                  generalize Res.map CNode.ifNeeded (bestSplit e fuel _ (R.map Prod.fst) _ _) = Z
                  by_cases c1 : 0 < b.leftLoss <;> by_cases c2 : 0 < b.rightLoss <;> simp only [c1, c2, if_true, if_false] <;>
                    cases X <;> cases Z <;> rfl
                · rw [if_neg hpos, if_neg hpos]
                  rfl

theorem cartFit_relabel [IsStrictOrderedRing K] {c : K} (hc0 : 0 < c) {e e' : CartEnv K Y} (hl : e'.loss = e.loss)
    (hd : e'.maxDepth = e.maxDepth) (hloss : RelLoss φ c e.loss) (hs : SortsIdx e.sortIdx) (hs' : SortsIdx e'.sortIdx) {w : Nat}
    (rows rows' : LRows K Y) (hr : Rect w rows) (hp : (relabel φ rows).Perm rows') :
    (cartFit e' (rows'.map Prod.fst) (rows'.map Prod.snd)).map CNode.ifNeeded =
      ((cartFit e (rows.map Prod.fst) (rows.map Prod.snd)).map CNode.ifNeeded).map (CNode.relabel φ) := by
  unfold cartFit
  rw [List.length_map, List.length_map, ← hp.length_eq, relabel_length]
  exact bestSplit_relabel hc0 hl hd hloss hs hs' _ [] _ _ hr hp _

omit [Zero Y] in
theorem predict_relabel (x : List K) (t : CNode K Y) :
    predictNode (t.relabel φ) x = (predictNode t x).map (Option.map φ) := by
  induction t with
  | nil => rfl
  | node l r t f a b nd ihl ihr =>
    simp only [CNode.relabel, predictNode, ihl, ihr]
    cases x[f]? with
    | none => rfl
    | some v =>
      simp only
      split
      · cases predictNode l x with
        | ok o => cases o <;> rfl
        | err => rfl
        | panic => rfl
      · cases predictNode r x with
        | ok o => cases o <;> rfl
        | err => rfl
        | panic => rfl

end

end Golearn
