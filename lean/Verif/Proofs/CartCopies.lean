import Verif.Proofs.CartReorder
import Verif.Spec.Copies

/-! # CART trees of rows that occur several times -/

namespace Golearn

theorem copies_map {α β : Type} (k : Nat) (f : α → β) (l : List α) : (copies k l).map f = copies k (l.map f) := by
  unfold copies
  rw [List.map_flatten, List.map_replicate]

theorem copies_filter {α : Type} (k : Nat) (p : α → Bool) (l : List α) : (copies k l).filter p = copies k (l.filter p) := by
  unfold copies
  rw [List.filter_flatten, List.map_replicate]

theorem copies_length {α : Type} (k : Nat) (l : List α) : (copies k l).length = k * l.length := by
  unfold copies
  rw [List.length_flatten, List.map_replicate, List.sum_replicate, smul_eq_mul]

theorem copies_mem {α : Type} {k : Nat} (hk : 0 < k) {l : List α} {x : α} : x ∈ copies k l ↔ x ∈ l := by
  unfold copies
  rw [List.mem_flatten]
  constructor
  · rintro ⟨l', h1, h2⟩
    rw [List.eq_of_mem_replicate h1] at h2
    exact h2
  · intro h
    exact ⟨l, List.mem_replicate.2 ⟨hk.ne', rfl⟩, h⟩

theorem copies_count {α : Type} [DecidableEq α] (k : Nat) (l : List α) (x : α) : (copies k l).count x = k * l.count x := by
  unfold copies
  rw [List.count_flatten, List.map_replicate, List.sum_replicate, smul_eq_mul]

theorem copies_sum {K : Type} [Field K] (k : Nat) (l : List K) : (copies k l).sum = (k : K) * l.sum := by
  unfold copies
  rw [List.sum_flatten, List.map_replicate, List.sum_replicate, nsmul_eq_mul]

theorem copies_perm {α : Type} (k : Nat) {l l' : List α} (h : l.Perm l') : (copies k l).Perm (copies k l') := by
  induction k with
  | zero => exact List.Perm.refl _
  | succ k ih =>
    unfold copies at ih ⊢
    rw [List.replicate_succ, List.replicate_succ, List.flatten_cons, List.flatten_cons]
    exact h.append ih

theorem copies_nil {α : Type} {k : Nat} (hk : 0 < k) {l l' : List α} (h : (copies k l).Perm l') : l = [] ↔ l' = [] := by
  rw [← List.length_eq_zero_iff, ← List.length_eq_zero_iff, ← h.length_eq, copies_length, mul_eq_zero]
  constructor
  · exact Or.inr
  · rintro (h | h)
    · omega
    · exact h

section
variable {K : Type} [Field K] [LinearOrder K] {Y : Type}

theorem sortedUnique_of_mem {v v' : List K} (h : ∀ x, x ∈ v ↔ x ∈ v') : sortedUnique v = sortedUnique v' := by
  obtain ⟨a1, a2⟩ := sortedUnique_spec v
  obtain ⟨b1, b2⟩ := sortedUnique_spec v'
  have n1 : (sortedUnique v).Nodup := a1.imp fun h => h.ne
  have n2 : (sortedUnique v').Nodup := b1.imp fun h => h.ne
  have hp : (sortedUnique v).Perm (sortedUnique v') :=
    (List.perm_ext_iff_of_nodup n1 n2).2 fun x => by rw [a2, b2, h]
  exact hp.eq_of_pairwise (fun a b _ _ h1 h2 => absurd (h1.trans h2) (lt_irrefl _)) a1 b1

theorem copies_rect {k w : Nat} (hk : 0 < k) {rows rows' : LRows K Y} (hr : Rect w rows) (hp : (copies k rows).Perm rows') :
    Rect w rows' := fun p h => hr p ((copies_mem hk).1 (hp.mem_iff.2 h))

/-- Two splits, of the rows and of copies of them. -/
def CopySplit (k w : Nat) (s s' : Split K Y) : Prop :=
  ∃ L L' R R' : LRows K Y, s = ⟨L.map Prod.fst, R.map Prod.fst, L.map Prod.snd, R.map Prod.snd⟩ ∧
    s' = ⟨L'.map Prod.fst, R'.map Prod.fst, L'.map Prod.snd, R'.map Prod.snd⟩ ∧ (copies k L).Perm L' ∧ (copies k R).Perm R' ∧
    Rect w L ∧ Rect w R

/-- The same best split, of the rows and of copies of them. -/
def CopyBest (k w : Nat) (b b' : CartBest K Y) : Prop :=
  b'.loss = b.loss ∧ b'.thr = b.thr ∧ b'.feat = b.feat ∧ b'.leftLabel = b.leftLabel ∧ b'.rightLabel = b.rightLabel ∧
    b'.leftLoss = b.leftLoss ∧ b'.rightLoss = b.rightLoss ∧ CopySplit k w b.split b'.split

variable [Zero Y]

theorem thrLoop_copies [IsStrictOrderedRing K] {k : Nat} (hk : 0 < k) {loss : Loss K Y}
    (hcop : ∀ y y', (copies k y).Perm y' → loss y = loss y') {w f : Nat} (hf : f < w)
    {rows rows' : LRows K Y} (hr : Rect w rows) (hp : (copies k rows).Perm rows') (hs : SortedBy f rows) (hs' : SortedBy f rows')
    (num : Nat) (tried : List (Nat × K)) (ts : List K) (hts : ts.Pairwise (· ≤ ·)) (hsep : ∀ t ∈ ts, Separates f t rows)
    (cur cur' : Option (Split K Y))
    (hcur : cur = none ∧ cur' = none ∨
      ∃ t0, cur = some (splitOf f t0 rows) ∧ cur' = some (splitOf f t0 rows') ∧ ∀ t ∈ ts, t0 ≤ t)
    (b b' : CartBest K Y) (hb : CopyBest k w b b') :
    Res.Both (CopyBest k w) (thrLoop loss num tried f (rows.map Prod.fst) (rows.map Prod.snd) ts cur b)
      (thrLoop loss (k * num) tried f (rows'.map Prod.fst) (rows'.map Prod.snd) ts cur' b') := by
  induction ts generalizing cur cur' b b' with
  | nil => exact hb
  | cons t ts ih =>
    obtain ⟨hts1, hts2⟩ := List.pairwise_cons.1 hts
    have hst := hsep t (by simp)
    have hst' : Separates f t rows' := by
      rw [separates_iff] at hst ⊢
      obtain ⟨⟨p, p1, p2⟩, q, q1, q2⟩ := hst
      exact ⟨⟨p, hp.mem_iff.1 ((copies_mem hk).2 p1), p2⟩, q, hp.mem_iff.1 ((copies_mem hk).2 q1), q2⟩
    have hr' : Rect w rows' := copies_rect hk hr hp
    have hsep' : ∀ t ∈ ts, Separates f t rows := fun t h => hsep t (by simp [h])
    have e1 : nextSplit cur (rows.map Prod.fst) f (rows.map Prod.snd) t = Res.ok (splitOf f t rows) := by
      rcases hcur with ⟨rfl, _⟩ | ⟨t0, rfl, _, h0⟩
      · exact createSplit_spec t rows (rect_hasCol hf hr)
      · exact updateSplit_spec (h0 t (by simp)) rows (rect_hasCol hf hr) hs (separates_iff.1 hst).2
    have e2 : nextSplit cur' (rows'.map Prod.fst) f (rows'.map Prod.snd) t = Res.ok (splitOf f t rows') := by
      rcases hcur with ⟨_, rfl⟩ | ⟨t0, _, rfl, h0⟩
      · exact createSplit_spec t rows' (rect_hasCol hf hr')
      · exact updateSplit_spec (h0 t (by simp)) rows' (rect_hasCol hf hr') hs' (separates_iff.1 hst').2
    have pl : (copies k (lefts f t rows)).Perm (lefts f t rows') := by
      unfold lefts
      rw [← copies_filter]
      exact hp.filter _
    have pr : (copies k (rights f t rows)).Perm (rights f t rows') := by
      unfold rights
      rw [← copies_filter]
      exact hp.filter _
    have l1 : lossOr0 loss ((lefts f t rows').map Prod.snd) = lossOr0 loss ((lefts f t rows).map Prod.snd) := by
      have hy : (copies k ((lefts f t rows).map Prod.snd)).Perm ((lefts f t rows').map Prod.snd) := by
        rw [← copies_map]; exact pl.map Prod.snd
      unfold lossOr0; rw [hcop _ _ hy]
    have l2 : lossOr0 loss ((rights f t rows').map Prod.snd) = lossOr0 loss ((rights f t rows).map Prod.snd) := by
      have hy : (copies k ((rights f t rows).map Prod.snd)).Perm ((rights f t rows').map Prod.snd) := by
        rw [← copies_map]; exact pr.map Prod.snd
      unfold lossOr0; rw [hcop _ _ hy]
    have n1 : (lefts f t rows').length = k * (lefts f t rows).length := by rw [← pl.length_eq, copies_length]
    have n2 : (rights f t rows').length = k * (rights f t rows).length := by rw [← pr.length_eq, copies_length]
    have hk0 : (k : K) ≠ 0 := Nat.cast_ne_zero.2 hk.ne'
    have hdiv : ∀ (a : K) (m : Nat), a * ((k * m : Nat) : K) / ((k * num : Nat) : K) = a * (m : K) / (num : K) := by
      intro a m
      rw [Nat.cast_mul, Nat.cast_mul, mul_left_comm, mul_div_mul_left _ _ hk0]
    rw [thrLoop, thrLoop]
    by_cases hv : validate tried f t = true
    · rw [if_pos hv, if_pos hv, e1, e2, Res.bind_ok, Res.bind_ok]
      simp only [splitOf, l1, l2, List.length_map, n1, n2, hdiv]
      refine Res.both_bind (Res.both_refl (R := (· = ·)) (fun _ => rfl) _) ?_
      rintro l _ rfl
      refine Res.both_bind (Res.both_refl (R := (· = ·)) (fun _ => rfl) _) ?_
      rintro r _ rfl
      refine ih hts2 hsep' _ _ (Or.inr ⟨t, rfl, rfl, hts1⟩) _ _ ?_
      rw [hb.1]
      split
      · exact ⟨rfl, rfl, rfl, rfl, rfl, rfl, rfl, _, _, _, _, rfl, rfl, pl, pr,
          fun p h => hr p (List.mem_filter.1 h).1, fun p h => hr p (List.mem_filter.1 h).1⟩
      · exact hb
    · rw [if_neg hv, if_neg hv]
      refine ih hts2 hsep' _ _ ?_ _ _ hb
      rcases hcur with h | ⟨t0, h1, h2, h3⟩
      · exact Or.inl h
      · exact Or.inr ⟨t0, h1, h2, fun t h => h3 t (by simp [h])⟩

theorem featLoop_copies [IsStrictOrderedRing K] {k : Nat} (hk : 0 < k) {loss : Loss K Y}
    (hcop : ∀ y y', (copies k y).Perm y' → loss y = loss y')
    {s s' : List K → List Nat} (hs : SortsIdx s) (hs' : SortsIdx s') {w : Nat} {rows rows' : LRows K Y} (hr : Rect w rows)
    (hp : (copies k rows).Perm rows') (tried : List (Nat × K)) (fs : List Nat) (hfs : ∀ f ∈ fs, f < w) (b b' : CartBest K Y)
    (hb : CopyBest k w b b') :
    Res.Both (CopyBest k w) (featLoop loss s tried (rows.map Prod.fst) (rows.map Prod.snd) fs b)
      (featLoop loss s' tried (rows'.map Prod.fst) (rows'.map Prod.snd) fs b') := by
  induction fs generalizing b b' with
  | nil => exact hb
  | cons f fs ih =>
    have hf := hfs f (by simp)
    have hr' : Rect w rows' := copies_rect hk hr hp
    obtain ⟨q, q1, q2, q3⟩ := reorder_spec (f := f) (w := w) hs rows
    obtain ⟨q', q1', q2', q3'⟩ := reorder_spec (f := f) (w := w) hs' rows'
    have hvals : ∀ x, x ∈ (rows'.map fun p => colVal f p.1) ↔ x ∈ rows.map fun p => colVal f p.1 := by
      intro x
      rw [← (hp.map _).mem_iff, copies_map, copies_mem hk]
    have hlen : rows'.length = k * rows.length := by rw [← hp.length_eq, copies_length]
    rw [featLoop, featLoop, getFeature_spec hf rows hr, getFeature_spec hf rows' hr', Res.bind_ok, Res.bind_ok, q3, q3',
      Res.bind_ok, Res.bind_ok, sortedUnique_of_mem hvals]
    simp only [List.length_map, hlen]
    obtain ⟨u1, u2⟩ := sortedUnique_spec (rows.map fun p => colVal f p.1)
    refine Res.both_bind (thrLoop_copies hk hcop hf (fun p h => hr p (q1.mem_iff.1 h))
      ((copies_perm k q1).trans (hp.trans q1'.symm)) q2 q2' _ _
      _ (midpoints_sorted _ u1) ?_ none none (Or.inl ⟨rfl, rfl⟩) b b' hb) ?_
    · intro t ht
      apply separates_perm q1
      obtain ⟨x, hx, z, hz, h1, h2⟩ := midpoints_mem _ u1 t ht
      obtain ⟨p, hp1, rfl⟩ := List.mem_map.1 ((u2 x).1 hx)
      obtain ⟨p', hp1', rfl⟩ := List.mem_map.1 ((u2 z).1 hz)
      exact separates_iff.2 ⟨⟨p, hp1, h1⟩, p', hp1', h2.le⟩
    · intro c c' hc
      exact ih (fun f h => hfs f (by simp [h])) c c' hc

theorem bestSplit_copies [IsStrictOrderedRing K] {k : Nat} (hk : 0 < k) {e e' : CartEnv K Y} (hl : e'.loss = e.loss)
    (hd : e'.maxDepth = e.maxDepth)
    (hcop : ∀ y y', (copies k y).Perm y' → e.loss y = e.loss y') (hs : SortsIdx e.sortIdx) (hs' : SortsIdx e'.sortIdx) {w : Nat}
    (fuel : Nat) (tried : List (Nat × K)) (rows rows' : LRows K Y) (hr : Rect w rows) (hp : (copies k rows).Perm rows')
    (depth : Int) :
    bestSplit e fuel tried (rows.map Prod.fst) (rows.map Prod.snd) depth =
      bestSplit e' fuel tried (rows'.map Prod.fst) (rows'.map Prod.snd) depth := by
  induction fuel generalizing tried rows rows' depth with
  | zero => rfl
  | succ fuel ih =>
    rw [bestSplit.eq_def e, bestSplit.eq_def e']
    simp only [hd]
    by_cases hlim : e.maxDepth ≠ -1 ∧ e.maxDepth < depth + 1
    · rw [if_pos hlim, if_pos hlim]
    rw [if_neg hlim, if_neg hlim]
    have hr' : Rect w rows' := copies_rect hk hr hp
    cases hrows : rows with
    | nil =>
      rw [(copies_nil hk hp).1 hrows]
      rfl
    | cons p ps =>
      cases hrows' : rows' with
      | nil => exact absurd ((copies_nil hk hp).2 hrows') (by rw [hrows]; simp)
      | cons p' ps' =>
        have w1 : p.1.length = w := hr p (by rw [hrows]; simp)
        have w2 : p'.1.length = w := hr' p' (by rw [hrows']; simp)
        simp only [List.map_cons, w1, w2]
        have x1 : p.1 :: ps.map Prod.fst = rows.map Prod.fst := by rw [hrows]; rfl
        have x2 : p.2 :: ps.map Prod.snd = rows.map Prod.snd := by rw [hrows]; rfl
        have x3 : p'.1 :: ps'.map Prod.fst = rows'.map Prod.fst := by rw [hrows']; rfl
        have x4 : p'.2 :: ps'.map Prod.snd = rows'.map Prod.snd := by rw [hrows']; rfl
        have hy : (copies k (rows.map Prod.snd)).Perm (rows'.map Prod.snd) := by rw [← copies_map]; exact hp.map Prod.snd
        rw [x1, x2, x3, x4, hl, ← hcop _ _ hy]
        apply Res.both_eq
        refine Res.both_bind (Res.both_refl (R := (· = ·)) (fun _ => rfl) _) ?_
        rintro o _ rfl
        refine Res.both_bind (featLoop_copies hk hcop hs hs' hr hp tried (List.range w) (fun f h => List.mem_range.1 h) _ _
          ⟨rfl, rfl, rfl, rfl, rfl, rfl, rfl, rows, rows', rows, rows', rfl, rfl, hp, hp, hr, hr⟩) ?_
        intro b b' ⟨h1, h2, h3, h4, h5, h6, h7, L, L', R, R', h8, h9, pl, pr, rl, rr⟩
        rw [h1, h2, h3, h4, h5, h6, h7, h8, h9]
        simp only
        rw [ih _ L L' rl pl, ih _ R R' rr pr]
        exact Res.both_refl (R := (· = ·)) (fun _ => rfl) _

/-- More steps give the same tree. -/
theorem bestSplit_mono (e : CartEnv K Y) (fuel : Nat) (tried : List (Nat × K)) (data : List (List K)) (y : List Y) (depth : Int)
    (t : CNode K Y) (h : bestSplit e fuel tried data y depth = Res.ok t) : bestSplit e (fuel + 1) tried data y depth = Res.ok t := by
  induction fuel generalizing tried data y depth t with
  | zero => cases h
  | succ fuel ih =>
    rw [bestSplit.eq_def] at h ⊢
    simp only at h ⊢
    split at h
    · next hc => rw [if_pos hc]; exact h
    · next hc =>
      rw [if_neg hc]
      cases data with
      | nil => cases h
      | cons x xs =>
        simp only at h ⊢
        obtain ⟨o, ho, h⟩ := Res.bind_eq_ok.1 h
        obtain ⟨b, hb, h⟩ := Res.bind_eq_ok.1 h
        rw [ho, Res.bind_ok, hb, Res.bind_ok]
        split at h
        · next h1 => rw [if_pos h1]; exact h
        · next h1 =>
          rw [if_neg h1]
          split at h
          · next h2 =>
            rw [if_pos h2]
            obtain ⟨l, hl, h⟩ := Res.bind_eq_ok.1 h
            obtain ⟨r, hr, h⟩ := Res.map_eq_ok.1 h
            subst h
            refine Res.bind_eq_ok.2 ⟨l, ?_, Res.map_eq_ok.2 ⟨r, ?_, rfl⟩⟩
            · split at hl
              · next h3 =>
                rw [if_pos h3]
                obtain ⟨l', hl', rfl⟩ := Res.map_eq_ok.1 hl
                rw [ih _ _ _ _ _ hl', Res.map_ok]
              · next h3 => rw [if_neg h3]; exact hl
            · by_cases h4 : 0 < b.rightLoss
              · rw [if_pos h4] at hr ⊢
                obtain ⟨r', hr', rfl⟩ := Res.map_eq_ok.1 hr
                rw [ih _ _ _ _ _ hr', Res.map_ok]
              · rw [if_neg h4] at hr ⊢; exact hr
          · next h2 => rw [if_neg h2]; exact h

theorem bestSplit_more (e : CartEnv K Y) {fuel fuel' : Nat} (hle : fuel ≤ fuel') (tried : List (Nat × K)) (data : List (List K))
    (y : List Y) (depth : Int) (t : CNode K Y) (h : bestSplit e fuel tried data y depth = Res.ok t) :
    bestSplit e fuel' tried data y depth = Res.ok t := by
  induction hle with
  | refl => exact h
  | step _ ih => exact bestSplit_mono e _ _ _ _ _ _ ih

/-- Fitting to rows that all occur `k` times as often. -/
theorem cartFit_copies [IsStrictOrderedRing K] {k : Nat} (hk : 0 < k) {e e' : CartEnv K Y} (hl : e'.loss = e.loss)
    (hd : e'.maxDepth = e.maxDepth) (hcop : ∀ y y', (copies k y).Perm y' → e.loss y = e.loss y') (hs : SortsIdx e.sortIdx)
    (hs' : SortsIdx e'.sortIdx) {w : Nat} (rows rows' : LRows K Y) (hr : Rect w rows) (hp : (copies k rows).Perm rows')
    (t : CNode K Y) (h : cartFit e (rows.map Prod.fst) (rows.map Prod.snd) = Res.ok t) :
    cartFit e' (rows'.map Prod.fst) (rows'.map Prod.snd) = Res.ok t := by
  unfold cartFit at h ⊢
  rw [List.length_map] at h ⊢
  rw [← bestSplit_copies hk hl hd hcop hs hs' (rows'.length + 1) [] rows rows' hr hp 0]
  refine bestSplit_more e ?_ _ _ _ _ _ h
  rw [← hp.length_eq, copies_length]
  have := Nat.le_mul_of_pos_left rows.length hk
  omega

end

section
variable {K : Type} [Field K] [LinearOrder K] [IsStrictOrderedRing K]

theorem modeStep_copies {k : Nat} (hk : 0 < k) {y y' : List Int} (h : (copies k y).Perm y') (labels : List Int) :
    modeStep (convertToMap y labels) = modeStep (convertToMap y' labels) := by
  funext best l
  unfold modeStep
  simp only [convertToMap_get, ← h.count_eq, copies_count, Nat.mul_lt_mul_left hk]

theorem classLoss_copies {k : Nat} (hk : 0 < k) (lg : K → K) (labels : List Int) (c : Criterion) (y y' : List Int)
    (h : (copies k y).Perm y') : classLoss lg labels c y = classLoss lg labels c y' := by
  have hk0 : (k : K) ≠ 0 := Nat.cast_ne_zero.2 hk.ne'
  have hdiv : ∀ a b : Nat, ((k * a : Nat) : K) / ((k * b : Nat) : K) = (a : K) / (b : K) := by
    intro a b
    rw [Nat.cast_mul, Nat.cast_mul, mul_div_mul_left _ _ hk0]
  have e1 : giniLoss (K := K) labels y = giniLoss labels y' := by
    unfold giniLoss
    simp only [convertToMap_get, modeStep_copies hk h, ← h.count_eq, ← h.length_eq, copies_count, copies_length, hdiv]
  have e2 : entropyLoss lg labels y = entropyLoss lg labels y' := by
    unfold entropyLoss
    simp only [convertToMap_get, modeStep_copies hk h, ← h.count_eq, ← h.length_eq, copies_count, copies_length, hdiv]
  unfold classLoss
  simp only [copies_nil hk h, e1, e2]

omit [LinearOrder K] [IsStrictOrderedRing K] in
theorem meanK_copies [CharZero K] {k : Nat} (hk : 0 < k) (y : List K) : meanK (copies k y) = meanK y := by
  have hk0 : (k : K) ≠ 0 := Nat.cast_ne_zero.2 hk.ne'
  unfold meanK
  rw [copies_sum, copies_length, Nat.cast_mul, mul_div_mul_left _ _ hk0]

theorem regLoss_copies {k : Nat} (hk : 0 < k) (c : Criterion) (y y' : List K) (h : (copies k y).Perm y') :
    regLoss c y = regLoss c y' := by
  have hm : meanK y' = meanK y := by rw [← meanK_perm h, meanK_copies hk]
  have e1 : meanAbsErr y (averageOf y) = meanAbsErr y' (averageOf y') := by
    rw [meanAbsErr_eq, meanAbsErr_eq, ← mae_perm h]
    unfold maeImpurity
    rw [meanK_copies hk, copies_map, meanK_copies hk]
  have e2 : meanSqErr y (averageOf y) = meanSqErr y' (averageOf y') := by
    rw [meanSqErr_eq, meanSqErr_eq, ← mse_perm h]
    unfold mseImpurity
    rw [meanK_copies hk, copies_map, meanK_copies hk]
  have e3 : averageOf y = averageOf y' := by rw [averageOf_eq, averageOf_eq, hm]
  unfold regLoss
  cases c <;> simp only [copies_nil hk h] <;> first | rw [e1, e3] | rw [e2, e3]

end

end Golearn
