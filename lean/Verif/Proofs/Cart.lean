import Verif.Spec.Cart
import Verif.Proofs.Numeric
import Mathlib.Tactic.Linarith
import Mathlib.Algebra.Order.Field.Basic

/-! # Lemmas about CART trees -/

namespace Golearn

section
variable {K : Type} [Field K] [LinearOrder K] {Y : Type}

/-- The two sides of a split of rows. -/
def splitOf (f : Nat) (t : K) (rows : LRows K Y) : Split K Y :=
  ⟨(lefts f t rows).map Prod.fst, (rights f t rows).map Prod.fst, (lefts f t rows).map Prod.snd,
    (rights f t rows).map Prod.snd⟩

theorem colVal_get {f : Nat} {x : List K} (hf : f < x.length) : x[f]? = some (colVal f x) := by
  simp [colVal, List.getD, hf]

/-- The rows have column `f`. -/
def HasCol (f : Nat) (rows : LRows K Y) : Prop := ∀ p ∈ rows, f < p.1.length

theorem rect_hasCol {f w : Nat} (hf : f < w) {rows : LRows K Y} (hr : Rect w rows) : HasCol f rows :=
  fun p hp => by rw [hr p hp]; exact hf

theorem createLoop_spec {f : Nat} (t : K) (rows : LRows K Y) (hr : HasCol f rows) (acc : Split K Y) :
    createLoop f t (rows.map Prod.fst) (rows.map Prod.snd) acc = Res.ok
      ⟨acc.left ++ (lefts f t rows).map Prod.fst, acc.right ++ (rights f t rows).map Prod.fst,
        acc.leftY ++ (lefts f t rows).map Prod.snd, acc.rightY ++ (rights f t rows).map Prod.snd⟩ := by
  induction rows generalizing acc with
  | nil => simp [createLoop, lefts, rights]
  | cons p ps ih =>
    obtain ⟨x, y⟩ := p
    have hx := colVal_get (hr (x, y) (by simp))
    simp only at hx
    simp only [List.map_cons, createLoop, hx]
    rw [ih (fun p hp => hr p (by simp [hp]))]
    by_cases h : colVal f x < t <;> simp [lefts, rights, h]

theorem createSplit_spec {f : Nat} (t : K) (rows : LRows K Y) (hr : HasCol f rows) :
    createSplit (rows.map Prod.fst) f (rows.map Prod.snd) t = Res.ok (splitOf f t rows) := by
  rw [createSplit, createLoop_spec t rows hr]
  simp [splitOf]

/-- Rows in the order of column `f`. -/
def SortedBy (f : Nat) (rows : LRows K Y) : Prop := rows.Pairwise fun p q => colVal f p.1 ≤ colVal f q.1

theorem updateLoop_spec {f : Nat} (t : K) (rows : LRows K Y) (hr : HasCol f rows) (hs : SortedBy f rows)
    (hge : ∃ p ∈ rows, t ≤ colVal f p.1) (left : List (List K)) (leftY : List Y) :
    updateLoop f t (rows.map Prod.fst) (rows.map Prod.snd) left leftY = Res.ok
      ⟨left ++ (lefts f t rows).map Prod.fst, (rights f t rows).map Prod.fst,
        leftY ++ (lefts f t rows).map Prod.snd, (rights f t rows).map Prod.snd⟩ := by
  induction rows generalizing left leftY with
  | nil => obtain ⟨p, hp, _⟩ := hge; cases hp
  | cons p ps ih =>
    obtain ⟨x, y⟩ := p
    have hx := colVal_get (hr (x, y) (by simp))
    simp only at hx
    simp only [List.map_cons, updateLoop, hx]
    obtain ⟨hs1, hs2⟩ := List.pairwise_cons.1 hs
    by_cases h : colVal f x < t
    · rw [if_pos h, ih (fun p hp => hr p (by simp [hp])) hs2]
      · simp [lefts, rights, h]
      · obtain ⟨q, hq, hqt⟩ := hge
        rcases List.mem_cons.1 hq with rfl | hq
        · exact absurd h (not_lt.2 hqt)
        · exact ⟨q, hq, hqt⟩
    · rw [if_neg h]
      have hall : ∀ q ∈ ps, ¬ colVal f q.1 < t := fun q hq => not_lt.2 ((not_lt.1 h).trans (hs1 q hq))
      have e1 : lefts f t ((x, y) :: ps) = [] := by
        unfold lefts
        rw [List.filter_eq_nil_iff]
        intro q hq
        rcases List.mem_cons.1 hq with rfl | hq
        · simpa using h
        · simpa using hall q hq
      have e2 : rights f t ((x, y) :: ps) = (x, y) :: ps := by
        unfold rights
        rw [List.filter_eq_self]
        intro q hq
        rcases List.mem_cons.1 hq with rfl | hq
        · simpa using h
        · simpa using hall q hq
      rw [e1, e2]
      simp

/-- In sorted rows, raising the threshold moves a prefix of the right side to the left. -/
theorem updateSplit_spec {f : Nat} {t t' : K} (htt : t ≤ t') (rows : LRows K Y) (hr : HasCol f rows)
    (hs : SortedBy f rows) (hge : ∃ p ∈ rows, t' ≤ colVal f p.1) :
    updateSplit (splitOf f t rows) f t' = Res.ok (splitOf f t' rows) := by
  have hsub : (rights f t rows).Sublist rows := List.filter_sublist
  obtain ⟨p, hp, hpt⟩ := hge
  have hmem : p ∈ rights f t rows := List.mem_filter.2 ⟨hp, by simpa using htt.trans hpt⟩
  have e := updateLoop_spec t' (rights f t rows) (fun p hp => hr p (hsub.subset hp)) (hs.sublist hsub) ⟨p, hmem, hpt⟩
    ((lefts f t rows).map Prod.fst) ((lefts f t rows).map Prod.snd)
  have e1 : rights f t' (rights f t rows) = rights f t' rows := by
    unfold rights
    rw [List.filter_filter]
    apply List.filter_congr
    intro q _
    by_cases h : colVal f q.1 < t'
    · simp [h]
    · have : ¬ colVal f q.1 < t := fun h' => h (h'.trans_le htt)
      simp [h, this]
  have e2 : lefts f t rows ++ lefts f t' (rights f t rows) = lefts f t' rows := by
    clear e e1 hmem hsub hpt hp
    induction rows with
    | nil => rfl
    | cons q qs ih =>
      obtain ⟨hs1, hs2⟩ := List.pairwise_cons.1 hs
      have hq := ih (fun p hp => hr p (by simp [hp])) hs2
      by_cases h : colVal f q.1 < t
      · have h' : colVal f q.1 < t' := h.trans_le htt
        have a1 : lefts f t (q :: qs) = q :: lefts f t qs := by simp [lefts, h]
        have a2 : rights f t (q :: qs) = rights f t qs := by simp [rights, h]
        have a3 : lefts f t' (q :: qs) = q :: lefts f t' qs := by simp [lefts, h']
        rw [a1, a2, a3, List.cons_append, hq]
      · have hall : ∀ r ∈ q :: qs, ¬ colVal f r.1 < t := by
          intro r hr
          rcases List.mem_cons.1 hr with rfl | hr
          · exact h
          · exact not_lt.2 ((not_lt.1 h).trans (hs1 r hr))
        have a1 : lefts f t (q :: qs) = [] := by
          unfold lefts; rw [List.filter_eq_nil_iff]; intro r hr; simpa using hall r hr
        have a2 : rights f t (q :: qs) = q :: qs := by
          unfold rights; rw [List.filter_eq_self]; intro r hr; simpa using hall r hr
        rw [a1, a2, List.nil_append]
  rw [e1, ← List.map_append, ← List.map_append, e2] at e
  exact e

/-! ## The values of a column -/

theorem getFeature_spec {f w : Nat} (hf : f < w) (rows : LRows K Y) (hr : Rect w rows) :
    getFeature (rows.map Prod.fst) f = Res.ok (rows.map fun p => colVal f p.1) := by
  unfold getFeature
  rw [mapRes_of_ok _ (colVal f) _ (by
    intro x hx
    obtain ⟨p, hp, rfl⟩ := List.mem_map.1 hx
    rw [colVal_get (rect_hasCol hf hr p hp)])]
  rw [List.map_map]
  rfl

theorem unique_fold (vals u : List K) (hu : u.Nodup) :
    (vals.foldl (fun u v => if v ∈ u then u else u ++ [v]) u).Nodup ∧
    ∀ x, x ∈ vals.foldl (fun u v => if v ∈ u then u else u ++ [v]) u ↔ x ∈ u ∨ x ∈ vals := by
  induction vals generalizing u with
  | nil => exact ⟨hu, by simp⟩
  | cons v vs ih =>
    rw [List.foldl_cons]
    by_cases h : v ∈ u
    · rw [if_pos h]
      obtain ⟨h1, h2⟩ := ih u hu
      refine ⟨h1, ?_⟩
      intro x
      rw [h2 x, List.mem_cons]
      constructor
      · rintro (a | a)
        · exact Or.inl a
        · exact Or.inr (Or.inr a)
      · rintro (a | rfl | a)
        · exact Or.inl a
        · exact Or.inl h
        · exact Or.inr a
    · rw [if_neg h]
      obtain ⟨h1, h2⟩ := ih (u ++ [v]) (by
        rw [List.nodup_append]
        exact ⟨hu, by simp, by intro a ha b hb; rw [List.mem_singleton] at hb; subst hb; rintro rfl; exact h ha⟩)
      refine ⟨h1, ?_⟩
      intro x
      rw [h2 x, List.mem_append, List.mem_singleton, List.mem_cons, or_assoc]

theorem sortedUnique_spec (vals : List K) :
    (sortedUnique vals).Pairwise (· < ·) ∧ ∀ x, x ∈ sortedUnique vals ↔ x ∈ vals := by
  obtain ⟨h1, h2⟩ := unique_fold vals [] (by simp)
  have hp := List.perm_insertionSort (· ≤ ·) (vals.foldl (fun u v => if v ∈ u then u else u ++ [v]) [])
  refine ⟨?_, ?_⟩
  · have hn : (sortedUnique vals).Nodup := hp.nodup_iff.2 h1
    have hs : (sortedUnique vals).Pairwise (· ≤ ·) := List.pairwise_insertionSort (· ≤ ·) _
    exact (hs.and hn).imp fun h => lt_of_le_of_ne h.1 h.2
  · intro x
    show x ∈ List.insertionSort _ _ ↔ _
    rw [hp.mem_iff, h2 x]
    simp

/-- The sorted rows. -/
theorem reorder_spec {sortIdx : List K → List Nat} (hs : SortsIdx sortIdx) {f w : Nat} (rows : LRows K Y) :
    ∃ rows', rows'.Perm rows ∧ SortedBy f rows' ∧
      reorder sortIdx (rows.map fun p => colVal f p.1) (rows.map Prod.fst) (rows.map Prod.snd) =
        Res.ok (rows'.map Prod.fst, rows'.map Prod.snd) := by
  obtain ⟨h1, h2⟩ := hs (rows.map fun p => colVal f p.1)
  obtain ⟨idx, hidx⟩ : ∃ idx, idx = sortIdx (rows.map fun p => colVal f p.1) := ⟨_, rfl⟩
  rw [← hidx, List.length_map] at h1
  rw [← hidx] at h2
  have hlt : ∀ i ∈ idx, i < rows.length := fun i hi => List.mem_range.1 (h1.mem_iff.1 hi)
  cases hrows : rows with
  | nil =>
    subst hrows
    have : idx = [] := by
      cases idx with
      | nil => rfl
      | cons i is => exact absurd (hlt i (by simp)) (by simp)
    refine ⟨[], List.Perm.refl _, List.Pairwise.nil, ?_⟩
    unfold reorder
    rw [← hidx, this]
    rfl
  | cons p0 ps =>
    rw [← hrows]
    refine ⟨idx.map fun i => rows.getD i p0, ?_, ?_, ?_⟩
    · refine (h1.map _).trans ?_
      have : (List.range rows.length).map (fun i => rows.getD i p0) = rows := by
        apply List.ext_getElem
        · simp
        · intro i h1 h2; simp [List.getD, h2]
      rw [this]
    · unfold SortedBy
      rw [List.pairwise_map]
      refine h2.imp_of_mem ?_
      intro i j hi hj hij
      have e : ∀ k, k < rows.length → (rows.map fun p => colVal f p.1).getD k 0 = colVal f (rows.getD k p0).1 := by
        intro k hk; simp [List.getD, hk]
      rwa [e i (hlt i hi), e j (hlt j hj)] at hij
    · unfold reorder
      rw [← hidx]
      have get : ∀ {β : Type} (g : List K × Y → β), mapRes (atIdx (rows.map g)) idx =
          Res.ok (idx.map fun i => g (rows.getD i p0)) := by
        intro β g
        apply mapRes_of_ok
        intro i hi
        simp [atIdx, List.getD, hlt i hi]
      rw [get Prod.fst, Res.bind_ok, get Prod.snd, Res.map_ok, List.map_map, List.map_map]
      rfl

/-! ## Thresholds -/

omit [LinearOrder K] in
theorem midpoints_cons (a b : K) (l : List K) : midpoints (a :: b :: l) = (a + b) / 2 :: midpoints (b :: l) := rfl

theorem mid_between [IsStrictOrderedRing K] {a b : K} (h : a < b) : a < (a + b) / 2 ∧ (a + b) / 2 < b := by
  constructor
  · rw [lt_div_iff₀ (by norm_num)]; linarith
  · rw [div_lt_iff₀ (by norm_num)]; linarith

/-- Midpoints lie strictly between two of the values. -/
theorem midpoints_mem [IsStrictOrderedRing K] (u : List K) (hu : u.Pairwise (· < ·)) :
    ∀ m ∈ midpoints u, ∃ a ∈ u, ∃ b ∈ u, a < m ∧ m < b := by
  induction u with
  | nil => intro m hm; cases hm
  | cons a u ih =>
    cases u with
    | nil => intro m hm; cases hm
    | cons b l =>
      intro m hm
      rw [midpoints_cons, List.mem_cons] at hm
      rcases hm with rfl | hm
      · have := mid_between ((List.pairwise_cons.1 hu).1 b (by simp))
        exact ⟨a, by simp, b, by simp, this⟩
      · obtain ⟨c, hc, d, hd, h⟩ := ih (List.pairwise_cons.1 hu).2 m hm
        exact ⟨c, List.mem_cons_of_mem _ hc, d, List.mem_cons_of_mem _ hd, h⟩

theorem midpoints_sorted [IsStrictOrderedRing K] (u : List K) (hu : u.Pairwise (· < ·)) :
    (midpoints u).Pairwise (· ≤ ·) := by
  induction u with
  | nil => exact List.Pairwise.nil
  | cons a u ih =>
    cases u with
    | nil => exact List.Pairwise.nil
    | cons b l =>
      rw [midpoints_cons, List.pairwise_cons]
      obtain ⟨h1, h2⟩ := List.pairwise_cons.1 hu
      refine ⟨?_, ih h2⟩
      intro m hm
      obtain ⟨c, hc, d, hd, h, _⟩ := midpoints_mem _ h2 m hm
      have hcb : b ≤ c := by
        rcases List.mem_cons.1 hc with rfl | hc
        · exact le_rfl
        · exact ((List.pairwise_cons.1 h2).1 c hc).le
      exact ((mid_between (h1 b (by simp))).2.le.trans hcb).trans h.le

/-- Any threshold between two values cuts them as a midpoint does. -/
theorem midpoints_cut [IsStrictOrderedRing K] (t : K) (a : K) (u : List K) (hu : (a :: u).Pairwise (· < ·)) (ha : a < t)
    (hb : ∃ b ∈ u, t ≤ b) : ∃ m ∈ midpoints (a :: u), ∀ v ∈ a :: u, v < t ↔ v < m := by
  induction u generalizing a with
  | nil => obtain ⟨b, hb, _⟩ := hb; cases hb
  | cons c l ih =>
    obtain ⟨h1, h2⟩ := List.pairwise_cons.1 hu
    by_cases hc : c < t
    · obtain ⟨m, hm, h⟩ := ih c h2 hc (by
        obtain ⟨b, hb, hbt⟩ := hb
        rcases List.mem_cons.1 hb with rfl | hb
        · exact absurd hc (not_lt.2 hbt)
        · exact ⟨b, hb, hbt⟩)
      refine ⟨m, List.mem_cons_of_mem _ hm, ?_⟩
      intro v hv
      rcases List.mem_cons.1 hv with rfl | hv
      · exact ⟨fun _ => (h1 c (by simp)).trans ((h c (by simp)).1 hc), fun _ => ha⟩
      · exact h v hv
    · have hm := mid_between (h1 c (by simp))
      refine ⟨(a + c) / 2, by rw [midpoints_cons]; simp, ?_⟩
      intro v hv
      rcases List.mem_cons.1 hv with rfl | hv
      · exact ⟨fun _ => hm.1, fun _ => ha⟩
      · have hcv : c ≤ v := by
          rcases List.mem_cons.1 hv with rfl | hv
          · exact le_rfl
          · exact ((List.pairwise_cons.1 h2).1 v hv).le
        exact ⟨fun h => absurd (hcv.trans_lt h) hc, fun h => absurd (hcv.trans_lt h) (not_lt.2 hm.2.le)⟩

/-! ## Splits of permuted rows -/

theorem lefts_perm {f : Nat} {t : K} {rows rows' : LRows K Y} (h : rows'.Perm rows) :
    (lefts f t rows').Perm (lefts f t rows) := h.filter _

theorem rights_perm {f : Nat} {t : K} {rows rows' : LRows K Y} (h : rows'.Perm rows) :
    (rights f t rows').Perm (rights f t rows) := h.filter _

theorem perm_ne_nil {α : Type} {l l' : List α} (h : l'.Perm l) (hn : l ≠ []) : l' ≠ [] := by
  rintro rfl
  exact hn h.nil_eq.symm

theorem separates_iff {f : Nat} {t : K} {rows : LRows K Y} :
    Separates f t rows ↔ (∃ p ∈ rows, colVal f p.1 < t) ∧ ∃ p ∈ rows, t ≤ colVal f p.1 := by
  unfold Separates lefts rights
  rw [ne_eq, ne_eq, List.filter_eq_nil_iff, List.filter_eq_nil_iff]
  simp only [decide_eq_true_eq, not_forall, not_not, Bool.not_eq_true', decide_eq_false_iff_not, not_lt, not_le, exists_prop]

theorem separates_perm {f : Nat} {t : K} {rows rows' : LRows K Y} (h : rows'.Perm rows) (hs : Separates f t rows) :
    Separates f t rows' := ⟨perm_ne_nil (lefts_perm h) hs.1, perm_ne_nil (rights_perm h) hs.2⟩

theorem separates_mono {f : Nat} {t : K} {rows rows' : LRows K Y} (h : ∀ p ∈ rows', p ∈ rows) (hs : Separates f t rows') :
    Separates f t rows := by
  rw [separates_iff] at hs ⊢
  obtain ⟨⟨p, hp, hpt⟩, q, hq, hqt⟩ := hs
  exact ⟨⟨p, h p hp, hpt⟩, q, h q hq, hqt⟩

theorem splitImpurity_perm {imp : List Y → K} (hi : ∀ y y', y.Perm y' → imp y = imp y') {f : Nat} {t : K}
    {rows rows' : LRows K Y} (h : rows'.Perm rows) : splitImpurity imp f t rows' = splitImpurity imp f t rows := by
  unfold splitImpurity
  rw [hi _ _ ((lefts_perm h).map _), hi _ _ ((rights_perm h).map _), (lefts_perm h).length_eq, (rights_perm h).length_eq,
    h.length_eq]

/-- Thresholds that cut the rows alike are the same split. -/
theorem splitImpurity_cut {imp : List Y → K} {f : Nat} {t t' : K} {rows : LRows K Y}
    (h : ∀ p ∈ rows, colVal f p.1 < t ↔ colVal f p.1 < t') :
    splitImpurity imp f t rows = splitImpurity imp f t' rows := by
  have e1 : lefts f t rows = lefts f t' rows := by
    apply List.filter_congr; intro p hp; simp [h p hp]
  have e2 : rights f t rows = rights f t' rows := by
    apply List.filter_congr; intro p hp; simp [h p hp]
  unfold splitImpurity
  rw [e1, e2]

theorem lefts_length_lt {f : Nat} {t : K} {rows : LRows K Y} (h : Separates f t rows) :
    (lefts f t rows).length < rows.length := by
  obtain ⟨_, q, hq, hqt⟩ := separates_iff.1 h
  exact List.length_filter_lt_length_iff_exists.2 ⟨q, hq, by simpa using hqt⟩

theorem rights_length_lt {f : Nat} {t : K} {rows : LRows K Y} (h : Separates f t rows) :
    (rights f t rows).length < rows.length := by
  obtain ⟨⟨q, hq, hqt⟩, _⟩ := separates_iff.1 h
  exact List.length_filter_lt_length_iff_exists.2 ⟨q, hq, by simpa using hqt⟩

/-! ## The search for a split -/

/-- What the search knows about its best split. -/
def GoodBest (imp : List Y → K) (pick : List Y → Y → Prop) (w : Nat) (rows : LRows K Y) (b : CartBest K Y) : Prop :=
  b.feat < w ∧ Separates b.feat b.thr rows ∧ b.loss = splitImpurity imp b.feat b.thr rows ∧
  b.loss < imp (rows.map Prod.snd) ∧
  (∃ rows' : LRows K Y, rows'.Perm rows ∧ b.split = splitOf b.feat b.thr rows') ∧
  b.leftLoss = imp ((lefts b.feat b.thr rows).map Prod.snd) ∧ b.rightLoss = imp ((rights b.feat b.thr rows).map Prod.snd) ∧
  pick ((lefts b.feat b.thr rows).map Prod.snd) b.leftLabel ∧ pick ((rights b.feat b.thr rows).map Prod.snd) b.rightLabel

/-- The state of the search after the candidates `C`. -/
def BestInv (imp : List Y → K) (pick : List Y → Y → Prop) (w : Nat) (rows : LRows K Y) (b0 : CartBest K Y)
    (C : Nat → K → Prop) (b : CartBest K Y) : Prop :=
  (b = b0 ∨ GoodBest imp pick w rows b) ∧ b.loss ≤ imp (rows.map Prod.snd) ∧
  ∀ f t, C f t → b.loss ≤ splitImpurity imp f t rows

theorem validate_true {tried : List (Nat × K)} {rows : LRows K Y} (hT : ∀ s ∈ tried, ¬ Separates s.1 s.2 rows) {f : Nat}
    {t : K} (hs : Separates f t rows) : validate tried f t = true := by
  unfold validate
  rw [Bool.not_eq_true', List.any_eq_false]
  intro s hs' h
  simp only [Bool.and_eq_true, beq_iff_eq, decide_eq_true_eq] at h
  exact hT s hs' (by rw [h.1, h.2]; exact hs)

variable [Zero Y]

theorem thrLoop_spec {loss : Loss K Y} {imp : List Y → K} {pick : List Y → Y → Prop} {okY : Y → Prop}
    (hL : Computes loss imp pick okY) {w f : Nat} (hf : f < w) {rows rows' : LRows K Y} (hr : Rect w rows)
    (hok : ∀ p ∈ rows, okY p.2) (hp : rows'.Perm rows) (hsorted : SortedBy f rows') {tried : List (Nat × K)}
    (hT : ∀ s ∈ tried, ¬ Separates s.1 s.2 rows) (b0 : CartBest K Y) (ts : List K) (hts : ts.Pairwise (· ≤ ·))
    (hsep : ∀ t ∈ ts, Separates f t rows) (cur : Option (Split K Y))
    (hcur : cur = none ∨ ∃ t0, cur = some (splitOf f t0 rows') ∧ ∀ t ∈ ts, t0 ≤ t)
    (C : Nat → K → Prop) (b : CartBest K Y) (hb : BestInv imp pick w rows b0 C b) :
    ∃ b', thrLoop loss rows.length tried f (rows'.map Prod.fst) (rows'.map Prod.snd) ts cur b = Res.ok b' ∧
      BestInv imp pick w rows b0 (fun g t => C g t ∨ (g = f ∧ t ∈ ts)) b' := by
  induction ts generalizing cur C b with
  | nil =>
    refine ⟨b, rfl, hb.1, hb.2.1, ?_⟩
    rintro g t (h | ⟨_, h⟩)
    · exact hb.2.2 g t h
    · cases h
  | cons t ts ih =>
    obtain ⟨hts1, hts2⟩ := List.pairwise_cons.1 hts
    have hst := hsep t (by simp)
    have hst' := separates_perm hp hst
    have hr' : Rect w rows' := fun p h => hr p (hp.mem_iff.1 h)
    have hsplit : nextSplit cur (rows'.map Prod.fst) f (rows'.map Prod.snd) t = Res.ok (splitOf f t rows') := by
      rcases hcur with rfl | ⟨t0, rfl, h0⟩
      · exact createSplit_spec t rows' (rect_hasCol hf hr')
      · exact updateSplit_spec (h0 t (by simp)) rows' (rect_hasCol hf hr') hsorted (separates_iff.1 hst').2
    have hlossOf : ∀ part : LRows K Y, part ≠ [] → (∀ p ∈ part, p ∈ rows) →
        ∃ l, lossOr0 loss (part.map Prod.snd) = Res.ok (imp (part.map Prod.snd), l) ∧ pick (part.map Prod.snd) l := by
      intro part hne hsub
      obtain ⟨l, h1, h2⟩ := hL.total (part.map Prod.snd) (by simpa using hne) (by
        intro l hl
        obtain ⟨p, hp, rfl⟩ := List.mem_map.1 hl
        exact hok p (hsub p hp))
      exact ⟨l, by unfold lossOr0; rw [h1], h2⟩
    obtain ⟨l, hl1, hl2⟩ := hlossOf (lefts f t rows') hst'.1 (fun p h => hp.mem_iff.1 (List.mem_filter.1 h).1)
    obtain ⟨r, hr1, hr2⟩ := hlossOf (rights f t rows') hst'.2 (fun p h => hp.mem_iff.1 (List.mem_filter.1 h).1)
    rw [thrLoop, if_pos (validate_true hT hst), hsplit, Res.bind_ok]
    simp only [splitOf] at *
    rw [hl1, Res.bind_ok, hr1, Res.bind_ok]
    simp only [List.length_map]
    have hsub : imp ((lefts f t rows').map Prod.snd) * ((lefts f t rows').length : K) / (rows.length : K) +
        imp ((rights f t rows').map Prod.snd) * ((rights f t rows').length : K) / (rows.length : K) =
        splitImpurity imp f t rows := by
      rw [← splitImpurity_perm hL.perm hp, splitImpurity, hp.length_eq]
    rw [hsub]
    have hil := hL.perm _ _ ((lefts_perm (f := f) (t := t) hp).map Prod.snd)
    have hir := hL.perm _ _ ((rights_perm (f := f) (t := t) hp).map Prod.snd)
    rw [hil, hir]
    obtain ⟨b', h1, h2⟩ := ih hts2 (fun t h => hsep t (by simp [h])) (some (splitOf f t rows'))
      (Or.inr ⟨t, rfl, hts1⟩) (fun g s => C g s ∨ (g = f ∧ s = t))
      (if splitImpurity imp f t rows < b.loss then
        ⟨splitImpurity imp f t rows, splitOf f t rows', t, f, l, r, imp ((lefts f t rows).map Prod.snd),
          imp ((rights f t rows).map Prod.snd)⟩ else b) (by
        by_cases hlt : splitImpurity imp f t rows < b.loss
        · rw [if_pos hlt]
          refine ⟨Or.inr ⟨hf, hst, rfl, hlt.trans_le hb.2.1, ⟨rows', hp, rfl⟩, rfl, rfl,
            hL.pickPerm _ _ _ ((lefts_perm hp).map _) hl2, hL.pickPerm _ _ _ ((rights_perm hp).map _) hr2⟩,
            (hlt.trans_le hb.2.1).le, ?_⟩
          rintro g s (h | ⟨rfl, rfl⟩)
          · exact hlt.le.trans (hb.2.2 g s h)
          · exact le_rfl
        · rw [if_neg hlt]
          refine ⟨hb.1, hb.2.1, ?_⟩
          rintro g s (h | ⟨rfl, rfl⟩)
          · exact hb.2.2 g s h
          · exact not_lt.1 hlt)
    refine ⟨b', h1, h2.1, h2.2.1, ?_⟩
    rintro g s (h | ⟨rfl, h⟩)
    · exact h2.2.2 g s (Or.inl (Or.inl h))
    · rcases List.mem_cons.1 h with rfl | h
      · exact h2.2.2 g s (Or.inl (Or.inr ⟨rfl, rfl⟩))
      · exact h2.2.2 g s (Or.inr ⟨rfl, h⟩)

theorem featLoop_spec [IsStrictOrderedRing K] {loss : Loss K Y} {imp : List Y → K} {pick : List Y → Y → Prop}
    {okY : Y → Prop} (hL : Computes loss imp pick okY) {sortIdx : List K → List Nat} (hS : SortsIdx sortIdx) {w : Nat}
    {rows : LRows K Y} (hr : Rect w rows) (hok : ∀ p ∈ rows, okY p.2) {tried : List (Nat × K)}
    (hT : ∀ s ∈ tried, ¬ Separates s.1 s.2 rows) (b0 : CartBest K Y) (fs : List Nat) (hfs : ∀ f ∈ fs, f < w)
    (C : Nat → K → Prop) (b : CartBest K Y) (hb : BestInv imp pick w rows b0 C b) :
    ∃ b', featLoop loss sortIdx tried (rows.map Prod.fst) (rows.map Prod.snd) fs b = Res.ok b' ∧
      BestInv imp pick w rows b0 (fun g t => C g t ∨ (g ∈ fs ∧ Separates g t rows)) b' := by
  induction fs generalizing C b with
  | nil =>
    refine ⟨b, rfl, hb.1, hb.2.1, ?_⟩
    rintro g t (h | ⟨h, _⟩)
    · exact hb.2.2 g t h
    · cases h
  | cons f fs ih =>
    have hf := hfs f (by simp)
    obtain ⟨rows', hp, hsorted, hre⟩ := reorder_spec (f := f) (w := w) hS rows
    obtain ⟨hu1, hu2⟩ := sortedUnique_spec (rows.map fun p => colVal f p.1)
    have hsep : ∀ t ∈ midpoints (sortedUnique (rows.map fun p => colVal f p.1)), Separates f t rows := by
      intro t ht
      obtain ⟨a, ha, c, hc, h1, h2⟩ := midpoints_mem _ hu1 t ht
      rw [hu2, List.mem_map] at ha hc
      obtain ⟨p, hp, rfl⟩ := ha
      obtain ⟨q, hq, rfl⟩ := hc
      exact separates_iff.2 ⟨⟨p, hp, h1⟩, q, hq, h2.le⟩
    obtain ⟨b1, h1, h2⟩ := thrLoop_spec hL hf hr hok hp hsorted hT b0 _ (midpoints_sorted _ hu1) hsep none (Or.inl rfl) C b hb
    rw [featLoop, getFeature_spec hf rows hr, Res.bind_ok, hre, Res.bind_ok, List.length_map]
    simp only
    rw [h1, Res.bind_ok]
    obtain ⟨b2, h3, h4⟩ := ih (fun g hg => hfs g (by simp [hg])) _ b1 h2
    refine ⟨b2, h3, h4.1, h4.2.1, ?_⟩
    rintro g t (h | ⟨h, hst⟩)
    · exact h4.2.2 g t (Or.inl (Or.inl h))
    · rcases List.mem_cons.1 h with rfl | h
      · -- another threshold of this feature is as good as a midpoint
        obtain ⟨⟨p, hp, hpt⟩, q, hq, hqt⟩ := separates_iff.1 hst
        obtain ⟨u, hu⟩ : ∃ u, u = sortedUnique (rows.map fun p => colVal g p.1) := ⟨_, rfl⟩
        rw [← hu] at hu1 hu2 h4
        have hpu : colVal g p.1 ∈ u := (hu2 _).2 (List.mem_map.2 ⟨p, hp, rfl⟩)
        have hqu : colVal g q.1 ∈ u := (hu2 _).2 (List.mem_map.2 ⟨q, hq, rfl⟩)
        cases u with
        | nil => cases hpu
        | cons a u =>
          have hat : a < t := by
            rcases List.mem_cons.1 hpu with h | h
            · rw [← h]; exact hpt
            · exact ((List.pairwise_cons.1 hu1).1 _ h).trans hpt
          obtain ⟨m, hm, hcut⟩ := midpoints_cut t a u hu1 hat (by
            rcases List.mem_cons.1 hqu with h | h
            · rw [h] at hqt; exact absurd hat (not_lt.2 hqt)
            · exact ⟨_, h, hqt⟩)
          rw [splitImpurity_cut (t' := m) (fun r hr => hcut _ ((hu2 _).2 (List.mem_map.2 ⟨r, hr, rfl⟩)))]
          exact h4.2.2 g m (Or.inl (Or.inr ⟨rfl, hm⟩))
      · exact h4.2.2 g t (Or.inr ⟨h, hst⟩)

/-! ## The tree -/

omit [Zero Y] in
theorem grown_perm {loss : Loss K Y} {imp : List Y → K} {pick : List Y → Y → Prop} {okY : Y → Prop}
    (hL : Computes loss imp pick okY) {w : Nat} (n : CNode K Y) (limit : Option Nat) (rows rows' : LRows K Y)
    (hp : rows'.Perm rows) (h : n.Grown imp pick w limit rows') : n.Grown imp pick w limit rows := by
  induction n generalizing limit rows rows' with
  | nil =>
    rcases h with h | h
    · exact Or.inl h
    · refine Or.inr ?_
      intro f t hf hs
      have := h f t hf (separates_perm hp hs)
      rwa [splitImpurity_perm hL.perm hp, hL.perm _ _ (hp.map Prod.snd)] at this
  | node l r t f a b nd ihl ihr =>
    obtain ⟨h1, ⟨h2, h3, h4, h5⟩, h6, h7, h8, h9⟩ := h
    refine ⟨h1, ⟨h2, separates_perm hp.symm h3, ?_, ?_⟩, hL.pickPerm _ _ _ ((lefts_perm hp).map _) h6,
      hL.pickPerm _ _ _ ((rights_perm hp).map _) h7, ihl _ _ _ (lefts_perm hp) h8, ihr _ _ _ (rights_perm hp) h9⟩
    · rwa [splitImpurity_perm hL.perm hp, hL.perm _ _ (hp.map Prod.snd)] at h4
    · intro f' t' hf' hs'
      have := h5 f' t' hf' (separates_perm hp hs')
      rwa [splitImpurity_perm hL.perm hp, splitImpurity_perm hL.perm hp] at this

omit [Zero Y] in
theorem splitImpurity_nonneg [IsStrictOrderedRing K] {loss : Loss K Y} {imp : List Y → K} {pick : List Y → Y → Prop}
    {okY : Y → Prop} (hL : Computes loss imp pick okY) {f : Nat} {t : K} {rows : LRows K Y} (hs : Separates f t rows) :
    0 ≤ splitImpurity imp f t rows := by
  have h1 := hL.nonneg _ (show (lefts f t rows).map Prod.snd ≠ [] by simpa using hs.1)
  have h2 := hL.nonneg _ (show (rights f t rows).map Prod.snd ≠ [] by simpa using hs.2)
  unfold splitImpurity
  have c1 : (0 : K) ≤ ((lefts f t rows).length : K) := by exact_mod_cast Nat.zero_le _
  have c2 : (0 : K) ≤ ((rights f t rows).length : K) := by exact_mod_cast Nat.zero_le _
  have c3 : (0 : K) ≤ (rows.length : K) := by exact_mod_cast Nat.zero_le _
  exact add_nonneg (div_nonneg (mul_nonneg h1 c1) c3) (div_nonneg (mul_nonneg h2 c2) c3)

omit [Zero Y] in
theorem noBetter_pure [IsStrictOrderedRing K] {loss : Loss K Y} {imp : List Y → K} {pick : List Y → Y → Prop}
    {okY : Y → Prop} (hL : Computes loss imp pick okY) {w : Nat} {rows : LRows K Y} (h : imp (rows.map Prod.snd) ≤ 0) :
    NoBetter imp w rows := fun _ _ _ hs => h.trans (splitImpurity_nonneg hL hs)

omit [Zero Y] in
theorem splitImpurity_zero [IsStrictOrderedRing K] {loss : Loss K Y} {imp : List Y → K} {pick : List Y → Y → Prop}
    {okY : Y → Prop} (hL : Computes loss imp pick okY) {f : Nat} {t : K} {rows : LRows K Y} (hs : Separates f t rows)
    (h : splitImpurity imp f t rows ≤ 0) :
    imp ((lefts f t rows).map Prod.snd) ≤ 0 ∧ imp ((rights f t rows).map Prod.snd) ≤ 0 := by
  have h1 := hL.nonneg _ (show (lefts f t rows).map Prod.snd ≠ [] by simpa using hs.1)
  have h2 := hL.nonneg _ (show (rights f t rows).map Prod.snd ≠ [] by simpa using hs.2)
  have c1 : (0 : K) < ((lefts f t rows).length : K) := by exact_mod_cast List.length_pos_iff.2 hs.1
  have c2 : (0 : K) < ((rights f t rows).length : K) := by exact_mod_cast List.length_pos_iff.2 hs.2
  have c3 : (0 : K) < (rows.length : K) := by exact_mod_cast (Nat.zero_le _).trans_lt (lefts_length_lt hs)
  unfold splitImpurity at h
  have p1 := div_nonneg (mul_nonneg h1 c1.le) c3.le
  have p2 := div_nonneg (mul_nonneg h2 c2.le) c3.le
  constructor
  · by_contra hc
    have := div_pos (mul_pos (not_le.1 hc) c1) c3
    linarith
  · by_contra hc
    have := div_pos (mul_pos (not_le.1 hc) c2) c3
    linarith

/-- How deep the tree may still get. -/
def limitAt (maxDepth depth : Int) : Option Nat := if maxDepth = -1 then none else some (maxDepth - depth).toNat

theorem limitAt_succ (m d : Int) : limitAt m (d + 1) = lessDepth (limitAt m d) := by
  unfold limitAt lessDepth
  split
  · rfl
  · congr 1; omega

theorem bestSplit_spec [IsStrictOrderedRing K] {e : CartEnv K Y} {imp : List Y → K} {pick : List Y → Y → Prop}
    {okY : Y → Prop} (hL : Computes e.loss imp pick okY) (hS : SortsIdx e.sortIdx) {w : Nat} (fuel : Nat)
    (tried : List (Nat × K)) (rows : LRows K Y) (hfuel : rows.length < fuel) (hne : rows ≠ []) (hr : Rect w rows)
    (hok : ∀ p ∈ rows, okY p.2) (hT : ∀ s ∈ tried, ¬ Separates s.1 s.2 rows) (depth : Int) :
    ∃ l r t f a b nd, bestSplit e fuel tried (rows.map Prod.fst) (rows.map Prod.snd) depth = Res.ok (.node l r t f a b nd) ∧
      (CNode.node l r t f a b nd).ifNeeded.Grown imp pick w (limitAt e.maxDepth depth) rows ∧
      (nd = false → l = .nil ∧ r = .nil ∧ t = 0 ∧ f = 0 ∧ b = 0 ∧
        if limitAt e.maxDepth depth = some 0 then a = 0 else pick (rows.map Prod.snd) a) := by
  induction fuel generalizing tried rows depth with
  | zero => omega
  | succ fuel ih =>
    obtain ⟨x, xs, hx⟩ : ∃ x xs, rows.map Prod.fst = x :: xs := by
      cases rows with
      | nil => exact absurd rfl hne
      | cons p ps => exact ⟨_, _, rfl⟩
    rw [hx, bestSplit]
    have hlim : (e.maxDepth ≠ -1 ∧ e.maxDepth < depth + 1) ↔ limitAt e.maxDepth depth = some 0 := by
      unfold limitAt
      split
      · simp_all
      · simp only [Option.some.injEq]
        constructor
        · rintro ⟨_, h⟩; omega
        · intro h; exact ⟨by assumption, by omega⟩
    by_cases hl : limitAt e.maxDepth depth = some 0
    · rw [if_pos (hlim.2 hl)]
      refine ⟨_, _, _, _, _, _, _, rfl, Or.inl hl, fun _ => ⟨rfl, rfl, rfl, rfl, rfl, ?_⟩⟩
      rw [if_pos hl]
    · rw [if_neg (fun h => hl (hlim.1 h))]
      obtain ⟨o, ho, hpick⟩ := hL.total (rows.map Prod.snd) (by simpa using hne) (by
        intro l hl
        obtain ⟨p, hp, rfl⟩ := List.mem_map.1 hl
        exact hok p hp)
      have hxw : x.length = w := by
        have : x ∈ rows.map Prod.fst := by rw [hx]; simp
        obtain ⟨p, hp, rfl⟩ := List.mem_map.1 this
        exact hr p hp
      rw [ho, Res.bind_ok, ← hx, hxw]
      obtain ⟨b0, hb0⟩ : ∃ b0 : CartBest K Y, b0 = ⟨imp (rows.map Prod.snd),
        ⟨rows.map Prod.fst, rows.map Prod.fst, rows.map Prod.snd, rows.map Prod.snd⟩, 0, 0, o, 0,
        imp (rows.map Prod.snd), imp (rows.map Prod.snd)⟩ := ⟨_, rfl⟩
      obtain ⟨b, hb1, hb2, hb3, hb4⟩ := featLoop_spec hL hS hr hok hT b0 (List.range w) (fun f hf => List.mem_range.1 hf)
        (fun _ _ => False) b0 ⟨Or.inl rfl, by rw [hb0], fun _ _ h => h.elim⟩
      simp only
      rw [← hb0, hb1, Res.bind_ok]
      have hmin : ∀ f t, f < w → Separates f t rows → b.loss ≤ splitImpurity imp f t rows :=
        fun f t hf hs => hb4 f t (Or.inr ⟨List.mem_range.2 hf, hs⟩)
      by_cases hsame : b.loss = imp (rows.map Prod.snd)
      · rw [if_pos hsame]
        have hbb : b = b0 := by
          rcases hb2 with h | h
          · exact h
          · exact absurd hsame (ne_of_lt h.2.2.2.1)
        refine ⟨_, _, _, _, _, _, _, rfl, Or.inr ?_, ?_⟩
        · intro f t hf hs
          rw [← hsame]
          exact hmin f t hf hs
        · intro _
          rw [hbb, hb0]
          refine ⟨rfl, rfl, rfl, rfl, rfl, ?_⟩
          rw [if_neg hl]
          exact hpick
      · rw [if_neg hsame]
        have hg : GoodBest imp pick w rows b := by
          rcases hb2 with h | h
          · exact absurd (by rw [h, hb0]) hsame
          · exact h
        obtain ⟨g1, g2, g3, g4, ⟨rows', hp, g5⟩, g6, g7, g8, g9⟩ := hg
        have hbest : BestSplit imp w b.feat b.thr rows :=
          ⟨g1, g2, by rw [← g3]; exact g4, fun f t hf hs => by rw [← g3]; exact hmin f t hf hs⟩
        by_cases hpos : 0 < b.loss
        · rw [if_pos hpos]
          -- both children
          have child : ∀ (tr : List (Nat × K)) (part : LRows K Y), part ≠ [] → part.length < rows.length →
              (∀ p ∈ part, p ∈ rows) → (∀ s ∈ tr, ¬ Separates s.1 s.2 part) →
              ∃ n : CNode K Y, (bestSplit e fuel tr (part.map Prod.fst) (part.map Prod.snd) (depth + 1)).map CNode.ifNeeded =
                Res.ok n ∧ n.Grown imp pick w (lessDepth (limitAt e.maxDepth depth)) part := by
            intro tr part h1 h2 h3 h4
            obtain ⟨l, r, t, f, a, c, nd, q1, q2, _⟩ := ih tr part (by omega) h1 (fun p hp => hr p (h3 p hp))
              (fun p hp => hok p (h3 p hp)) h4 (depth + 1)
            refine ⟨_, by rw [q1, Res.map_ok], ?_⟩
            rw [← limitAt_succ]
            exact q2
          have hg2' := separates_perm hp g2
          have hsubL : ∀ p ∈ lefts b.feat b.thr rows', p ∈ rows := fun p h => hp.mem_iff.1 (List.mem_filter.1 h).1
          have hsubR : ∀ p ∈ rights b.feat b.thr rows', p ∈ rows := fun p h => hp.mem_iff.1 (List.mem_filter.1 h).1
          have hnL : ¬ Separates b.feat b.thr (lefts b.feat b.thr rows') := by
            rw [separates_iff]
            rintro ⟨_, q, hq, hqt⟩
            have := (List.mem_filter.1 hq).2
            simp only [decide_eq_true_eq] at this
            exact absurd this (not_lt.2 hqt)
          have hnR : ¬ Separates b.feat b.thr (rights b.feat b.thr rows') := by
            rw [separates_iff]
            rintro ⟨⟨q, hq, hqt⟩, _⟩
            have := (List.mem_filter.1 hq).2
            simp only [Bool.not_eq_true', decide_eq_false_iff_not] at this
            exact this hqt
          have tri : ∀ (part : LRows K Y), (∀ p ∈ part, p ∈ rows) → ¬ Separates b.feat b.thr part → ∀ tr : List (Nat × K),
              (∀ s ∈ tr, s ∈ tried ∨ s = (b.feat, b.thr)) → ∀ s ∈ tr, ¬ Separates s.1 s.2 part := by
            intro part h1 h2 tr h3 s hs hsep
            rcases h3 s hs with h | rfl
            · exact hT s h (separates_mono h1 hsep)
            · exact h2 hsep
          obtain ⟨nl, hl1, hl2⟩ : ∃ nl : CNode K Y, (if 0 < b.leftLoss then
              (bestSplit e fuel (tried ++ [(b.feat, b.thr)]) b.split.left b.split.leftY (depth + 1)).map CNode.ifNeeded
              else Res.ok .nil) = Res.ok nl ∧
              nl.Grown imp pick w (lessDepth (limitAt e.maxDepth depth)) (lefts b.feat b.thr rows) := by
            by_cases hll : 0 < b.leftLoss
            · rw [if_pos hll, g5]
              obtain ⟨n, q1, q2⟩ := child (tried ++ [(b.feat, b.thr)]) (lefts b.feat b.thr rows') hg2'.1
                ((lefts_length_lt hg2').trans_eq hp.length_eq) hsubL
                (tri _ hsubL hnL _ (by intro s hs; simpa using hs))
              exact ⟨n, q1, grown_perm hL n _ _ _ (lefts_perm hp) q2⟩
            · rw [if_neg hll]
              exact ⟨_, rfl, Or.inr (noBetter_pure hL (by rw [← g6]; exact not_lt.1 hll))⟩
          obtain ⟨nr, hr1, hr2⟩ : ∃ nr : CNode K Y, (if 0 < b.rightLoss then
                  (bestSplit e fuel
                    (if 0 < b.leftLoss then tried ++ [(b.feat, b.thr)] ++ [(b.feat, b.thr)] else tried ++ [(b.feat, b.thr)])
                    b.split.right b.split.rightY (depth + 1)).map CNode.ifNeeded
                  else Res.ok .nil) = Res.ok nr ∧
              nr.Grown imp pick w (lessDepth (limitAt e.maxDepth depth)) (rights b.feat b.thr rows) := by
            by_cases hrr : 0 < b.rightLoss
            · rw [if_pos hrr, g5]
              obtain ⟨n, q1, q2⟩ := child (if 0 < b.leftLoss then tried ++ [(b.feat, b.thr)] ++ [(b.feat, b.thr)]
                else tried ++ [(b.feat, b.thr)]) (rights b.feat b.thr rows') hg2'.2
                ((rights_length_lt hg2').trans_eq hp.length_eq) hsubR
                (tri _ hsubR hnR _ (by
                  intro s hs
                  split at hs
                  · simp only [List.append_assoc, List.mem_append, List.mem_singleton, or_self] at hs
                    exact hs
                  · simpa using hs))
              exact ⟨n, q1, grown_perm hL n _ _ _ (rights_perm hp) q2⟩
            · rw [if_neg hrr]
              exact ⟨_, rfl, Or.inr (noBetter_pure hL (by rw [← g7]; exact not_lt.1 hrr))⟩
          rw [hl1, Res.bind_ok, hr1, Res.map_ok]
          exact ⟨_, _, _, _, _, _, _, rfl, ⟨hl, hbest, g8, g9, hl2, hr2⟩, fun h => by cases h⟩
        · rw [if_neg hpos]
          obtain ⟨z1, z2⟩ := splitImpurity_zero hL g2 (by rw [← g3]; exact not_lt.1 hpos)
          exact ⟨_, _, _, _, _, _, _, rfl, ⟨hl, hbest, g8, g9, Or.inr (noBetter_pure hL z1),
            Or.inr (noBetter_pure hL z2)⟩, fun h => by cases h⟩
end

end Golearn
