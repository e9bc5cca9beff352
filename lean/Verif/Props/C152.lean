import Verif.Proofs.Reorder

/-! # C152: training on the rows in another order -/

namespace Golearn

/-- Shuffling a table puts its rows in another order. -/
theorem C152_shuffle (pg : Nat) (ops : List Op) (st : St)
    (hb : ∀ op ∈ ops, basicOp op = true) (hrun : run pg ops = Res.ok st)
    (hd : (addedAttrs ops).Pairwise (fun a b => a.equals b = false))
    (srt : List Spec → List Spec) (hsrt : ∀ l, (srt l).Perm l) (draw : Nat → Nat) (hdraw : ∀ i, draw i ≤ i) :
    ∃ d' σ, shuffleDense srt draw st.d = Res.ok d' ∧ Reordered (.dense st.d) (.dense d') (totalRows ops) σ := by
  obtain ⟨d', σ, h1, h2, h3, h4, h5, h6⟩ := C12_shuffle_permutes pg ops st hb hrun hd srt hsrt draw hdraw
  exact ⟨d', σ, h1, h2, h3, congrArg List.length h4, h4, h5, h6⟩

/-- So does sorting it. -/
theorem C152_sort (pg : Nat) (ops : List Op) (st : St)
    (hb : ∀ op ∈ ops, basicOp op = true) (hrun : run pg ops = Res.ok st)
    (hd : (addedAttrs ops).Pairwise (fun a b => a.equals b = false))
    (srt : List Spec → List Spec) (hsrt : ∀ l, (srt l).Perm l)
    (specs : List Spec) (hs : ∀ s ∈ specs, ∃ a ∈ st.d.allAttributes, st.d.getAttribute a = Res.ok s) (descending : Bool) :
    ∃ d' σ, sortDense srt st.d descending specs = Res.ok d' ∧ Reordered (.dense st.d) (.dense d') (totalRows ops) σ := by
  obtain ⟨d', σ, h1, h2, h3, h4, h5, h6⟩ := C14_sort_permutes pg ops st hb hrun hd srt hsrt specs hs descending
  exact ⟨d', σ, h1, h2, h3, congrArg List.length h4, h4, h5, h6⟩

section
variable {K : Type} [Field K] [LinearOrder K] [IsStrictOrderedRing K]

theorem reordered_trees {e e' : TreeEnv} {V : Type} [LinearOrder V] {score : List (String × String) → V}
    (hs : ∀ ps ps', ps.Perm ps' → score ps = score ps') {g g' : Grid} {n : Nat} {σ : Nat → Nat} (R : Reordered g g' n σ)
    {lab : Nat → String} {cls : Attr}
    (D : TreeData e.fo g n lab cls) (hcat : ∀ a ∈ g.allAttributes, a.isFloat = false) (hfo : e'.fo = e.fo)
    (B : e.Ok (fun _ => False) ∧ (∀ p, GivesUpOnDull e.fo (fun _ => (0 : K)) (fun _ => False) (e.gen p)) ∧
      ∀ p, PicksBest e.fo score (e.gen p))
    (B' : e'.Ok (fun _ => False) ∧ (∀ p, GivesUpOnDull e'.fo (fun _ => (0 : K)) (fun _ => False) (e'.gen p)) ∧
      ∀ p, PicksBest e'.fo score (e'.gen p))
    (hn : NoTies score (g.branch e.fo) lab (g.inputs cls) (List.range n)) :
    ∃ t t', inferID3 e g = Res.ok t ∧ inferID3 e' g' = Res.ok t' ∧ t.SameAs t' := by
  obtain ⟨E, hd, hp⟩ := B
  obtain ⟨E', hd', hp'⟩ := B'
  have D' : TreeData e'.fo g' n (fun r => lab (σ r)) cls := hfo ▸ R.treeData D
  have hcat' : ∀ a ∈ g'.allAttributes, a.isFloat = false := by rw [R.attrs]; exact hcat
  obtain ⟨t, h1, h2, _⟩ := inferLoop_spec E (g.allAttributes.length + 1) [] g n lab cls D (catFloats hcat) (Nat.lt_succ_self _)
  obtain ⟨t', h1', h2', h3', _⟩ :=
    inferLoop_spec E' (g'.allAttributes.length + 1) [] g' n _ cls D' (catFloats hcat') (Nat.lt_succ_self _)
  have g1 := inferLoop_grown E hd _ [] g n lab cls D (catFloats hcat) (Nat.lt_succ_self _) t h1
  have g1' := inferLoop_grown E' hd' _ [] g' n _ cls D' (catFloats hcat') (Nat.lt_succ_self _) t' h1'
  have r1 := inferLoop_greedy hs E hp _ [] g n lab cls D hcat (Nat.lt_succ_self _) t h1
  have r1' := inferLoop_greedy hs E' hp' _ [] g' n _ cls D' hcat' (Nat.lt_succ_self _) t' h1'
  have hin : g'.inputs cls = g.inputs cls := by unfold Grid.inputs; rw [R.attrs]
  rw [hfo] at h2' g1' r1'
  rw [hin] at g1' r1'
  have hbr : t'.AllRules fun r => ∀ i ∈ List.range n, g'.branch e.fo r i = g.branch e.fo r (σ i) :=
    allRules_imp (fun r h i hi => R.branch (by rw [← R.attrs]; exact h.1) (List.mem_range.1 hi)) t' h3'
  have f2 := fits_perm t' R.rows (fits_map (f := σ) (key := g.branch e.fo) (lab := lab) t' hbr (fun _ _ => rfl) h2')
  have f3 := grown_map (f := σ) (key := g.branch e.fo) (num := g.number fun _ => (0 : K)) (lab := lab) (as' := g.inputs cls)
    (rows' := List.range n) t' (List.Subperm.refl _)
    (fun q hq => by obtain ⟨r, hr, h⟩ := R.onto (List.mem_range.1 hq); exact ⟨r, List.mem_range.2 hr, h⟩) hbr
    (fun a ha i hi => by unfold Grid.number; rw [R.cells a (List.mem_filter.1 ha).1 i (List.mem_range.1 hi)]) (fun _ _ => rfl) g1'
  have f4 := greedy_map (f := σ) (key := g.branch e.fo) (lab := lab) hs t' (List.Perm.refl _) R.rows
    (fun r ha i hi => R.branch (List.mem_filter.1 ha).1 (List.mem_range.1 hi)) (fun _ _ => rfl) r1'
  exact ⟨t, t', h1, h1', same_of_noTies t t' _ _ (fun a ha => hcat a (List.mem_filter.1 ha).1) hn h2 f2 g1 f3 r1 f4⟩

/-- The same decision tree is built from the rows in any order, for data without numeric attributes and without ties. What is
missing is data with ties, where even the same order gives different trees, see `C151_ties`, and numeric attributes. -/
theorem C152_tree_partial (e e' : TreeEnv) (fo : FloatOps) (lg : K → K) (g g' : Grid) (n : Nat) (σ : Nat → Nat)
    (R : Reordered g g' n σ) (lab : Nat → String) (cls : Attr)
    (D : TreeData fo g n lab cls) (hcat : ∀ a ∈ g.allAttributes, a.isFloat = false) :
    (e.Builds fo lg infoGain → e'.Builds fo lg infoGain →
      NoTies (infoGainOf lg) (g.branch fo) lab (g.inputs cls) (List.range n) →
      ∃ t t', inferID3 e g = Res.ok t ∧ inferID3 e' g' = Res.ok t' ∧ t.SameAs t') ∧
    (e.Builds fo lg gainRatioRule → e'.Builds fo lg gainRatioRule →
      NoTies (infoRatioOf lg) (g.branch fo) lab (g.inputs cls) (List.range n) →
      ∃ t t', inferID3 e g = Res.ok t ∧ inferID3 e' g' = Res.ok t' ∧ t.SameAs t') := by
  constructor
  · intro B B' hn
    have h := gain_builds B
    have h' := gain_builds B'
    obtain rfl := B.floats
    exact reordered_trees (fun _ _ => infoGainOf_perm lg) R D hcat B'.floats h h' hn
  · intro B B' hn
    have h := ratio_builds B
    have h' := ratio_builds B'
    obtain rfl := B.floats
    exact reordered_trees (fun _ _ => infoRatioOf_perm lg) R D hcat B'.floats h h' hn

omit [IsStrictOrderedRing K] in
/-- Naive Bayes: the model that is trained holds the same numbers for every class, whatever the order of the rows. Where training
panics on the rows in one order, it panics on them in every order. -/
theorem C152_naive_bayes (fo : FloatOps) (g g' : Grid) (n : Nat) (σ : Nat → Nat) (R : Reordered g g' n σ) (k : Nat → String)
    (D : BinaryData fo g n k) (srt : List Spec → List Spec) (hsrt : PositionSort srt)
    (order order' : List Nat) (ho : g.RowOrder order) (ho' : g'.RowOrder order')
    (ordC ordC' : List String → List String) (hord : ∀ l, (ordC l).Perm l) (hord' : ∀ l, (ordC' l).Perm l)
    (old old' : GoMap String (List K)) :
    (∃ nb nb', nbFit fo srt order ordC old g = Res.ok nb ∧ nbFit fo srt order' ordC' old' g' = Res.ok nb' ∧
      nb.rows = nb'.rows ∧ nb.attrs = nb'.attrs ∧ nb.features = nb'.features ∧
      (∀ c, c ∈ nb.inst.map Prod.fst ↔ c ∈ nb'.inst.map Prod.fst) ∧
      ∀ c ∈ nb.inst.map Prod.fst, nb.inst.get? c = nb'.inst.get? c ∧ nb.condProb.get? c = nb'.condProb.get? c) ∨
    (nbFit fo srt order ordC old g = Res.panic ∧ nbFit fo srt order' ordC' old' g' = Res.panic) := by
  have hperm : ∀ l, (srt l).Perm l := by
    intro l
    obtain ⟨τ, s1, s2⟩ := hsrt
    rw [s2]
    refine ((s1 l.length).filterMap _).trans ?_
    rw [filterMap_range_getElem?]
  have D' := R.binaryData D
  obtain ⟨fs, fs1, fs2⟩ := positionSort_attrs hsrt g.nonClass
  obtain ⟨y, no⟩ := nb_fit D hperm ho hord old
  obtain ⟨y', no'⟩ := nb_fit D' hperm ho' hord' old'
  by_cases h : g.nonClass = [] ∨ ∀ r, r < n → ClassHasFeature g n k (k r)
  · left
    have h' : g'.nonClass = [] ∨ ∀ r, r < n → ClassHasFeature g' n (fun r => k (σ r)) (k (σ r)) := by
      rcases h with h | h
      · left; rw [R.nonClass]; exact h
      · right; exact fun r hr => R.classHasFeature (h _ (R.lt hr))
    obtain ⟨nb, cols, e1, T, c1⟩ := y h
    obtain ⟨nb', cols', e1', T', c1'⟩ := y' h'
    have hc : cols = fs := c1 fs fs2 fun a ha => fs1.mem_iff.1 ha
    have hc' : cols' = fs := c1' fs (by rw [R.nonClass]; exact fs2) fun a ha => by rw [R.nonClass]; exact fs1.mem_iff.1 ha
    subst hc
    subst hc'
    refine ⟨nb, nb', e1, e1', T.rows.trans T'.rows.symm, ?_, ?_, ?_, ?_⟩
    · rw [T.attrs, T'.attrs, R.nonClass]
    · rw [T.count, T'.count, R.nonClass]
    · intro c
      rw [T.classes, T'.classes]
      constructor
      · rintro ⟨q, hq, rfl⟩
        obtain ⟨r, hr, rfl⟩ := R.onto hq
        exact ⟨r, hr, rfl⟩
      · rintro ⟨r, hr, rfl⟩
        exact ⟨σ r, R.lt hr, rfl⟩
    · intro c hc
      obtain ⟨q, hq, rfl⟩ := (T.classes c).1 hc
      obtain ⟨r, hr, rfl⟩ := R.onto hq
      rw [T.inst _ hq, T.cond _ hq]
      have i := T'.inst r hr
      have j := T'.cond r hr
      rw [i, j, R.docsIn]
      refine ⟨rfl, ?_⟩
      congr 1
      apply List.map_congr_left
      intro a ha
      exact (R.smoothed k _ (fs1.mem_iff.1 ha)).symm
  · right
    push Not at h
    obtain ⟨hne, q, hq, hno⟩ := h
    refine ⟨no hne q hq hno, ?_⟩
    obtain ⟨r, hr, rfl⟩ := R.onto hq
    refine no' (by rw [R.nonClass]; exact hne) r hr ?_
    rintro ⟨s, hs, hc, a, ha, hf⟩
    rw [R.nonClass] at ha
    exact hno ⟨σ s, R.lt hs, hc, a, ha, by rw [← R.hasFeature ha hs]; exact hf⟩

/-- And a row for which one class is better than all others gets this class. -/
theorem C152_naive_bayes_class_partial {log : K → K} (L : Logarithm log) (fo : FloatOps) (g g' : Grid) (n : Nat) (σ : Nat → Nat)
    (R : Reordered g g' n σ) (k : Nat → String) (D : BinaryData fo g n k) (hn : 0 < n) (hne : g.nonClass ≠ [])
    (hall : ∀ r, r < n → ClassHasFeature g n k (k r))
    (srt : List Spec → List Spec) (hsrt : PositionSort srt) (order order' : List Nat) (ho : g.RowOrder order) (ho' : g'.RowOrder order')
    (ordC ordC' : List String → List String) (hord : ∀ l, (ordC l).Perm l) (hord' : ∀ l, (ordC' l).Perm l)
    (old old' : GoMap String (List K)) (low : K)
    (hlow : low < ((g.nonClass.length + 1 : Nat) : K) * log (1 / ((n + 1 : Nat) : K)))
    (what : Grid) (m : Nat) (P : what.Presents m) (hf : what.Finds g.nonClass)
    (hbytes : ∀ a ∈ g.nonClass, ∀ r, r < m → ∃ b, what.cell a r = [b]) (p : Nat) (nm : String) (vs : List String)
    (hc : what.allClassAttributes = [⟨p, .cat nm vs⟩]) (hsz : vs.length + m ≤ 2 ^ 64)
    (orderW orderW' : List Nat) (hw : what.RowOrder orderW) (hw' : what.RowOrder orderW') (ordP ordP' : Nat → List String → List String)
    (hordP : ∀ r l, (ordP r l).Perm l) (hordP' : ∀ r l, (ordP' r l).Perm l) (parse : String → Option U64) (pg : Nat) :
    ∃ nb nb' d d', nbFit fo srt order ordC old g = Res.ok nb ∧ nbFit fo srt order' ordC' old' g' = Res.ok nb' ∧
      nbPredict log low fo parse pg srt orderW ordP nb what = Res.ok d ∧
      nbPredict log low fo parse pg srt orderW' ordP' nb' what = Res.ok d' ∧
      ∀ r, r < m → ∀ q, q < n → (∀ s, s < n → k s ≠ k q → posterior (K := K) g n k what r (k s) < posterior g n k what r (k q)) →
        getClass fo (.dense d) r = Res.ok (k q) ∧ getClass fo (.dense d') r = Res.ok (k q) := by
  have D' := R.binaryData D
  have hall' : ∀ r, r < n → ClassHasFeature g' n (fun r => k (σ r)) (k (σ r)) := fun r hr => R.classHasFeature (hall _ (R.lt hr))
  have hne' : g'.nonClass ≠ [] := by rw [R.nonClass]; exact hne
  have hlow' : low < ((g'.nonClass.length + 1 : Nat) : K) * log (1 / ((n + 1 : Nat) : K)) := by rw [R.nonClass]; exact hlow
  have hf' : what.Finds g'.nonClass := by rw [R.nonClass]; exact hf
  have hbytes' : ∀ a ∈ g'.nonClass, ∀ r, r < m → ∃ b, what.cell a r = [b] := by rw [R.nonClass]; exact hbytes
  obtain ⟨nb, d, e1, e2, _⟩ := C69_predict L D hn hne hall hsrt ho hord old hlow P hf hbytes hc hsz hw hordP parse pg
  obtain ⟨nb', d', e1', e2', _⟩ :=
    C69_predict L D' hn hne' hall' hsrt ho' hord' old' hlow' P hf' hbytes' hc hsz hw' hordP' parse pg
  refine ⟨nb, nb', d, d', e1, e1', e2, e2', fun r hr q hq hbest => ⟨?_, ?_⟩⟩
  · exact C69_order_independent L D hn hne hall hsrt ho hord old hlow P hf hbytes hc hsz hw hordP parse pg e1 e2 hr hq hbest
  · obtain ⟨i, hi, rfl⟩ := R.onto hq
    refine C69_order_independent L D' hn hne' hall' hsrt ho' hord' old' hlow' P hf' hbytes' hc hsz hw' hordP' parse pg e1' e2' hr hi ?_
    intro s hs hks
    rw [R.posterior, R.posterior]
    exact hbest _ (R.lt hs) hks

end

section
variable {Q : Type} [Field Q] [LinearOrder Q]

/-- Nearest neighbours: a row whose `k` nearest rows are clear and have a label that occurs more often than any other one gets this
label, whatever the order of the rows to train on. What is missing is ties, where the claim is false, see `C152_refuted`. -/
theorem C152_knn_partial (e e' : KnnEnv Q) (hfo : e'.fo = e.fo) (hval : e'.val = e.val) (hdist : e'.dist = e.dist)
    (k nT nW : Nat) (train train' what : Grid) (σ : Nat → Nat) (R : Reordered train train' nT σ)
    (hdis : train.distinct) (lab lab' : Nat → String) (p : Nat) (nm : String) (vs : List String)
    (D : KnnData e.fo train what nT nW lab ⟨p, .cat nm vs⟩) (D' : KnnData e.fo train' what nT nW lab' ⟨p, .cat nm vs⟩)
    (hsrt : PositionSort e.srt) (hsrt' : PositionSort e'.srt)
    (hkeys : ∀ r, SortsKeys (e.sortKeys r)) (hkeys' : ∀ r, SortsKeys (e'.sortKeys r))
    (hoW : what.RowOrder e.orderW) (hoW' : what.RowOrder e'.orderW)
    (hoT : ∀ r, train.RowOrder (e.orderT r)) (hoT' : ∀ r, train'.RowOrder (e'.orderT r))
    (ord ord' : Nat → List String → List String) (hord : ∀ r l, (ord r l).Perm l) (hord' : ∀ r l, (ord' r l).Perm l)
    (hk0 : 0 < k) (hk : k ≤ nT) (hb : vs.length + nW ≤ 2 ^ 64) :
    ∃ d d', knnPredictLinear e k train what (fun r out m => vote e.fo train (ord r) m (out.map Prod.fst)) [] = Res.ok d ∧
      knnPredictLinear e' k train' what (fun r out m => vote e'.fo train' (ord' r) m (out.map Prod.fst)) [] = Res.ok d' ∧
      ∀ r, r < nW → ∀ c, (∀ fs, fs.Perm (what.allAttributes.filter Attr.isFloat) → ∃ S, S.length = k ∧
          ClearlyNearest ((List.range nT).map (train.point e.val fs)) e.dist (what.point e.val fs r) S ∧ ClearWinner (S.map lab) c) →
        getClass e.fo (.dense d) r = Res.ok c ∧ getClass e.fo (.dense d') r = Res.ok c := by
  obtain ⟨d, h1, h2⟩ := C148_knn_partial e k nT nW train what lab p nm vs D hsrt hkeys hoW hoT ord hord hk0 hk hb
  obtain ⟨d', h1', h2'⟩ := C148_knn_partial e' k nT nW train' what lab' p nm vs (hfo.symm ▸ D') hsrt' hkeys' hoW' hoT' ord' hord' hk0 hk hb
  refine ⟨d, d', h1, h1', fun r hr c hc => ⟨h2 r hr c hc, ?_⟩⟩
  rw [← hfo]
  refine h2' r hr c fun fs hfs => ?_
  rw [hval, hdist]
  obtain ⟨S, s1, ⟨n1, n2, n3⟩, s3⟩ := hc fs hfs
  simp only [List.length_map, List.length_range] at n2 n3
  have hp := R.chosen n1 n2
  have hlen : ∀ {g : Grid} {i : Nat}, i < nT →
      ((List.range nT).map (g.point e.val fs)).getD i [] = g.point e.val fs i := by
    intro g i hi
    simp [List.getD_eq_getElem?_getD, hi]
  have hpt : ∀ i, i < nT → train'.point e.val fs i = train.point e.val fs (σ i) := fun i hi =>
    R.point hdis D.finds D'.finds (fun a ha => (List.mem_filter.1 (hfs.mem_iff.1 ha)).1) e.val hi
  have hlab : ∀ i, i < nT → lab' i = lab (σ i) := by
    intro i hi
    obtain ⟨a, a1, a2, a3⟩ := D.label
    obtain ⟨b, b1, b2, b3⟩ := D'.label
    rw [R.classes, a1] at b1
    obtain rfl : a = b := by simpa using b1
    exact R.label a2 a3 b3 hi
  refine ⟨(List.range nT).filter fun i => decide (σ i ∈ S), ?_, ⟨List.nodup_range.filter _, ?_, ?_⟩, ?_⟩
  · rw [← s1, ← hp.length_eq, List.length_map]
  · intro i hi
    simpa using (List.mem_filter.1 hi).1
  · intro i hi j hj hn
    simp only [List.length_map, List.length_range] at hj
    obtain ⟨i1, i2⟩ := List.mem_filter.1 hi
    have i1 := List.mem_range.1 i1
    have i2 : σ i ∈ S := by simpa using i2
    have j2 : σ j ∉ S := fun h => hn (List.mem_filter.2 ⟨List.mem_range.2 hj, by simpa using h⟩)
    have := n3 _ i2 _ (R.lt hj) j2
    rw [hlen (R.lt i1), hlen (R.lt hj)] at this
    rw [hlen i1, hlen hj, hpt i i1, hpt j hj]
    exact this
  · have e1 : ((List.range nT).filter fun i => decide (σ i ∈ S)).map lab' =
        (((List.range nT).filter fun i => decide (σ i ∈ S)).map σ).map lab := by
      rw [List.map_map]
      apply List.map_congr_left
      intro i hi
      exact hlab i (List.mem_range.1 (List.mem_filter.1 hi).1)
    rw [e1]
    have hq := hp.map lab
    exact ⟨hq.mem_iff.2 s3.1, fun c' hc' => by rw [hq.count_eq, hq.count_eq]; exact s3.2 c' hc'⟩

end

/-- Evaluation: the confusion matrix does not depend on the order of the rows, if the reference and the predictions are put in the
same order. -/
theorem C152_confusion (fo : FloatOps) (ref ref' gen gen' : Grid) (n : Nat) (σ : Nat → Nat) (P : ref.Presents n) (Q : gen.Presents n)
    (R : Reordered ref ref' n σ) (R' : Reordered gen gen' n σ)
    (a b : Attr) (ha : ref.allClassAttributes = [a]) (hb : gen.allClassAttributes = [b])
    (ham : a ∈ ref.allAttributes) (hbm : b ∈ gen.allAttributes) (k l : Nat → String)
    (hk : ReadsAs fo ref a n k) (hl : ReadsAs fo gen b n l) :
    ∃ c c', getConfusionMatrix fo ref gen = Res.ok c ∧ getConfusionMatrix fo ref' gen' = Res.ok c' ∧
      (∀ x y, c.at x y = c'.at x y) ∧ (∀ x, x ∈ c.map Prod.fst ↔ x ∈ c'.map Prod.fst) ∧
      ∀ x y, y ∈ c.rowKeys x ↔ y ∈ c'.rowKeys x := by
  obtain ⟨c, c1, c2, _⟩ := C35_confusion_matrix fo ref gen n P Q a b ha hb ham hbm k l hk hl
  obtain ⟨c', d1, d2, _⟩ := C35_confusion_matrix fo ref' gen' n R.table R'.table a b (by rw [R.classes]; exact ha)
    (by rw [R'.classes]; exact hb) (by rw [R.attrs]; exact ham) (by rw [R'.attrs]; exact hbm) _ _ (R.readsAs ham hk) (R'.readsAs hbm hl)
  have hp : ((List.range n).map fun r => (k (σ r), l (σ r))).Perm ((List.range n).map fun r => (k r, l r)) := by
    have := R.rows.map fun r => (k r, l r)
    rwa [List.map_map] at this
  refine ⟨c, c', c1, d1, fun x y => ?_, fun x => ?_, fun x y => ?_⟩
  · rw [c2.entry, d2.entry, hp.count_eq]
  · rw [c2.row, d2.row]
    exact exists_congr fun y => (hp.mem_iff).symm
  · rw [c2.cell, d2.cell, hp.mem_iff]

/-! ## Witnesses -/

/-- The hypotheses of `C152_tree_partial` hold for the three rows of `C151_witness` and the same rows shuffled, in two runs that
visit the candidates in opposite orders. -/
example : ∃ fo lg e e' tr d' σ lab cls, ¬ (fo : FloatOps).gt 0 0 ∧ TreeEnv.Builds (K := ℝ) e fo lg infoGain ∧ TreeEnv.Builds e' fo lg infoGain ∧
    Reordered (.dense tr) (.dense d') 3 σ ∧ TreeData fo (.dense tr) 3 lab cls ∧
    (∀ a ∈ (Grid.dense tr).allAttributes, a.isFloat = false) ∧
    NoTies (infoGainOf lg) ((Grid.dense tr).branch fo) lab ((Grid.dense tr).inputs cls) (List.range 3) := by
  obtain ⟨tr, htr, B, B', D, hcat, hn, _⟩ := C151_witness
  obtain ⟨d', σ, _, h2⟩ := C152_shuffle 4096 _ tr (by decide) htr (by decide) id (fun _ => List.Perm.refl _) (fun _ => 0) (fun i => Nat.zero_le i)
  exact ⟨_, _, _, _, tr.d, d', σ, _, _, by decide, B, B', h2, D, hcat, hn⟩

/-- The three rows of the example of `C68` and the same rows shuffled. -/
example : ∃ st : St, ∃ d' σ, BinaryData nbFloats (.dense st.d) 3 nbLab ∧ Reordered (.dense st.d) (.dense d') 3 σ ∧
    (∀ r, r < 3 → ClassHasFeature (.dense st.d) 3 nbLab (nbLab r)) ∧ PositionSort (fun l => l) := by
  obtain ⟨st, hrun, D, _, _, hall, _⟩ := nb_example
  obtain ⟨d', σ, _, h2⟩ := C152_shuffle 4096 _ st (by decide) hrun (by decide) id (fun _ => List.Perm.refl _) (fun _ => 0) (fun i => Nat.zero_le i)
  exact ⟨st, d', σ, D, h2, hall, List.range, fun n => List.Perm.refl _, fun l => (filterMap_range_getElem? l).symm⟩

namespace C152
open C148

/-- The rows of `C148` in another order: at 3, 1 and 9, with the labels b, a and b. -/
def opsT' : List Op :=
  [.add aX, .add aC, .addClass aC, .extend 3, .set 0 0 (packU64 3), .set 0 1 (packU64 1), .set 0 2 (packU64 9),
   .set 1 0 (packU64 1), .set 1 2 (packU64 1)]
def swap01 (r : Nat) : Nat := [1, 0, 2].getD r r

theorem reordered {tr tr' : St} (htr : run 4096 opsT = Res.ok tr) (htr' : run 4096 opsT' = Res.ok tr') :
    Reordered (.dense tr.d) (.dense tr'.d) 3 swap01 := by
  have h : ((run 4096 opsT).bind fun tr => (run 4096 opsT').map fun tr' =>
      [decide (tr'.d.allAttributes = tr.d.allAttributes), decide (tr'.d.allClassAttributes = tr.d.allClassAttributes),
        tr.d.allAttributes.all fun a => (List.range 3).all fun r =>
          (Grid.dense tr'.d).cell a r == (Grid.dense tr.d).cell a (swap01 r)]) =
      Res.ok [true, true, true] := by decide +kernel
  rw [htr, Res.bind_ok, htr', Res.map_ok, Res.ok.injEq] at h
  simp only [List.cons.injEq, decide_eq_true_eq, and_true] at h
  obtain ⟨h1, h2, h3⟩ := h
  have Dt : DenseOK 3 tr'.d := denseOK_run (ops := opsT') (by decide) htr' (by decide)
  refine ⟨by decide, Dt.presents, congrArg List.length h1, h1, h2, fun a ha r hr => ?_⟩
  exact eq_of_beq (List.all_eq_true.1 (List.all_eq_true.1 h3 a ha) r (List.mem_range.2 hr))

set_option synthInstance.maxSize 1024 in
set_option synthInstance.maxHeartbeats 200000 in
/-- The data meets the hypotheses. -/
theorem data' : ∃ tr pr, run 4096 opsT' = Res.ok tr ∧ run 4096 opsW = Res.ok pr ∧
    KnnData fo0 (.dense tr.d) (.dense pr.d) 3 2 (fun r => ["b", "a", "b"].getD r "") aC' ∧
    ∀ r, (Grid.dense tr.d).RowOrder (env0.orderT r) := by
  have h : ((run 4096 opsT').bind fun tr => (run 4096 opsW).map fun pr =>
      (checkCompatible (.dense pr.d) (.dense tr.d) == some pr.d.allAttributes, pr.d.allClassAttributes, tr.d.allClassAttributes,
        decide (aC' ∈ pr.d.allAttributes), decide (aC ∈ tr.d.allAttributes), tr.d.maxRow, pr.d.maxRow)) =
      Res.ok (true, [aC'], [aC], true, true, 3, 2) := by decide +kernel
  have hl : ((run 4096 opsT').map fun tr => (List.range 3).map fun r =>
      aC.getString fo0 ((Grid.dense tr.d).cell aC r)) = Res.ok [Res.ok "b", Res.ok "a", Res.ok "b"] := by decide +kernel
  obtain ⟨tr, htr, h⟩ := Res.bind_eq_ok.1 h
  obtain ⟨pr, hpr, h⟩ := Res.map_eq_ok.1 h
  simp only [Prod.mk.injEq, beq_iff_eq, decide_eq_true_eq] at h
  obtain ⟨h1, h2, h3, h4, h5, h6, h7⟩ := h
  have Dt : DenseOK 3 tr.d := denseOK_run (ops := opsT') (by decide) htr (by decide)
  have Dp : DenseOK 2 pr.d := denseOK_run (ops := opsW) (by decide) hpr (by decide)
  rw [htr, Res.map_ok, Res.ok.injEq] at hl
  refine ⟨tr, pr, htr, hpr, knnData_dense Dt Dp h1 h2 h4 h3 h5 ?_, fun _ => ?_⟩
  · intro r hr
    have := congrArg (fun l => l[r]?) hl
    interval_cases r <;> simpa using this
  · show [0, 1, 2] = List.range tr.d.maxRow
    rw [h6]; rfl

/-- The classes that are predicted with one neighbour. -/
def classesOf (ops : List Op) : Res (List String) :=
  (run 4096 ops).bind fun tr => (run 4096 opsW).bind fun pr =>
    (knnPredictLinear env0 1 (.dense tr.d) (.dense pr.d)
      (fun _ out m => vote fo0 (.dense tr.d) id m (out.map Prod.fst)) []).bind fun d => mapRes (getClass fo0 (.dense d)) [0, 1]

end C152

open C148 C152 in
/-- The hypotheses of `C152_knn_partial` hold for these rows in the two orders. -/
example : ∃ tr tr' pr, run 4096 opsT = Res.ok tr ∧ run 4096 opsT' = Res.ok tr' ∧ run 4096 opsW = Res.ok pr ∧
    Reordered (.dense tr.d) (.dense tr'.d) 3 swap01 ∧
    KnnData fo0 (.dense tr.d) (.dense pr.d) 3 2 (fun r => ["a", "b", "b"].getD r "") aC' ∧
    KnnData fo0 (.dense tr'.d) (.dense pr.d) 3 2 (fun r => ["b", "a", "b"].getD r "") aC' := by
  obtain ⟨tr, pr, htr, hpr, D, _⟩ := data
  obtain ⟨tr', pr', htr', hpr', D', _⟩ := data'
  rw [hpr] at hpr'
  cases hpr'
  exact ⟨tr, tr', pr, htr, htr', hpr, reordered htr htr', D, D'⟩

open C148 C152 in
/-- The same three rows in two orders: of two rows at the same distance the first one wins. -/
theorem C152_distance_tie : classesOf opsT = Res.ok ["a", "b"] ∧ classesOf opsT' = Res.ok ["b", "b"] := by
  constructor <;> decide +kernel

open C148 C152 in
/-- So the order of the rows to train on can matter, with everything else the same. -/
theorem C152_refuted : ¬ KnnAnyOrder := by
  intro H
  obtain ⟨tr, pr, htr, hpr, D, hs, hk, hw, ht⟩ := data
  obtain ⟨tr', pr', htr', hpr', D', ht'⟩ := data'
  rw [hpr] at hpr'
  cases hpr'
  obtain ⟨h1, h2⟩ := C152_distance_tie
  unfold classesOf at h1 h2
  rw [htr, Res.bind_ok, hpr, Res.bind_ok] at h1
  rw [htr', Res.bind_ok, hpr, Res.bind_ok] at h2
  obtain ⟨d, e1, k1⟩ := Res.bind_eq_ok.1 h1
  obtain ⟨d', e2, k2⟩ := Res.bind_eq_ok.1 h2
  have hdis : (Grid.dense tr.d).distinct := (denseOK_run (ops := opsT) (by decide) htr (by decide)).1
  have := H env0 1 3 2 (.dense tr.d) (.dense tr'.d) (.dense pr.d) swap01 _ _ aC' (fun _ => id) d d' 0
    D D' hdis (reordered htr htr') hs hk hw ht ht' (fun _ _ => List.Perm.refl _) e1 e2 (by decide)
  rw [mapRes_eq_ok] at k1 k2
  have g1 : getClass fo0 (.dense d) 0 = Res.ok "a" := by cases k1; assumption
  have g2 : getClass fo0 (.dense d') 0 = Res.ok "b" := by cases k2; assumption
  change getClass fo0 (.dense d) 0 = getClass fo0 (.dense d') 0 at this
  rw [g1, g2] at this
  exact absurd (Res.ok.inj this) (by decide)

end Golearn
