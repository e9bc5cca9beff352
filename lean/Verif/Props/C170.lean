import Verif.Props.C159

/-! # C170: nearest neighbours predict each row on its own, without ties -/

namespace Golearn

/-- The full claim: two rows of a table with the same numbers are given the same class. -/
def EqualRowsAlike : Prop :=
  ∀ (e : KnnEnv ℚ) (k nT nW : Nat) (train what : Grid) (lab : Nat → String) (cls : Attr) (ord : Nat → List String → List String)
    (d : Dense) (r r' : Nat), KnnData e.fo train what nT nW lab cls → PositionSort e.srt → (∀ r, SortsKeys (e.sortKeys r)) →
    what.RowOrder e.orderW → (∀ r, train.RowOrder (e.orderT r)) → (∀ r l, (ord r l).Perm l) →
    knnPredictLinear e k train what (fun r out m => vote e.fo train (ord r) m (out.map Prod.fst)) [] = Res.ok d → r < nW → r' < nW →
    (∀ a ∈ what.allAttributes, a.isFloat = true → what.number e.val a r' = what.number e.val a r) →
    getClass e.fo (.dense d) r' = getClass e.fo (.dense d) r

section
variable {R : Type} [Field R] [LinearOrder R]

/-- A row `r` of one table and a row `r'` of another one with the same numbers get the same class from the same training data, whatever the
other rows and the orders and sorts of the two runs, if the `k` nearest rows are clear and one label is the most frequent among them.
Missing from the full claim: ties. -/
theorem C170_rows_partial (e : KnnEnv R) (srt' : List Spec → List Spec) (sortKeys' : Nat → (Nat → R) → List Nat → List Nat)
    (orderW' : List Nat) (orderT' : Nat → List Nat) (k nT nW nW' : Nat) (train what what' : Grid) (lab : Nat → String) (p p' : Nat)
    (nm nm' : String) (vs vs' : List String) (D : KnnData e.fo train what nT nW lab ⟨p, .cat nm vs⟩)
    (D' : KnnData e.fo train what' nT nW' lab ⟨p', .cat nm' vs'⟩)
    (hcols : (what'.allAttributes.filter Attr.isFloat).Perm (what.allAttributes.filter Attr.isFloat))
    (hsrt : PositionSort e.srt) (hsrt' : PositionSort srt') (hkeys : ∀ r, SortsKeys (e.sortKeys r)) (hkeys' : ∀ r, SortsKeys (sortKeys' r))
    (hoW : what.RowOrder e.orderW) (hoW' : what'.RowOrder orderW') (hoT : ∀ r, train.RowOrder (e.orderT r))
    (hoT' : ∀ r, train.RowOrder (orderT' r)) (ord ord' : Nat → List String → List String) (hord : ∀ r l, (ord r l).Perm l)
    (hord' : ∀ r l, (ord' r l).Perm l) (hk0 : 0 < k) (hk : k ≤ nT) (hb : vs.length + nW ≤ 2 ^ 64) (hb' : vs'.length + nW' ≤ 2 ^ 64) :
    ∃ d d', knnPredictLinear e k train what (fun r out m => vote e.fo train (ord r) m (out.map Prod.fst)) [] = Res.ok d ∧
      knnPredictLinear { e with srt := srt', sortKeys := sortKeys', orderW := orderW', orderT := orderT' } k train what'
        (fun r out m => vote e.fo train (ord' r) m (out.map Prod.fst)) [] = Res.ok d' ∧
      ∀ r r', r < nW → r' < nW' →
        (∀ a ∈ what.allAttributes, a.isFloat = true → what'.number e.val a r' = what.number e.val a r) →
        ∀ c, (∀ fs, fs.Perm (what.allAttributes.filter Attr.isFloat) → ∃ S, S.length = k ∧
          ClearlyNearest ((List.range nT).map (train.point e.val fs)) e.dist (what.point e.val fs r) S ∧ ClearWinner (S.map lab) c) →
        getClass e.fo (.dense d) r = Res.ok c ∧ getClass e.fo (.dense d') r' = Res.ok c := by
  obtain ⟨d, h1, h2⟩ := C148_knn_partial e k nT nW train what lab p nm vs D hsrt hkeys hoW hoT ord hord hk0 hk hb
  obtain ⟨d', h1', h2'⟩ := C148_knn_partial { e with srt := srt', sortKeys := sortKeys', orderW := orderW', orderT := orderT' } k nT nW' train
    what' lab p' nm' vs' D' hsrt' hkeys' hoW' hoT' ord' hord' hk0 hk hb'
  refine ⟨d, d', h1, h1', fun r r' hr hr' hs c hc => ⟨h2 r hr c hc, h2' r' hr' c fun fs hfs => ?_⟩⟩
  obtain ⟨S, s1, s2, s3⟩ := hc fs (hfs.trans hcols)
  have hp : what'.point e.val fs r' = what.point e.val fs r := List.map_congr_left fun a ha => by
    have := List.mem_filter.1 ((hfs.trans hcols).subset ha)
    exact hs a this.1 this.2
  refine ⟨S, s1, ?_, s3⟩
  show ClearlyNearest _ e.dist (what'.point e.val fs r') S
  rw [hp]
  exact s2
/-- The same with votes weighted by distance, if one label has more weight than every other one. -/
theorem C170_rows_weighted_partial [IsStrictOrderedRing R] (e : KnnEnv R) (srt' : List Spec → List Spec)
    (sortKeys' : Nat → (Nat → R) → List Nat → List Nat)
    (orderW' : List Nat) (orderT' : Nat → List Nat) (k nT nW nW' : Nat) (train what what' : Grid) (lab : Nat → String) (p p' : Nat)
    (nm nm' : String) (vs vs' : List String) (D : KnnData e.fo train what nT nW lab ⟨p, .cat nm vs⟩)
    (D' : KnnData e.fo train what' nT nW' lab ⟨p', .cat nm' vs'⟩)
    (hcols : (what'.allAttributes.filter Attr.isFloat).Perm (what.allAttributes.filter Attr.isFloat))
    (hsrt : PositionSort e.srt) (hsrt' : PositionSort srt') (hkeys : ∀ r, SortsKeys (e.sortKeys r)) (hkeys' : ∀ r, SortsKeys (sortKeys' r))
    (hoW : what.RowOrder e.orderW) (hoW' : what'.RowOrder orderW') (hoT : ∀ r, train.RowOrder (e.orderT r))
    (hoT' : ∀ r, train.RowOrder (orderT' r)) (ord ord' : Nat → List String → List String) (hord : ∀ r l, (ord r l).Perm l)
    (hord' : ∀ r l, (ord' r l).Perm l) (hdist : ∀ x y, 0 ≤ e.dist x y) (hk0 : 0 < k) (hk : k ≤ nT) (hb : vs.length + nW ≤ 2 ^ 64)
    (hb' : vs'.length + nW' ≤ 2 ^ 64) :
    ∃ d d', knnPredictLinear e k train what (fun r out m => weightedVote e.fo train (ord r) m out) [] = Res.ok d ∧
      knnPredictLinear { e with srt := srt', sortKeys := sortKeys', orderW := orderW', orderT := orderT' } k train what'
        (fun r out m => weightedVote e.fo train (ord' r) m out) [] = Res.ok d' ∧
      ∀ r r', r < nW → r' < nW' →
        (∀ a ∈ what.allAttributes, a.isFloat = true → what'.number e.val a r' = what.number e.val a r) →
        ∀ c, (∀ fs, fs.Perm (what.allAttributes.filter Attr.isFloat) → ∃ S, S.length = k ∧
          ClearlyNearest ((List.range nT).map (train.point e.val fs)) e.dist (what.point e.val fs r) S ∧
          ∀ c', c' ≠ c →
            labelWeight lab (S.map fun i => (i, e.dist (what.point e.val fs r) (train.point e.val fs i))) c' <
            labelWeight lab (S.map fun i => (i, e.dist (what.point e.val fs r) (train.point e.val fs i))) c) →
        getClass e.fo (.dense d) r = Res.ok c ∧ getClass e.fo (.dense d') r' = Res.ok c := by
  obtain ⟨d, h1, h2⟩ := C148_knn_weighted_partial e k nT nW train what lab p nm vs D hsrt hkeys hoW hoT ord hord hdist hk0 hk hb
  obtain ⟨d', h1', h2'⟩ := C148_knn_weighted_partial { e with srt := srt', sortKeys := sortKeys', orderW := orderW', orderT := orderT' } k nT nW'
    train what' lab p' nm' vs' D' hsrt' hkeys' hoW' hoT' ord' hord' hdist hk0 hk hb'
  refine ⟨d, d', h1, h1', fun r r' hr hr' hs c hc => ⟨h2 r hr c hc, h2' r' hr' c fun fs hfs => ?_⟩⟩
  have hp : what'.point e.val fs r' = what.point e.val fs r := List.map_congr_left fun a ha => by
    have := List.mem_filter.1 ((hfs.trans hcols).subset ha)
    exact hs a this.1 this.2
  have := hc fs (hfs.trans hcols)
  rw [← hp] at this
  exact this
/-- The same with the k-d tree, where it finds the nearest rows: for every row at least `k` training rows are nearer than the origin. -/
theorem C170_rows_tree_partial (e : KnnEnv R) (srt' : List Spec → List Spec) (orderW' : List Nat)
    (srtKd srtKd' : List (List R) → Nat → List Nat → List Nat) (hkd : ∀ data, SortsBy data (srtKd data))
    (hkd' : ∀ data, SortsBy data (srtKd' data)) (orderB orderB' : List Nat)
    (k nT nW nW' : Nat) (train what what' : Grid) (lab : Nat → String) (p p' : Nat)
    (nm nm' : String) (vs vs' : List String) (D : KnnData e.fo train what nT nW lab ⟨p, .cat nm vs⟩)
    (D' : KnnData e.fo train what' nT nW' lab ⟨p', .cat nm' vs'⟩)
    (hcols : (what'.allAttributes.filter Attr.isFloat).Perm (what.allAttributes.filter Attr.isFloat))
    (hsrt : PositionSort e.srt) (hsrt' : PositionSort srt') (hoW : what.RowOrder e.orderW) (hoW' : what'.RowOrder orderW')
    (hoB : train.RowOrder orderB) (hoB' : train.RowOrder orderB') (ord ord' : Nat → List String → List String)
    (hord : ∀ r l, (ord r l).Perm l) (hord' : ∀ r l, (ord' r l).Perm l) (hdist : AxisBound e.dist) (hk0 : 0 < k) (hk : k ≤ nT)
    (hfeat : ∃ a ∈ what.allAttributes, a.isFloat = true) (hb : vs.length + nW ≤ 2 ^ 64) (hb' : vs'.length + nW' ≤ 2 ^ 64)
    (hclose : ∀ fs, fs.Perm (what.allAttributes.filter Attr.isFloat) → ∀ r, r < nW →
      k ≤ (List.range nT).countP fun q => decide (e.dist (what.point e.val fs r) (train.point e.val fs q) <
        e.dist (what.point e.val fs r) (List.replicate fs.length 0)))
    (hclose' : ∀ fs, fs.Perm (what.allAttributes.filter Attr.isFloat) → ∀ r, r < nW' →
      k ≤ (List.range nT).countP fun q => decide (e.dist (what'.point e.val fs r) (train.point e.val fs q) <
        e.dist (what'.point e.val fs r) (List.replicate fs.length 0))) :
    ∃ d d', knnPredictTree e srtKd orderB k train what (fun r out m => vote e.fo train (ord r) m (out.map Prod.fst)) [] = Res.ok d ∧
      knnPredictTree { e with srt := srt', orderW := orderW' } srtKd' orderB' k train what'
        (fun r out m => vote e.fo train (ord' r) m (out.map Prod.fst)) [] = Res.ok d' ∧
      ∀ r r', r < nW → r' < nW' →
        (∀ a ∈ what.allAttributes, a.isFloat = true → what'.number e.val a r' = what.number e.val a r) →
        ∀ c, (∀ fs, fs.Perm (what.allAttributes.filter Attr.isFloat) → ∃ S, S.length = k ∧
          ClearlyNearest ((List.range nT).map (train.point e.val fs)) e.dist (what.point e.val fs r) S ∧ ClearWinner (S.map lab) c) →
        getClass e.fo (.dense d) r = Res.ok c ∧ getClass e.fo (.dense d') r' = Res.ok c := by
  have hfeat' : ∃ a ∈ what'.allAttributes, a.isFloat = true := by
    obtain ⟨a, ha, hf⟩ := hfeat
    have := List.mem_filter.1 (hcols.mem_iff.2 (List.mem_filter.2 ⟨ha, hf⟩))
    exact ⟨a, this.1, this.2⟩
  obtain ⟨d, h1, h2⟩ := C148_knn_tree_partial e srtKd hkd orderB k nT nW train what lab p nm vs D hsrt hoW hoB ord hord hdist hk0 hk hfeat hb hclose
  obtain ⟨d', h1', h2'⟩ := C148_knn_tree_partial { e with srt := srt', orderW := orderW' } srtKd' hkd' orderB' k nT nW' train what' lab p' nm' vs' D'
    hsrt' hoW' hoB' ord' hord' hdist hk0 hk hfeat' hb' fun fs hfs => hclose' fs (hfs.trans hcols)
  refine ⟨d, d', h1, h1', fun r r' hr hr' hs c hc => ⟨h2 r hr c hc, h2' r' hr' c fun fs hfs => ?_⟩⟩
  have hp : what'.point e.val fs r' = what.point e.val fs r := List.map_congr_left fun a ha => by
    have := List.mem_filter.1 ((hfs.trans hcols).subset ha)
    exact hs a this.1 this.2
  have := hc fs (hfs.trans hcols)
  rw [← hp] at this
  exact this
end

namespace C170
open C148

/-- Rows to predict at 8, 2 and 2. -/
def opsW' : List Op :=
  [.add aX', .add aC', .addClass aC', .extend 3, .set 0 0 (packU64 8), .set 0 1 (packU64 2), .set 0 2 (packU64 2)]
def env : KnnEnv ℚ := { env0 with orderW := [0, 1, 2] }
/-- The votes of the last row are counted in another order. -/
def ord (r : Nat) : List String → List String := if r = 2 then List.reverse else id

theorem ord_perm (r : Nat) (l : List String) : (ord r l).Perm l := by
  unfold ord
  split
  · exact List.reverse_perm l
  · exact List.Perm.refl l

set_option synthInstance.maxSize 1024 in
set_option synthInstance.maxHeartbeats 200000 in
/-- The second table can be predicted as well. -/
theorem data' {tr : St} (htr : run 4096 opsT = Res.ok tr) : ∃ pr, run 4096 opsW' = Res.ok pr ∧
    KnnData fo0 (.dense tr.d) (.dense pr.d) 3 3 (fun r => ["a", "b", "b"].getD r "") aC' ∧ (Grid.dense pr.d).RowOrder [0, 1, 2] := by
  have h : ((run 4096 opsT).bind fun tr => (run 4096 opsW').map fun pr =>
      (checkCompatible (.dense pr.d) (.dense tr.d) == some pr.d.allAttributes, pr.d.allClassAttributes, tr.d.allClassAttributes,
        decide (aC' ∈ pr.d.allAttributes), decide (aC ∈ tr.d.allAttributes), pr.d.maxRow)) =
      Res.ok (true, [aC'], [aC], true, true, 3) := by decide +kernel
  have hl : ((run 4096 opsT).map fun tr => (List.range 3).map fun r =>
      aC.getString fo0 ((Grid.dense tr.d).cell aC r)) = Res.ok [Res.ok "a", Res.ok "b", Res.ok "b"] := by decide +kernel
  rw [htr, Res.bind_ok] at h
  obtain ⟨pr, hpr, h⟩ := Res.map_eq_ok.1 h
  simp only [Prod.mk.injEq, beq_iff_eq, decide_eq_true_eq] at h
  obtain ⟨h1, h2, h3, h4, h5, h7⟩ := h
  have Dt : DenseOK 3 tr.d := denseOK_run (ops := opsT) (by decide) htr (by decide)
  have Dp : DenseOK 3 pr.d := denseOK_run (ops := opsW') (by decide) hpr (by decide)
  rw [htr, Res.map_ok, Res.ok.injEq] at hl
  refine ⟨pr, hpr, knnData_dense Dt Dp h1 h2 h4 h3 h5 ?_, ?_⟩
  · intro r hr
    have := congrArg (fun l => l[r]?) hl
    interval_cases r <;> simpa using this
  · show [0, 1, 2] = List.range pr.d.maxRow
    rw [h7]; rfl

end C170

open C148 C170 in
/-- The hypotheses hold for rows at 1, 3 and 9 with the labels a, b and b, one table with rows at 2 and 8, and another one with rows at 8, 2
and 2: the second row of the one and the first row of the other have the same number, and both get the class b. -/
theorem C170_witness : ∃ tr pr pr', run 4096 opsT = Res.ok tr ∧ run 4096 opsW = Res.ok pr ∧ run 4096 opsW' = Res.ok pr' ∧
    KnnData fo0 (.dense tr.d) (.dense pr.d) 3 2 (fun r => ["a", "b", "b"].getD r "") aC' ∧
    KnnData fo0 (.dense tr.d) (.dense pr'.d) 3 3 (fun r => ["a", "b", "b"].getD r "") aC' ∧
    ∃ d d', knnPredictLinear env0 2 (.dense tr.d) (.dense pr.d) (fun _ out m => vote fo0 (.dense tr.d) id m (out.map Prod.fst)) [] = Res.ok d ∧
      knnPredictLinear { env0 with sortKeys := fun _ => laterFirst, orderW := [0, 1, 2] } 2 (.dense tr.d) (.dense pr'.d)
        (fun _ out m => vote fo0 (.dense tr.d) List.reverse m (out.map Prod.fst)) [] = Res.ok d' ∧
      getClass fo0 (.dense d) 1 = Res.ok "b" ∧ getClass fo0 (.dense d') 0 = Res.ok "b" := by
  obtain ⟨tr, pr, htr, hpr, D, hs, hk, hw, ht⟩ := data
  obtain ⟨pr', hpr', D', hw'⟩ := data' htr
  have h : ((run 4096 opsT).bind fun tr => (run 4096 opsW).bind fun pr => (run 4096 opsW').map fun pr' =>
      ((Grid.dense pr.d).allAttributes, (Grid.dense pr'.d).allAttributes, (List.range 3).map ((Grid.dense tr.d).point env0.val [aX']),
        (Grid.dense pr.d).number env0.val aX' 1, (Grid.dense pr'.d).number env0.val aX' 0)) =
      Res.ok ([aX', aC'], [aX', aC'], [[1], [3], [9]], 8, 8) := by decide +kernel
  rw [htr, Res.bind_ok, hpr, Res.bind_ok, hpr', Res.map_ok, Res.ok.injEq] at h
  simp only [Prod.mk.injEq] at h
  obtain ⟨h1, h1', h2, h3, h4⟩ := h
  obtain ⟨d, d', e1, e2, e3⟩ := C170_rows_partial env0 env0.srt (fun _ => laterFirst) [0, 1, 2] env0.orderT 2 3 2 3 (.dense tr.d) (.dense pr.d)
    (.dense pr'.d) _ 3 3 "c" "c" ["a", "b"] ["a", "b"] D D' (by rw [h1, h1']) hs hs hk (fun _ => laterFirst_sorts) hw hw' ht ht
    (fun _ => id) (fun _ => List.reverse) (fun _ _ => List.Perm.refl _) (fun _ l => List.reverse_perm l) (by decide) (by decide) (by decide)
    (by decide)
  refine ⟨tr, pr, pr', htr, hpr, hpr', D, D', d, d', e1, e2, e3 1 0 (by decide) (by decide) ?_ "b" fun fs hfs => ⟨[1, 2], rfl, ?_, by decide, ?_⟩⟩
  · intro a ha hf
    rw [h1] at ha
    rcases List.mem_cons.1 ha with rfl | ha
    · rw [h3, h4]
    · rw [List.mem_singleton.1 ha] at hf
      exact absurd hf (by decide)
  · rw [h1, show [aX', aC'].filter Attr.isFloat = [aX'] by decide, List.perm_singleton] at hfs
    rw [hfs, h2, show (Grid.dense pr.d).point env0.val [aX'] 1 = [8] from congrArg (fun x => [x]) h3]
    refine ⟨by decide, by decide, fun i hi j hj hn => ?_⟩
    have : j = 0 := by
      simp only [List.length_cons, List.length_nil] at hj
      simp at hn
      omega
    subst this
    fin_cases hi <;> norm_num [env0]
  · intro c' hc'
    have : ("b" == c') = false := by simpa using fun e => hc' e.symm
    simp [List.count, List.countP, List.countP.go, this]

open C148 C170 in
/-- The same tables with weights: the row at 8 has the neighbours at 9 and 3, both with the label b. -/
theorem C170_weighted_witness : ∃ tr pr pr', run 4096 opsT = Res.ok tr ∧ run 4096 opsW = Res.ok pr ∧ run 4096 opsW' = Res.ok pr' ∧
    ∃ d d', knnPredictLinear env0 2 (.dense tr.d) (.dense pr.d) (fun _ out m => weightedVote fo0 (.dense tr.d) id m out) [] = Res.ok d ∧
      knnPredictLinear { env0 with sortKeys := fun _ => laterFirst, orderW := [0, 1, 2] } 2 (.dense tr.d) (.dense pr'.d)
        (fun _ out m => weightedVote fo0 (.dense tr.d) List.reverse m out) [] = Res.ok d' ∧
      getClass fo0 (.dense d) 1 = Res.ok "b" ∧ getClass fo0 (.dense d') 0 = Res.ok "b" := by
  obtain ⟨tr, pr, htr, hpr, D, hs, hk, hw, ht⟩ := data
  obtain ⟨pr', hpr', D', hw'⟩ := data' htr
  have h : ((run 4096 opsT).bind fun tr => (run 4096 opsW).bind fun pr => (run 4096 opsW').map fun pr' =>
      ((Grid.dense pr.d).allAttributes, (Grid.dense pr'.d).allAttributes, (List.range 3).map ((Grid.dense tr.d).point env0.val [aX']),
        (Grid.dense pr.d).number env0.val aX' 1, (Grid.dense pr'.d).number env0.val aX' 0)) =
      Res.ok ([aX', aC'], [aX', aC'], [[1], [3], [9]], 8, 8) := by decide +kernel
  rw [htr, Res.bind_ok, hpr, Res.bind_ok, hpr', Res.map_ok, Res.ok.injEq] at h
  simp only [Prod.mk.injEq] at h
  obtain ⟨h1, h1', h2, h3, h4⟩ := h
  obtain ⟨d, d', e1, e2, e3⟩ := C170_rows_weighted_partial env0 env0.srt (fun _ => laterFirst) [0, 1, 2] env0.orderT 2 3 2 3 (.dense tr.d)
    (.dense pr.d) (.dense pr'.d) _ 3 3 "c" "c" ["a", "b"] ["a", "b"] D D' (by rw [h1, h1']) hs hs hk (fun _ => laterFirst_sorts) hw hw' ht ht
    (fun _ => id) (fun _ => List.reverse) (fun _ _ => List.Perm.refl _) (fun _ l => List.reverse_perm l)
    (fun x y => List.sum_nonneg fun z hz => by
      obtain ⟨i, hi, rfl⟩ := List.mem_iff_getElem.1 hz
      rw [List.getElem_zipWith]
      exact abs_nonneg _) (by decide) (by decide) (by decide) (by decide)
  refine ⟨tr, pr, pr', htr, hpr, hpr', d, d', e1, e2, e3 1 0 (by decide) (by decide) ?_ "b" fun fs hfs => ⟨[1, 2], rfl, ?_, ?_⟩⟩
  · intro a ha hf
    rw [h1] at ha
    rcases List.mem_cons.1 ha with rfl | ha
    · rw [h3, h4]
    · rw [List.mem_singleton.1 ha] at hf
      exact absurd hf (by decide)
  · rw [h1, show [aX', aC'].filter Attr.isFloat = [aX'] by decide, List.perm_singleton] at hfs
    rw [hfs, h2, show (Grid.dense pr.d).point env0.val [aX'] 1 = [8] from congrArg (fun x => [x]) h3]
    refine ⟨by decide, by decide, fun i hi j hj hn => ?_⟩
    have : j = 0 := by
      simp only [List.length_cons, List.length_nil] at hj
      simp at hn
      omega
    subst this
    fin_cases hi <;> norm_num [env0]
  · rw [h1, show [aX', aC'].filter Attr.isFloat = [aX'] by decide, List.perm_singleton] at hfs
    intro c' hc'
    have hb : ("b" == c') = false := by simpa using fun e => hc' e.symm
    have p1 : (Grid.dense tr.d).point env0.val [aX'] 1 = [3] := by
      have := congrArg (fun l => l[1]?) h2
      simpa using this
    have p2 : (Grid.dense tr.d).point env0.val [aX'] 2 = [9] := by
      have := congrArg (fun l => l[2]?) h2
      simpa using this
    rw [hfs, show (Grid.dense pr.d).point env0.val [aX'] 1 = [8] from congrArg (fun x => [x]) h3]
    simp only [List.map_cons, List.map_nil, p1, p2]
    rw [show env0.dist [8] [3] = 5 by norm_num [env0], show env0.dist [8] [9] = 1 by norm_num [env0]]
    have l1 : labelWeight (fun r => ["a", "b", "b"].getD r "") [(1, (5 : ℚ)), (2, 1)] c' = 0 := by simp [labelWeight, hb]
    have l2 : labelWeight (fun r => ["a", "b", "b"].getD r "") [(1, (5 : ℚ)), (2, 1)] "b" = ((1 / 5 + 1 : ℚ) : WithTop ℚ) := by
      simp [labelWeight, invLength]
    rw [l1, l2]
    exact WithTop.coe_lt_coe.2 (by norm_num)

open C148 C170 in
/-- The same tables with the k-d tree. -/
theorem C170_tree_witness : ∃ tr pr pr', run 4096 opsT = Res.ok tr ∧ run 4096 opsW = Res.ok pr ∧ run 4096 opsW' = Res.ok pr' ∧
    ∃ d d', knnPredictTree env0 C159.sortRows [0, 1, 2] 2 (.dense tr.d) (.dense pr.d)
        (fun _ out m => vote fo0 (.dense tr.d) id m (out.map Prod.fst)) [] = Res.ok d ∧
      knnPredictTree { env0 with orderW := [0, 1, 2] } C159.sortRows [0, 1, 2] 2 (.dense tr.d) (.dense pr'.d)
        (fun _ out m => vote fo0 (.dense tr.d) List.reverse m (out.map Prod.fst)) [] = Res.ok d' ∧
      getClass fo0 (.dense d) 1 = Res.ok "b" ∧ getClass fo0 (.dense d') 0 = Res.ok "b" := by
  obtain ⟨tr, pr, htr, hpr, D, hs, hk, hw, ht⟩ := data
  obtain ⟨pr', hpr', D', hw'⟩ := data' htr
  have h : ((run 4096 opsT).bind fun tr => (run 4096 opsW).bind fun pr => (run 4096 opsW').map fun pr' =>
      ((Grid.dense pr.d).allAttributes, (Grid.dense pr'.d).allAttributes, (List.range 3).map ((Grid.dense tr.d).point env0.val [aX']),
        (Grid.dense pr.d).number env0.val aX' 1, (Grid.dense pr'.d).number env0.val aX' 0)) =
      Res.ok ([aX', aC'], [aX', aC'], [[1], [3], [9]], 8, 8) := by decide +kernel
  have hn : ((run 4096 opsT).bind fun tr => (run 4096 opsW).bind fun pr => (run 4096 opsW').map fun pr' =>
      [(List.range 2).all fun r => decide (2 ≤ (List.range 3).countP fun q => decide (env0.dist ((Grid.dense pr.d).point env0.val [aX'] r)
        ((Grid.dense tr.d).point env0.val [aX'] q) < env0.dist ((Grid.dense pr.d).point env0.val [aX'] r) [0])),
       (List.range 3).all fun r => decide (2 ≤ (List.range 3).countP fun q => decide (env0.dist ((Grid.dense pr'.d).point env0.val [aX'] r)
        ((Grid.dense tr.d).point env0.val [aX'] q) < env0.dist ((Grid.dense pr'.d).point env0.val [aX'] r) [0]))]) =
      Res.ok [true, true] := by decide +kernel
  rw [htr, Res.bind_ok, hpr, Res.bind_ok, hpr', Res.map_ok, Res.ok.injEq] at h hn
  simp only [Prod.mk.injEq] at h
  simp only [List.cons.injEq, and_true] at hn
  obtain ⟨h1, h1', h2, h3, h4⟩ := h
  have hone : ∀ fs, fs.Perm ((Grid.dense pr.d).allAttributes.filter Attr.isFloat) → fs = [aX'] := by
    intro fs hfs
    rw [h1, show [aX', aC'].filter Attr.isFloat = [aX'] by decide, List.perm_singleton] at hfs
    exact hfs
  obtain ⟨d, d', e1, e2, e3⟩ := C170_rows_tree_partial env0 env0.srt [0, 1, 2] C159.sortRows C159.sortRows C159.sortRows_sorts
    C159.sortRows_sorts [0, 1, 2] [0, 1, 2] 2 3 2 3 (.dense tr.d)
    (.dense pr.d) (.dense pr'.d) _ 3 3 "c" "c" ["a", "b"] ["a", "b"] D D' (by rw [h1, h1']) hs hs hw hw' (ht 0) (ht 0)
    (fun _ => id) (fun _ => List.reverse) (fun _ _ => List.Perm.refl _) (fun _ l => List.reverse_perm l)
    C159.env_axis (by decide) (by decide) (by rw [h1]; exact ⟨aX', by decide, by decide⟩) (by decide) (by decide)
    (fun fs hfs r hr => by
      obtain rfl := hone fs hfs
      exact of_decide_eq_true (List.all_eq_true.1 hn.1 r (List.mem_range.2 hr)))
    (fun fs hfs r hr => by
      obtain rfl := hone fs hfs
      exact of_decide_eq_true (List.all_eq_true.1 hn.2 r (List.mem_range.2 hr)))
  refine ⟨tr, pr, pr', htr, hpr, hpr', d, d', e1, e2, e3 1 0 (by decide) (by decide) ?_ "b" fun fs hfs => ⟨[1, 2], rfl, ?_, by decide, ?_⟩⟩
  · intro a ha hf
    rw [h1] at ha
    rcases List.mem_cons.1 ha with rfl | ha
    · rw [h3, h4]
    · rw [List.mem_singleton.1 ha] at hf
      exact absurd hf (by decide)
  · rw [hone fs hfs, h2, show (Grid.dense pr.d).point env0.val [aX'] 1 = [8] from congrArg (fun x => [x]) h3]
    refine ⟨by decide, by decide, fun i hi j hj hn => ?_⟩
    have : j = 0 := by
      simp only [List.length_cons, List.length_nil] at hj
      simp at hn
      omega
    subst this
    fin_cases hi <;> norm_num [env0]
  · intro c' hc'
    have : ("b" == c') = false := by simpa using fun e => hc' e.symm
    simp [List.count, List.countP, List.countP.go, this]

open C148 C170 in
/-- With two neighbours the two rows at 2 have one neighbour with each label, and they get different classes in one run. -/
theorem C170_tie : ((run 4096 opsT).bind fun tr => (run 4096 opsW').bind fun pr =>
    (knnPredictLinear C170.env 2 (.dense tr.d) (.dense pr.d) (fun r out m => vote fo0 (.dense tr.d) (C170.ord r) m (out.map Prod.fst)) []).bind
      fun d => mapRes (getClass fo0 (.dense d)) [0, 1, 2]) = Res.ok ["b", "b", "a"] := by
  decide +kernel

open C148 C170 in
/-- So equal rows of one table need not get the same class. -/
theorem C170_refuted : ¬ EqualRowsAlike := by
  intro H
  obtain ⟨tr, _, htr, _, _, hs, hk, _, ht⟩ := data
  obtain ⟨pr, hpr, D, hw⟩ := data' htr
  have h := C170_tie
  rw [htr, Res.bind_ok, hpr, Res.bind_ok] at h
  obtain ⟨d, e1, k1⟩ := Res.bind_eq_ok.1 h
  have hn : ((run 4096 opsW').map fun pr => ((Grid.dense pr.d).allAttributes, (Grid.dense pr.d).number env0.val aX' 1,
      (Grid.dense pr.d).number env0.val aX' 2)) = Res.ok ([aX', aC'], 2, 2) := by decide +kernel
  rw [hpr, Res.map_ok, Res.ok.injEq] at hn
  simp only [Prod.mk.injEq] at hn
  obtain ⟨n1, n2, n3⟩ := hn
  have := H C170.env 2 3 3 (.dense tr.d) (.dense pr.d) _ aC' C170.ord d 1 2 D hs hk hw ht ord_perm e1 (by decide) (by decide) (by
    intro a ha hf
    rw [n1] at ha
    rcases List.mem_cons.1 ha with rfl | ha
    · exact n3.trans n2.symm
    · rw [List.mem_singleton.1 ha] at hf
      exact absurd hf (by decide))
  rw [mapRes_eq_ok] at k1
  have g1 : getClass fo0 (.dense d) 1 = Res.ok "b" := by cases k1 with | cons _ k => cases k; assumption
  have g2 : getClass fo0 (.dense d) 2 = Res.ok "a" := by cases k1 with | cons _ k => cases k with | cons _ k => cases k; assumption
  change getClass fo0 (.dense d) 2 = getClass fo0 (.dense d) 1 at this
  rw [g1, g2] at this
  exact absurd (Res.ok.inj this) (by decide)

end Golearn
