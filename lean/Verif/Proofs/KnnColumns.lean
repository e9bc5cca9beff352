import Verif.Spec.KnnColumns
import Verif.Proofs.SaveKnn

/-! # Proofs: the columns nearest neighbours look at -/

namespace Golearn

/-- Two iterations over the same rows whose callbacks do the same, as long as an invariant holds. -/
theorem mapOver_same {σ : Type} {vals vals' : Nat → Res (List Bytes)} {cb cb' : σ → List Bytes → Nat → Res (σ × Ctl)} (I : σ → Prop)
    (l : List Nat) (h : ∀ r ∈ l, ∃ v v', vals r = Res.ok v ∧ vals' r = Res.ok v' ∧
      ∀ s, I s → cb s v r = cb' s v' r ∧ ∀ p, cb s v r = Res.ok p → I p.1) (s : σ) (hs : I s) :
    mapOver vals cb s l = mapOver vals' cb' s l := by
  induction l generalizing s with
  | nil => rfl
  | cons r l ih =>
    obtain ⟨v, v', e1, e2, e3⟩ := h r (by simp)
    obtain ⟨c1, c2⟩ := e3 s hs
    simp only [mapOver, e1, e2, Res.bind_ok, ← c1]
    cases hp : cb s v r with
    | err => rfl
    | panic => rfl
    | ok p =>
      simp only [Res.bind_ok]
      cases p.2 with
      | cont => exact ih (fun q hq => h q (by simp [hq])) _ (c2 p hp)
      | stop => rfl
      | error => rfl

section
variable {R : Type} [LinearOrder R] [Zero R]

/-- The linear search in closed form. -/
theorem linearSearch_eq {train : Grid} {n : Nat} {specs : List Spec} {fs : List Attr} {val : U64 → R}
    (hprep : train.mapPrep specs = Res.ok ())
    (hrow : ∀ r, r < n → train.rowVals specs r = Res.ok (fs.map fun a => train.cell a r) ∧
      readRow val (fs.map fun a => train.cell a r) = Res.ok (train.point val fs r))
    {order : List Nat} (ho : ∀ r ∈ order, r < n) (dist : List R → List R → R)
    (srt : (Nat → R) → List Nat → List Nat) (k : Nat) (x : List R) (m : GoMap Nat R) :
    linearSearch val dist srt k train specs order x m =
      (let m' := order.foldl (fun m r => m.set r (dist x (train.point val fs r))) m
       if k > (sortIntMap srt m').length then Res.panic
       else Res.ok (m', ((sortIntMap srt m').take k).map fun v => (v, (m'.get? v).getD 0))) := by
  have hmap := mapOver_all (train.rowVals specs) (fun r => fs.map fun a => train.cell a r) (distCallback val dist x)
    (fun m _ r => m.set r (dist x (train.point val fs r))) order (fun r hr => (hrow r (ho r hr)).1)
    (by
      intro m r hr
      unfold distCallback
      rw [(hrow r (ho r hr)).2]
      rfl) m
  unfold linearSearch Grid.mapOverRows
  rw [hprep]
  simp only [Res.bind, hmap, keepState]

/-- Predictions from tables with the same numbers in the float columns. -/
theorem linear_columns {τ : Type} (e : KnnEnv R) (srt' : List Spec → List Spec) {k nT nW : Nat} {train train' what what' : Grid}
    {lab : Nat → String} {cls : Attr} (hcat : cls.isFloat = false)
    (D : KnnData e.fo train what nT nW lab cls) (D' : KnnData e.fo train' what' nT nW lab cls)
    (hall : (what'.allAttributes.filter Attr.isFloat).Perm (what.allAttributes.filter Attr.isFloat))
    (hT : SameNumbers e.val train train' nT what.allAttributes) (hW : SameNumbers e.val what what' nW what.allAttributes)
    (hdist : ColumnOrderFree e.dist) (hsrt : PositionSort e.srt) (hsrt' : PositionSort srt')
    (hkeys : ∀ r v l, (e.sortKeys r v l).Perm l) (hoW : what.RowOrder e.orderW) (hoT : ∀ r, train.RowOrder (e.orderT r))
    (votes votes' : Nat → List (Nat × R) → τ → Res (τ × String))
    (hvotes : ∀ r out v, (∀ p ∈ out, p.1 < nT) → votes' r out v = votes r out v) (v0 : τ) :
    knnPredictLinear { e with srt := srt' } k train' what' votes' v0 = knnPredictLinear e k train what votes v0 := by
  set num := what.allAttributes.filter Attr.isFloat with hnum
  set num' := what'.allAttributes.filter Attr.isFloat with hnum'
  have hfl : ∀ a ∈ num, a.isFloat = true := fun a ha => (List.mem_filter.1 ha).2
  have hin : ∀ a ∈ num, a ∈ what.allAttributes := fun a ha => (List.mem_filter.1 ha).1
  have hfl' : ∀ a ∈ num', a.isFloat = true := fun a ha => (List.mem_filter.1 ha).2
  have hin' : ∀ a ∈ num', a ∈ what'.allAttributes := fun a ha => (List.mem_filter.1 ha).1
  obtain ⟨fs, hfs, hsp⟩ := positionSort_attrs hsrt num
  obtain ⟨fs', hfs', hsp'⟩ := positionSort_attrs hsrt' num'
  obtain ⟨spW, w1, w2⟩ := features_spec D.whatRows D.whatTyped (num := num)
    (fun a ha => ⟨a, hin a ha, C28_equals_refl a, rfl⟩) hfl
  obtain ⟨spT, t1, t2⟩ := features_spec D.trainRows D.trainTyped (D.finds.subset hin) hfl
  obtain ⟨w3, w4⟩ := w2 fs (fun a ha => hfs.subset ha)
  obtain ⟨t3, t4⟩ := t2 fs (fun a ha => hfs.subset ha)
  obtain ⟨spW', w1', w2'⟩ := features_spec D'.whatRows D'.whatTyped (num := num')
    (fun a ha => ⟨a, hin' a ha, C28_equals_refl a, rfl⟩) hfl'
  obtain ⟨spT', t1', t2'⟩ := features_spec D'.trainRows D'.trainTyped (D'.finds.subset hin') hfl'
  obtain ⟨w3', w4'⟩ := w2' fs' (fun a ha => hfs'.subset ha)
  obtain ⟨t3', t4'⟩ := t2' fs' (fun a ha => hfs'.subset ha)
  have hp : fs'.Perm fs := (hfs'.trans hall).trans hfs.symm
  have hgen : generatePredictionVector e.pg what' = generatePredictionVector e.pg what := by
    unfold generatePredictionVector
    rw [D.whatClass, D'.whatClass, D.whatRows.rows, D'.whatRows.rows]
  have hmem : ∀ a ∈ fs', a ∈ what.allAttributes ∧ a.isFloat = true := fun a ha => List.mem_filter.1 (hfs.subset (hp.subset ha))
  have hd : ∀ r q, r < nW → q < nT → e.dist (what'.point e.val fs' r) (train'.point e.val fs' q) =
      e.dist (what.point e.val fs r) (train.point e.val fs q) := by
    intro r q hr hq
    have h1 : what'.point e.val fs' r = fs'.map fun a => what.number e.val a r :=
      List.map_congr_left fun a ha => hW a (hmem a ha).1 (hmem a ha).2 r hr
    have h2 : train'.point e.val fs' q = fs'.map fun a => train.number e.val a q :=
      List.map_congr_left fun a ha => hT a (hmem a ha).1 (hmem a ha).2 q hq
    rw [h1, h2]
    exact hdist fs' fs _ _ hp
  have ho : ∀ r ∈ e.orderW, r < nW := fun r hr => List.mem_range.1 ((D.whatRows.order _ hoW).subset hr)
  have hoT' : ∀ r, ∀ q ∈ e.orderT r, q < nT := fun r q hq => List.mem_range.1 ((D.trainRows.order _ (hoT r)).subset hq)
  unfold knnPredictLinear
  rw [D.same, D'.same]
  simp only
  rw [knnNumeric_spec D.whatClassIn hcat, knnNumeric_spec D'.whatClassIn hcat]
  simp only [Res.bind_ok, hgen, Grid.resolve, ← hnum, ← hnum', w1, t1, w1', t1', Res.map_ok, hsp, hsp']
  congr 1
  funext ret
  unfold Grid.mapOverRows
  rw [w3, w3']
  simp only [Res.bind_ok]
  congr 2
  refine mapOver_same (fun s => DistKeys nT s.search) _ ?_ _ ⟨by simp, by simp⟩
  intro r hr
  refine ⟨_, _, (w4' r (ho r hr)).1, (w4 r (ho r hr)).1, fun s hs => ?_⟩
  unfold knnCallback
  rw [(w4' r (ho r hr)).2 e.val, (w4 r (ho r hr)).2 e.val]
  simp only [Res.bind_ok]
  rw [linearSearch_eq t3' (fun r hr => ⟨(t4' r hr).1, (t4' r hr).2 e.val⟩) (hoT' r),
    linearSearch_eq t3 (fun r hr => ⟨(t4 r hr).1, (t4 r hr).2 e.val⟩) (hoT' r)]
  have hfold : (e.orderT r).foldl (fun m q => m.set q (e.dist (what'.point e.val fs' r) (train'.point e.val fs' q))) s.search =
      (e.orderT r).foldl (fun m q => m.set q (e.dist (what.point e.val fs r) (train.point e.val fs q))) s.search :=
    List.foldl_ext _ _ _ fun m q hq => by rw [hd r q (ho r hr) (hoT' r q hq)]
  rw [hfold]
  obtain ⟨d1, d2, _⟩ := dists_foldl (fun q => e.dist (what.point e.val fs r) (train.point e.val fs q)) (e.orderT r) s.search hs.1
  set m' := (e.orderT r).foldl (fun m q => m.set q (e.dist (what.point e.val fs r) (train.point e.val fs q))) s.search with hm'
  have hk' : ∀ q ∈ m'.map Prod.fst, q < nT := by
    intro q hq
    rcases (d2 q).1 hq with h | h
    · exact hoT' r q h
    · exact hs.2 q h
  simp only
  by_cases hk : k > (sortIntMap (e.sortKeys r) m').length
  · rw [if_pos hk]
    exact ⟨rfl, fun p hp => by cases hp⟩
  · rw [if_neg hk]
    simp only
    rw [hvotes r _ _ (by
      intro p hp
      obtain ⟨i, hi, rfl⟩ := List.mem_map.1 hp
      exact hk' i ((hkeys r _ _).subset (List.mem_of_mem_take hi)))]
    refine ⟨rfl, fun p hp => ?_⟩
    obtain ⟨q, hq, hp⟩ := Res.bind_eq_ok.1 hp
    obtain ⟨d, hd', rfl⟩ := Res.map_eq_ok.1 hp
    exact ⟨d1, hk'⟩

/-- The points for the k-d tree in closed form. -/
theorem points_eq {train : Grid} {n : Nat} {specs : List Spec} {fs : List Attr} {val : U64 → R}
    (hprep : train.mapPrep specs = Res.ok ())
    (hrow : ∀ r, r < n → train.rowVals specs r = Res.ok (fs.map fun a => train.cell a r) ∧
      readRow val (fs.map fun a => train.cell a r) = Res.ok (train.point val fs r))
    {order : List Nat} (ho : ∀ r ∈ order, r < n) :
    keepState (train.mapOverRows specs order (pointCallback val) []) [] =
      Res.ok (order.map fun r => (r, train.point val fs r)) := by
  have hmap := mapOver_all (train.rowVals specs) (fun r => fs.map fun a => train.cell a r) (pointCallback val)
    (fun pts _ r => pts ++ [(r, train.point val fs r)]) order (fun r hr => (hrow r (ho r hr)).1)
    (by
      intro m r hr
      unfold pointCallback
      rw [(hrow r (ho r hr)).2]
      rfl) []
  rw [point_foldl] at hmap
  unfold Grid.mapOverRows
  rw [hprep]
  simp only [Res.bind, hmap, keepState, List.nil_append]

/-- The same with the k-d tree, if the float columns are in the same order. -/
theorem tree_columns {τ : Type} (e : KnnEnv R) (srtKd : List (List R) → Nat → List Nat → List Nat)
    (hkd : ∀ data, SortsBy data (srtKd data)) (orderB : List Nat) {k nT nW : Nat} {train train' what what' : Grid}
    {lab : Nat → String} {cls : Attr} (hcat : cls.isFloat = false)
    (D : KnnData e.fo train what nT nW lab cls) (D' : KnnData e.fo train' what' nT nW lab cls)
    (hall : what'.allAttributes.filter Attr.isFloat = what.allAttributes.filter Attr.isFloat)
    (hT : SameNumbers e.val train train' nT what.allAttributes) (hW : SameNumbers e.val what what' nW what.allAttributes)
    (hsrt : PositionSort e.srt) (hoW : what.RowOrder e.orderW) (hoB : train.RowOrder orderB)
    (votes votes' : Nat → List (Nat × R) → τ → Res (τ × String))
    (hvotes : ∀ r out v, (∀ p ∈ out, p.1 < nT) → votes' r out v = votes r out v) (v0 : τ) :
    knnPredictTree e srtKd orderB k train' what' votes' v0 = knnPredictTree e srtKd orderB k train what votes v0 := by
  set num := what.allAttributes.filter Attr.isFloat with hnum
  have hfl : ∀ a ∈ num, a.isFloat = true := fun a ha => (List.mem_filter.1 ha).2
  have hin : ∀ a ∈ num, a ∈ what.allAttributes := fun a ha => (List.mem_filter.1 ha).1
  have hin' : ∀ a ∈ num, a ∈ what'.allAttributes := fun a ha => by rw [← hall] at ha; exact (List.mem_filter.1 ha).1
  obtain ⟨fs, hfs, hsp⟩ := positionSort_attrs hsrt num
  obtain ⟨spW, w1, w2⟩ := features_spec D.whatRows D.whatTyped (num := num)
    (fun a ha => ⟨a, hin a ha, C28_equals_refl a, rfl⟩) hfl
  obtain ⟨spT, t1, t2⟩ := features_spec D.trainRows D.trainTyped (D.finds.subset hin) hfl
  obtain ⟨w3, w4⟩ := w2 fs (fun a ha => hfs.subset ha)
  obtain ⟨t3, t4⟩ := t2 fs (fun a ha => hfs.subset ha)
  obtain ⟨spW', w1', w2'⟩ := features_spec D'.whatRows D'.whatTyped (num := num)
    (fun a ha => ⟨a, hin' a ha, C28_equals_refl a, rfl⟩) hfl
  obtain ⟨spT', t1', t2'⟩ := features_spec D'.trainRows D'.trainTyped (D'.finds.subset hin') hfl
  obtain ⟨w3', w4'⟩ := w2' fs (fun a ha => hfs.subset ha)
  obtain ⟨t3', t4'⟩ := t2' fs (fun a ha => hfs.subset ha)
  have hgen : generatePredictionVector e.pg what' = generatePredictionVector e.pg what := by
    unfold generatePredictionVector
    rw [D.whatClass, D'.whatClass, D.whatRows.rows, D'.whatRows.rows]
  have hmem : ∀ a ∈ fs, a ∈ what.allAttributes ∧ a.isFloat = true := fun a ha => List.mem_filter.1 (hfs.subset ha)
  have pW : ∀ r, r < nW → what'.point e.val fs r = what.point e.val fs r := fun r hr =>
    List.map_congr_left fun a ha => hW a (hmem a ha).1 (hmem a ha).2 r hr
  have pT : ∀ r, r < nT → train'.point e.val fs r = train.point e.val fs r := fun r hr =>
    List.map_congr_left fun a ha => hT a (hmem a ha).1 (hmem a ha).2 r hr
  have ho : ∀ r ∈ e.orderW, r < nW := fun r hr => List.mem_range.1 ((D.whatRows.order _ hoW).subset hr)
  have hoB' : ∀ q ∈ orderB, q < nT := fun q hq => List.mem_range.1 ((D.trainRows.order _ hoB).subset hq)
  have hpts : (orderB.map fun r => (r, train'.point e.val fs r)) = orderB.map fun r => (r, train.point e.val fs r) :=
    List.map_congr_left fun r hr => by rw [pT r (hoB' r hr)]
  unfold knnPredictTree
  rw [D.same, D'.same]
  simp only
  rw [knnNumeric_spec D.whatClassIn hcat, knnNumeric_spec D'.whatClassIn hcat]
  simp only [Res.bind_ok, hgen, Grid.resolve, hall, ← hnum, w1, t1, w1', t1', Res.map_ok, hsp]
  congr 1
  funext ret
  rw [points_eq t3' (fun r hr => ⟨(t4' r hr).1, (t4' r hr).2 e.val⟩) hoB',
    points_eq t3 (fun r hr => ⟨(t4 r hr).1, (t4 r hr).2 e.val⟩) hoB', hpts]
  simp only [Res.bind_ok]
  set pts := orderB.map fun r => (r, train.point e.val fs r) with hpts'
  cases hb : kdBuild (srtKd (pts.map Prod.snd)) (pts.map Prod.snd) with
  | err => rfl
  | panic => rfl
  | ok root =>
    simp only [Res.bind_ok]
    unfold Grid.mapOverRows
    rw [w3, w3']
    simp only [Res.bind_ok]
    congr 2
    refine mapOver_same (fun _ => True) _ ?_ _ trivial
    intro r hr
    refine ⟨_, _, (w4' r (ho r hr)).1, (w4 r (ho r hr)).1, fun s _ => ⟨?_, fun _ _ => trivial⟩⟩
    unfold knnCallback
    rw [(w4' r (ho r hr)).2 e.val, (w4 r (ho r hr)).2 e.val, pW r (ho r hr)]
    simp only [Res.bind_ok]
    unfold treeSearch
    cases hk : kdSearch (pts.map Prod.snd) root k e.dist (what.point e.val fs r) with
    | err => rfl
    | panic => rfl
    | ok out =>
      have hlt := kdSearch_in (hkd _) hb hk
      simp only [Res.map_ok]
      rw [hvotes r _ _ (by
        intro p hp
        obtain ⟨q, hq, rfl⟩ := List.mem_map.1 hp
        have h1 := hlt q hq
        rw [hpts', List.map_map, List.length_map] at h1
        have h2 : (pts.map Prod.fst) = orderB := by rw [hpts', List.map_map]; exact List.map_id _
        show (pts.map Prod.fst).getD q.1 0 < nT
        rw [h2, List.getD_eq_getElem?_getD, List.getElem?_eq_getElem h1]
        exact hoB' _ (List.getElem_mem h1))]

end

end Golearn
