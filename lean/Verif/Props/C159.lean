import Verif.Spec.KnnUnits
import Verif.Props.C148

/-! # C159: nearest neighbours in other units -/

namespace Golearn

section
variable {R : Type} [Field R] [LinearOrder R] [IsStrictOrderedRing R]

/-- All float columns are multiplied by the same number and moved by numbers of their own, in the training data and in the data to
predict, and the distance is multiplied by a positive number then. A row whose `k` nearest rows are clear, with a clear winner among
their labels, gets this label in both units, in all runs. What is missing are units with other factors for some columns, which do
change the neighbours, see `C159_refuted`, and rows with ties, see `C148_not_repeated`. -/
theorem C159_knn_partial (e e' : KnnEnv R) (hval : e'.val = e.val) (hdist : e'.dist = e.dist)
    (c m : R) (hm : 0 < m) (hscale : ScalesWith e.dist c m) (shift : Attr → R)
    (k nT nW : Nat) (train train' what what' : Grid) (lab : Nat → String) (p p' : Nat) (nm nm' : String) (vs vs' : List String)
    (D : KnnData e.fo train what nT nW lab ⟨p, .cat nm vs⟩) (D' : KnnData e'.fo train' what' nT nW lab ⟨p', .cat nm' vs'⟩)
    (hT : InUnits e.val train train' nT what.allAttributes (fun _ => c) shift)
    (hW : InUnits e.val what what' nW what.allAttributes (fun _ => c) shift)
    (hall : (what'.allAttributes.filter Attr.isFloat).Perm (what.allAttributes.filter Attr.isFloat))
    (hsrt : PositionSort e.srt) (hsrt' : PositionSort e'.srt)
    (hkeys : ∀ r, SortsKeys (e.sortKeys r)) (hkeys' : ∀ r, SortsKeys (e'.sortKeys r))
    (hoW : what.RowOrder e.orderW) (hoW' : what'.RowOrder e'.orderW)
    (hoT : ∀ r, train.RowOrder (e.orderT r)) (hoT' : ∀ r, train'.RowOrder (e'.orderT r))
    (ord ord' : Nat → List String → List String) (hord : ∀ r l, (ord r l).Perm l) (hord' : ∀ r l, (ord' r l).Perm l)
    (hk0 : 0 < k) (hk : k ≤ nT) (hb : vs.length + nW ≤ 2 ^ 64) (hb' : vs'.length + nW ≤ 2 ^ 64) :
    ∃ d d', knnPredictLinear e k train what (fun r out m => vote e.fo train (ord r) m (out.map Prod.fst)) [] = Res.ok d ∧
      knnPredictLinear e' k train' what' (fun r out m => vote e'.fo train' (ord' r) m (out.map Prod.fst)) [] = Res.ok d' ∧
      ∀ r, r < nW → ∀ c, (∀ fs, fs.Perm (what.allAttributes.filter Attr.isFloat) → ∃ S, S.length = k ∧
          ClearlyNearest ((List.range nT).map (train.point e.val fs)) e.dist (what.point e.val fs r) S ∧ ClearWinner (S.map lab) c) →
        getClass e.fo (.dense d) r = Res.ok c ∧ getClass e'.fo (.dense d') r = Res.ok c := by
  obtain ⟨d, h1, h2⟩ := C148_knn_partial e k nT nW train what lab p nm vs D hsrt hkeys hoW hoT ord hord hk0 hk hb
  obtain ⟨d', h1', h2'⟩ := C148_knn_partial e' k nT nW train' what' lab p' nm' vs' D' hsrt' hkeys' hoW' hoT' ord' hord' hk0 hk hb'
  refine ⟨d, d', h1, h1', fun r hr cl hc => ⟨h2 r hr cl hc, h2' r hr cl fun fs hfs => ?_⟩⟩
  have hfs' := hfs.trans hall
  obtain ⟨S, s1, ⟨n1, n2, n3⟩, s3⟩ := hc fs hfs'
  refine ⟨S, s1, ⟨n1, by simpa using n2, fun i hi j hj hn => ?_⟩, s3⟩
  simp only [List.length_map, List.length_range] at n2 n3 hj
  have hmem : ∀ a ∈ fs, a ∈ what.allAttributes ∧ a.isFloat = true := fun a ha => List.mem_filter.1 (hfs'.mem_iff.1 ha)
  have hget : ∀ {g : Grid} {i : Nat}, i < nT →
      ((List.range nT).map (g.point e.val fs)).getD i [] = g.point e.val fs i := by
    intro g i hi
    simp [List.getD_eq_getElem?_getD, hi]
  have pT : ∀ i, i < nT → train'.point e.val fs i = fs.map fun a => c * train.number e.val a i + shift a := fun i hi =>
    List.map_congr_left fun a ha => hT a (hmem a ha).1 (hmem a ha).2 i hi
  have pW : what'.point e.val fs r = fs.map fun a => c * what.number e.val a r + shift a :=
    List.map_congr_left fun a ha => hW a (hmem a ha).1 (hmem a ha).2 r hr
  have h := n3 i hi j hj hn
  rw [hget (n2 i hi), hget hj] at h
  rw [hval, hdist, hget (n2 i hi), hget hj, pW, pT i (n2 i hi), pT j hj, hscale, hscale]
  exact mul_lt_mul_of_pos_left h hm

/-- The same with the k-d tree where all float columns are multiplied by the same number and none is moved, for data whose rows to
predict are nearer to `k` training rows than to the origin. Where this is not so the search may take the origin for a row, and the
units matter, see `C159_tree_origin`. -/
theorem C159_tree_partial (e e' : KnnEnv R) (hval : e'.val = e.val) (hdist : e'.dist = e.dist)
    (c m : R) (hm : 0 < m) (hscale : ScalesWith e.dist c m)
    (srtKd srtKd' : List (List R) → Nat → List Nat → List Nat) (hkd : ∀ data, SortsBy data (srtKd data))
    (hkd' : ∀ data, SortsBy data (srtKd' data)) (orderB orderB' : List Nat)
    (k nT nW : Nat) (train train' what what' : Grid) (lab : Nat → String) (p p' : Nat) (nm nm' : String) (vs vs' : List String)
    (D : KnnData e.fo train what nT nW lab ⟨p, .cat nm vs⟩) (D' : KnnData e'.fo train' what' nT nW lab ⟨p', .cat nm' vs'⟩)
    (hT : InUnits e.val train train' nT what.allAttributes (fun _ => c) fun _ => 0)
    (hW : InUnits e.val what what' nW what.allAttributes (fun _ => c) fun _ => 0)
    (hall : (what'.allAttributes.filter Attr.isFloat).Perm (what.allAttributes.filter Attr.isFloat))
    (hsrt : PositionSort e.srt) (hsrt' : PositionSort e'.srt)
    (hoW : what.RowOrder e.orderW) (hoW' : what'.RowOrder e'.orderW)
    (hoB : train.RowOrder orderB) (hoB' : train'.RowOrder orderB')
    (ord ord' : Nat → List String → List String) (hord : ∀ r l, (ord r l).Perm l) (hord' : ∀ r l, (ord' r l).Perm l)
    (haxis : AxisBound e.dist) (hk0 : 0 < k) (hk : k ≤ nT) (hfeat : ∃ a ∈ what.allAttributes, a.isFloat = true)
    (hb : vs.length + nW ≤ 2 ^ 64) (hb' : vs'.length + nW ≤ 2 ^ 64)
    (hclose : ∀ fs, fs.Perm (what.allAttributes.filter Attr.isFloat) → ∀ r, r < nW →
      k ≤ (List.range nT).countP fun q => decide (e.dist (what.point e.val fs r) (train.point e.val fs q) <
        e.dist (what.point e.val fs r) (List.replicate fs.length 0))) :
    ∃ d d', knnPredictTree e srtKd orderB k train what (fun r out m => vote e.fo train (ord r) m (out.map Prod.fst)) [] = Res.ok d ∧
      knnPredictTree e' srtKd' orderB' k train' what' (fun r out m => vote e'.fo train' (ord' r) m (out.map Prod.fst)) [] =
        Res.ok d' ∧
      ∀ r, r < nW → ∀ c, (∀ fs, fs.Perm (what.allAttributes.filter Attr.isFloat) → ∃ S, S.length = k ∧
          ClearlyNearest ((List.range nT).map (train.point e.val fs)) e.dist (what.point e.val fs r) S ∧ ClearWinner (S.map lab) c) →
        getClass e.fo (.dense d) r = Res.ok c ∧ getClass e'.fo (.dense d') r = Res.ok c := by
  have hpt : ∀ {fs : List Attr} {g g' : Grid} {n i : Nat}, fs.Perm (what.allAttributes.filter Attr.isFloat) →
      InUnits e.val g g' n what.allAttributes (fun _ => c) (fun _ => 0) → i < n →
      g'.point e.val fs i = fs.map fun a => c * g.number e.val a i + 0 := by
    intro fs g g' n i hfs hU hi
    refine List.map_congr_left fun a ha => ?_
    have := List.mem_filter.1 (hfs.mem_iff.1 ha)
    exact hU a this.1 this.2 i hi
  have hfeat' : ∃ a ∈ what'.allAttributes, a.isFloat = true := by
    obtain ⟨a, h1, h2⟩ := hfeat
    have := List.mem_filter.1 (hall.mem_iff.2 (List.mem_filter.2 ⟨h1, h2⟩))
    exact ⟨a, this.1, this.2⟩
  obtain ⟨d, h1, h2⟩ := C148_knn_tree_partial e srtKd hkd orderB k nT nW train what lab p nm vs D hsrt hoW hoB ord hord haxis hk0 hk
    hfeat hb hclose
  obtain ⟨d', h1', h2'⟩ := C148_knn_tree_partial e' srtKd' hkd' orderB' k nT nW train' what' lab p' nm' vs' D' hsrt' hoW' hoB' ord' hord'
    (by rw [hdist]; exact haxis) hk0 hk hfeat' hb' (by
      intro fs hfs r hr
      have hfs' := hfs.trans hall
      refine (hclose fs hfs' r hr).trans (List.countP_mono_left fun q hq h => ?_)
      rw [decide_eq_true_eq] at h ⊢
      have h0 : (List.replicate fs.length 0 : List R) = fs.map fun _ => c * 0 + 0 := by
        rw [mul_zero, add_zero, List.map_const']
      rw [hval, hdist, hpt hfs' hT (by simpa using hq), hpt hfs' hW hr, h0, hscale fs (fun a => what.number e.val a r)
        (fun a => train.number e.val a q) fun _ => 0, hscale fs (fun a => what.number e.val a r) (fun _ => 0) fun _ => 0]
      rw [List.map_const']
      exact mul_lt_mul_of_pos_left h hm)
  refine ⟨d, d', h1, h1', fun r hr cl hc => ⟨h2 r hr cl hc, h2' r hr cl fun fs hfs => ?_⟩⟩
  have hfs' := hfs.trans hall
  obtain ⟨S, s1, ⟨n1, n2, n3⟩, s3⟩ := hc fs hfs'
  refine ⟨S, s1, ⟨n1, by simpa using n2, fun i hi j hj hn => ?_⟩, s3⟩
  simp only [List.length_map, List.length_range] at n2 n3 hj
  have hget : ∀ {g : Grid} {i : Nat}, i < nT →
      ((List.range nT).map (g.point e.val fs)).getD i [] = g.point e.val fs i := by
    intro g i hi
    simp [List.getD_eq_getElem?_getD, hi]
  have h := n3 i hi j hj hn
  rw [hget (n2 i hi), hget hj] at h
  rw [hval, hdist, hget (n2 i hi), hget hj, hpt hfs' hW hr, hpt hfs' hT (n2 i hi), hpt hfs' hT hj,
    hscale fs (fun a => what.number e.val a r) (fun a => train.number e.val a i) fun _ => 0,
    hscale fs (fun a => what.number e.val a r) (fun a => train.number e.val a j) fun _ => 0]
  exact mul_lt_mul_of_pos_left h hm

/-- The square of the Euclidean distance is multiplied by the square of the number. -/
theorem C159_euclidean (c : R) : ScalesWith (sqDist (R := R)) c (c * c) := by
  intro as x y shift
  unfold sqDist
  induction as with
  | nil => simp
  | cons a as ih =>
    simp only [List.map_cons, List.zipWith_cons_cons, List.sum_cons, ih]
    ring

/-- The Manhattan distance is multiplied by the absolute value of the number. -/
theorem C159_manhattan (c : R) : ScalesWith (fun x y : List R => (List.zipWith (fun a b => |a - b|) x y).sum) c |c| := by
  intro as x y shift
  simp only
  induction as with
  | nil => simp
  | cons a as ih =>
    simp only [List.map_cons, List.zipWith_cons_cons, List.sum_cons, ih]
    rw [mul_add, ← abs_mul]
    congr 2
    ring

end

namespace C159
open C148

def aY : Attr := ⟨4, .float "y" 2⟩
def aY' : Attr := ⟨5, .float "y" 2⟩
/-- Rows (0, 10) with the label a and (3, 0) with the label b. -/
def opsT : List Op :=
  [.add aX, .add aY, .add aC, .addClass aC, .extend 2, .set 0 1 (packU64 3), .set 1 0 (packU64 10), .set 2 1 (packU64 1)]
/-- A row to predict at (0, 0). -/
def opsW : List Op := [.add aX', .add aY', .add aC', .addClass aC', .extend 1]
/-- The rows with the first column multiplied by 100. -/
def opsT100 : List Op :=
  [.add aX, .add aY, .add aC, .addClass aC, .extend 2, .set 0 1 (packU64 300), .set 1 0 (packU64 10), .set 2 1 (packU64 1)]
/-- The rows with both columns multiplied by 100, and moved by 7 and 1. -/
def opsTboth : List Op :=
  [.add aX, .add aY, .add aC, .addClass aC, .extend 2, .set 0 0 (packU64 7), .set 0 1 (packU64 307), .set 1 0 (packU64 1001),
    .set 1 1 (packU64 1), .set 2 1 (packU64 1)]
def opsWboth : List Op := [.add aX', .add aY', .add aC', .addClass aC', .extend 1, .set 0 0 (packU64 7), .set 1 0 (packU64 1)]
def env : KnnEnv ℚ := { env0 with orderW := [0], orderT := fun _ => [0, 1] }
def shift (a : Attr) : ℚ := if a = aX' then 7 else 1
def scale (a : Attr) : ℚ := if a = aX' then 100 else 1

/-- The tables can be used to train and to predict. -/
theorem data {t w : List Op} (h : ((run 4096 t).bind fun tr => (run 4096 w).map fun pr =>
      [checkCompatible (.dense pr.d) (.dense tr.d) == some pr.d.allAttributes, decide (pr.d.allClassAttributes = [aC']),
        decide (tr.d.allClassAttributes = [aC]), decide (aC' ∈ pr.d.allAttributes), decide (aC ∈ tr.d.allAttributes),
        decide (tr.d.maxRow = 2), decide (pr.d.maxRow = 1),
        (List.range 2).all fun r => decide (aC.getString fo0 ((Grid.dense tr.d).cell aC r) = Res.ok (["a", "b"].getD r ""))]) =
      Res.ok [true, true, true, true, true, true, true, true])
    (bt : ∀ op ∈ t, basicOp op = true) (dt : (addedAttrs t).Pairwise fun a b => a.equals b = false) (rt : totalRows t = 2)
    (bw : ∀ op ∈ w, basicOp op = true) (dw : (addedAttrs w).Pairwise fun a b => a.equals b = false) (rw' : totalRows w = 1) :
    ∃ tr pr, run 4096 t = Res.ok tr ∧ run 4096 w = Res.ok pr ∧
      KnnData fo0 (.dense tr.d) (.dense pr.d) 2 1 (fun r => ["a", "b"].getD r "") aC' ∧
      (Grid.dense pr.d).RowOrder [0] ∧ (Grid.dense tr.d).RowOrder [0, 1] := by
  obtain ⟨tr, htr, h⟩ := Res.bind_eq_ok.1 h
  obtain ⟨pr, hpr, h⟩ := Res.map_eq_ok.1 h
  simp only [List.cons.injEq, beq_iff_eq, decide_eq_true_eq, and_true] at h
  obtain ⟨h1, h2, h3, h4, h5, h6, h7, h8⟩ := h
  have Dt : DenseOK 2 tr.d := rt ▸ denseOK_run bt htr dt
  have Dp : DenseOK 1 pr.d := rw' ▸ denseOK_run bw hpr dw
  refine ⟨tr, pr, htr, hpr, knnData_dense Dt Dp h1 h2 h4 h3 h5 ?_, ?_, ?_⟩
  · intro r hr
    exact of_decide_eq_true (List.all_eq_true.1 h8 r (List.mem_range.2 hr))
  · show [0] = List.range pr.d.maxRow
    rw [h7]; rfl
  · show [0, 1] = List.range tr.d.maxRow
    rw [h6]; rfl

/-- The classes that are predicted with one neighbour. -/
def classes (t w : List Op) : Res (List String) :=
  (run 4096 t).bind fun tr => (run 4096 w).bind fun pr =>
    (knnPredictLinear env 1 (.dense tr.d) (.dense pr.d)
      (fun _ out m => vote fo0 (.dense tr.d) id m (out.map Prod.fst)) []).bind fun d => mapRes (getClass fo0 (.dense d)) [0]

/-- Numbers of two tables agree up to units. -/
theorem units {t t' : List Op} {n : Nat} {as : List Attr} {scale shift : Attr → ℚ}
    (h : ((run 4096 t).bind fun tr => (run 4096 t').map fun tr' =>
      as.all fun a => (!a.isFloat) || (List.range n).all fun r => decide ((Grid.dense tr'.d).number env.val a r =
        scale a * (Grid.dense tr.d).number env.val a r + shift a)) = Res.ok true)
    {tr tr' : St} (htr : run 4096 t = Res.ok tr) (htr' : run 4096 t' = Res.ok tr') :
    InUnits env.val (.dense tr.d) (.dense tr'.d) n as scale shift := by
  rw [htr, Res.bind_ok, htr', Res.map_ok, Res.ok.injEq] at h
  intro a ha hf r hr
  have := List.all_eq_true.1 h a ha
  rw [hf, Bool.not_true, Bool.false_or] at this
  exact of_decide_eq_true (List.all_eq_true.1 this r (List.mem_range.2 hr))

set_option synthInstance.maxSize 1024 in
set_option synthInstance.maxHeartbeats 200000 in
theorem dataOld : ∃ tr pr, run 4096 opsT = Res.ok tr ∧ run 4096 opsW = Res.ok pr ∧
    KnnData fo0 (.dense tr.d) (.dense pr.d) 2 1 (fun r => ["a", "b"].getD r "") aC' ∧
    (Grid.dense pr.d).RowOrder [0] ∧ (Grid.dense tr.d).RowOrder [0, 1] :=
  data (by decide +kernel) (by decide) (by decide) rfl (by decide) (by decide) rfl

set_option synthInstance.maxSize 1024 in
set_option synthInstance.maxHeartbeats 200000 in
theorem data100 : ∃ tr pr, run 4096 opsT100 = Res.ok tr ∧ run 4096 opsW = Res.ok pr ∧
    KnnData fo0 (.dense tr.d) (.dense pr.d) 2 1 (fun r => ["a", "b"].getD r "") aC' ∧
    (Grid.dense pr.d).RowOrder [0] ∧ (Grid.dense tr.d).RowOrder [0, 1] :=
  data (by decide +kernel) (by decide) (by decide) rfl (by decide) (by decide) rfl

set_option synthInstance.maxSize 1024 in
set_option synthInstance.maxHeartbeats 200000 in
theorem dataBoth : ∃ tr pr, run 4096 opsTboth = Res.ok tr ∧ run 4096 opsWboth = Res.ok pr ∧
    KnnData fo0 (.dense tr.d) (.dense pr.d) 2 1 (fun r => ["a", "b"].getD r "") aC' ∧
    (Grid.dense pr.d).RowOrder [0] ∧ (Grid.dense tr.d).RowOrder [0, 1] :=
  data (by decide +kernel) (by decide) (by decide) rfl (by decide) (by decide) rfl

end C159

open C148 C159 in
/-- Both columns multiplied by 100 and moved: the hypotheses hold, and b is predicted in both units. -/
theorem C159_witness : ∃ tr pr tr' pr', run 4096 C159.opsT = Res.ok tr ∧ run 4096 C159.opsW = Res.ok pr ∧
    run 4096 opsTboth = Res.ok tr' ∧ run 4096 opsWboth = Res.ok pr' ∧
    KnnData fo0 (.dense tr.d) (.dense pr.d) 2 1 (fun r => ["a", "b"].getD r "") aC' ∧
    KnnData fo0 (.dense tr'.d) (.dense pr'.d) 2 1 (fun r => ["a", "b"].getD r "") aC' ∧
    InUnits C159.env.val (.dense tr.d) (.dense tr'.d) 2 [aX', aY', aC'] (fun _ => 100) C159.shift ∧
    InUnits C159.env.val (.dense pr.d) (.dense pr'.d) 1 [aX', aY', aC'] (fun _ => 100) C159.shift ∧
    ScalesWith C159.env.dist 100 |100| ∧
    C159.classes C159.opsT C159.opsW = Res.ok ["b"] ∧ C159.classes opsTboth opsWboth = Res.ok ["b"] := by
  obtain ⟨tr, pr, htr, hpr, D, _⟩ := dataOld
  obtain ⟨tr', pr', htr', hpr', D', _⟩ := dataBoth
  exact ⟨tr, pr, tr', pr', htr, hpr, htr', hpr', D, D', units (by decide +kernel) htr htr', units (by decide +kernel) hpr hpr',
    C159_manhattan 100, by decide +kernel, by decide +kernel⟩

open C148 C159 in
/-- The first column in centimetres instead of metres, and the row at (0, 0) has another nearest neighbour. -/
theorem C159_one_column : C159.classes C159.opsT C159.opsW = Res.ok ["b"] ∧ C159.classes opsT100 C159.opsW = Res.ok ["a"] := by
  constructor <;> decide +kernel

open C148 C159 in
/-- So the units of a single column matter. -/
theorem C159_refuted : ¬ KnnUnitsDoNotMatter := by
  intro H
  obtain ⟨tr, pr, htr, hpr, D, hw, ht⟩ := dataOld
  obtain ⟨tr', pr', htr', hpr', D', _, ht'⟩ := data100
  rw [hpr] at hpr'
  cases hpr'
  obtain ⟨h1, h2⟩ := C159_one_column
  unfold C159.classes at h1 h2
  rw [htr, Res.bind_ok, hpr, Res.bind_ok] at h1
  rw [htr', Res.bind_ok, hpr, Res.bind_ok] at h2
  obtain ⟨d, e1, k1⟩ := Res.bind_eq_ok.1 h1
  obtain ⟨d', e2, k2⟩ := Res.bind_eq_ok.1 h2
  have hall : (Grid.dense pr.d).allAttributes = [aX', aY', aC'] := by
    have : (run 4096 C159.opsW).map (fun pr => pr.d.allAttributes) = Res.ok [aX', aY', aC'] := by decide +kernel
    rw [hpr, Res.map_ok, Res.ok.injEq] at this
    exact this
  have u1 : InUnits C159.env.val (.dense tr.d) (.dense tr'.d) 2 [aX', aY', aC'] C159.scale (fun _ => 0) :=
    units (by decide +kernel) htr htr'
  have u2 : InUnits C159.env.val (.dense pr.d) (.dense pr.d) 1 [aX', aY', aC'] C159.scale (fun _ => 0) :=
    units (t := C159.opsW) (t' := C159.opsW) (by decide +kernel) hpr hpr
  have := H C159.env 1 2 1 (.dense tr.d) (.dense tr'.d) (.dense pr.d) (.dense pr.d) _ aC' (fun _ => id) C159.scale (fun _ => 0) d d' 0
    (fun a => by unfold C159.scale; split <;> norm_num) D D' (hall ▸ u1) (hall ▸ u2) rfl
    ⟨List.range, fun _ => List.Perm.refl _, fun l => by rw [filterMap_range_getElem?]; rfl⟩
    (fun _ => keySort_sorts) hw hw (fun _ => ht) (fun _ => ht') (fun _ _ => List.Perm.refl _) e1 e2 (by decide)
  rw [mapRes_eq_ok] at k1 k2
  have g1 : getClass fo0 (.dense d) 0 = Res.ok "b" := by cases k1; assumption
  have g2 : getClass fo0 (.dense d') 0 = Res.ok "a" := by cases k2; assumption
  change getClass fo0 (.dense d) 0 = getClass fo0 (.dense d') 0 at this
  rw [g1, g2] at this
  exact absurd (Res.ok.inj this) (by decide)

namespace C159
open C148

/-- Rows at 9, 1, 2 and 3, moved by `m`, with the labels a, b, b and b. -/
def opsTree (m : U64) : List Op :=
  [.add aX, .add aC, .addClass aC, .extend 4, .set 0 0 (packU64 (9 + m)), .set 0 1 (packU64 (1 + m)), .set 0 2 (packU64 (2 + m)),
    .set 0 3 (packU64 (3 + m)), .set 1 1 (packU64 1), .set 1 3 (packU64 1)]
/-- A row to predict at 0, moved by `m`. -/
def opsTreeW (m : U64) : List Op := [.add aX', .add aC', .addClass aC', .extend 1, .set 0 0 (packU64 m)]
/-- A sort of row numbers by a column. -/
def sortRows (data : List (List ℚ)) (f : Nat) (l : List Nat) : List Nat :=
  l.insertionSort fun i j => coord (data.getD i []) f ≤ coord (data.getD j []) f
/-- The class that is predicted with one neighbour, found by the linear search and by the k-d tree. -/
def classesTree (t w : List Op) : Res (List String) :=
  (run 4096 t).bind fun tr => (run 4096 w).bind fun pr =>
    (knnPredictLinear { env with orderT := fun _ => [0, 1, 2, 3] } 3 (.dense tr.d) (.dense pr.d)
      (fun _ out m => vote fo0 (.dense tr.d) id m (out.map Prod.fst)) []).bind fun d =>
    (knnPredictTree env sortRows [0, 1, 2, 3] 3 (.dense tr.d) (.dense pr.d)
      (fun _ out m => vote fo0 (.dense tr.d) id m (out.map Prod.fst)) []).bind fun d' =>
        mapRes (fun d => getClass fo0 (.dense d) 0) [d, d']

end C159

open C159 in
/-- With the k-d tree, a shift of the only column by 100 changes the prediction for a row with a clear nearest neighbour: at zero the
search takes the origin for a row, see `C42`. -/
theorem C159_tree_origin : classesTree (opsTree 0) (opsTreeW 0) = Res.ok ["b", "a"] ∧
    classesTree (opsTree 100) (opsTreeW 100) = Res.ok ["b", "b"] := by
  constructor <;> decide +kernel

namespace C159
open C148

/-- The distance of the examples can be used with a k-d tree. -/
theorem env_axis : AxisBound env.dist where
  coord_le x y f hl hf := by
    have h1 : coord x f = x[f] := by unfold coord; rw [List.getElem?_eq_getElem hf]; rfl
    have h2 : coord y f = y[f]'(hl ▸ hf) := by unfold coord; rw [List.getElem?_eq_getElem (hl ▸ hf)]; rfl
    have h3 : env.dist [coord x f] [coord y f] = |x[f] - y[f]'(hl ▸ hf)| := by
      rw [h1, h2]; simp [env, env0]
    rw [h3]
    refine List.single_le_sum ?_ _ ?_
    · intro a ha
      obtain ⟨i, hi, rfl⟩ := List.getElem_of_mem ha
      rw [List.getElem_zipWith]
      exact abs_nonneg _
    · have hz : f < (List.zipWith (fun a b : ℚ => |a - b|) x y).length := by rw [List.length_zipWith]; omega
      have := List.getElem_mem hz
      rw [List.getElem_zipWith] at this
      exact this
  between a b c h := by
    simp only [env, env0, List.zipWith_cons_cons, List.zipWith_nil_right, List.sum_cons, List.sum_nil, add_zero]
    rcases h with ⟨h1, h2⟩ | ⟨h1, h2⟩
    · rw [abs_of_nonpos (by linarith), abs_of_nonpos (by linarith)]; linarith
    · rw [abs_of_nonneg (by linarith), abs_of_nonneg (by linarith)]; linarith

/-- Rows at 5 and 9 with the labels a and b, multiplied by `m`. -/
def opsFar (m : U64) : List Op :=
  [.add aX, .add aC, .addClass aC, .extend 2, .set 0 0 (packU64 (5 * m)), .set 0 1 (packU64 (9 * m)), .set 1 1 (packU64 1)]
/-- A row to predict at 8, multiplied by `m`. -/
def opsFarW (m : U64) : List Op := [.add aX', .add aC', .addClass aC', .extend 1, .set 0 0 (packU64 (8 * m))]
/-- The class that is predicted with the k-d tree and one neighbour. -/
def classesFar (t w : List Op) : Res (List String) :=
  (run 4096 t).bind fun tr => (run 4096 w).bind fun pr =>
    (knnPredictTree env sortRows [0, 1] 1 (.dense tr.d) (.dense pr.d)
      (fun _ out m => vote fo0 (.dense tr.d) id m (out.map Prod.fst)) []).bind fun d => mapRes (getClass fo0 (.dense d)) [0]

theorem sortRows_sorts (data : List (List ℚ)) : SortsBy data (sortRows data) := by
  intro f l
  have : Std.Total (fun i j : Nat => coord (data.getD i []) f ≤ coord (data.getD j []) f) :=
    ⟨fun _ _ => le_total _ _⟩
  have : IsTrans Nat (fun i j : Nat => coord (data.getD i []) f ≤ coord (data.getD j []) f) :=
    ⟨fun _ _ _ => le_trans⟩
  exact ⟨List.perm_insertionSort _ _, List.pairwise_insertionSort _ _⟩

set_option synthInstance.maxSize 1024 in
set_option synthInstance.maxHeartbeats 200000 in
theorem dataFar : ∃ tr pr, run 4096 (opsFar 1) = Res.ok tr ∧ run 4096 (opsFarW 1) = Res.ok pr ∧
    KnnData fo0 (.dense tr.d) (.dense pr.d) 2 1 (fun r => ["a", "b"].getD r "") aC' ∧
    (Grid.dense pr.d).RowOrder [0] ∧ (Grid.dense tr.d).RowOrder [0, 1] :=
  data (by decide +kernel) (by decide) (by decide) rfl (by decide) (by decide) rfl

set_option synthInstance.maxSize 1024 in
set_option synthInstance.maxHeartbeats 200000 in
theorem dataFar10 : ∃ tr pr, run 4096 (opsFar 10) = Res.ok tr ∧ run 4096 (opsFarW 10) = Res.ok pr ∧
    KnnData fo0 (.dense tr.d) (.dense pr.d) 2 1 (fun r => ["a", "b"].getD r "") aC' ∧
    (Grid.dense pr.d).RowOrder [0] ∧ (Grid.dense tr.d).RowOrder [0, 1] :=
  data (by decide +kernel) (by decide) (by decide) rfl (by decide) (by decide) rfl

end C159

open C148 C159 in
/-- The hypotheses of `C159_tree_partial` hold for two rows at 5 and 9, a row to predict at 8, and all numbers multiplied by 10; b is
predicted in both units. -/
theorem C159_tree_witness : ∃ tr pr tr' pr', run 4096 (opsFar 1) = Res.ok tr ∧ run 4096 (opsFarW 1) = Res.ok pr ∧
    run 4096 (opsFar 10) = Res.ok tr' ∧ run 4096 (opsFarW 10) = Res.ok pr' ∧
    KnnData fo0 (.dense tr.d) (.dense pr.d) 2 1 (fun r => ["a", "b"].getD r "") aC' ∧
    KnnData fo0 (.dense tr'.d) (.dense pr'.d) 2 1 (fun r => ["a", "b"].getD r "") aC' ∧
    InUnits C159.env.val (.dense tr.d) (.dense tr'.d) 2 [aX', aC'] (fun _ => 10) (fun _ => 0) ∧
    InUnits C159.env.val (.dense pr.d) (.dense pr'.d) 1 [aX', aC'] (fun _ => 10) (fun _ => 0) ∧
    ScalesWith C159.env.dist 10 |10| ∧ AxisBound C159.env.dist ∧ (∀ data, SortsBy data (sortRows data)) ∧
    pr.d.allAttributes = [aX', aC'] ∧
    (∀ fs, fs.Perm (pr.d.allAttributes.filter Attr.isFloat) → ∀ r, r < 1 →
      1 ≤ (List.range 2).countP fun q => decide (C159.env.dist ((Grid.dense pr.d).point C159.env.val fs r)
        ((Grid.dense tr.d).point C159.env.val fs q) < C159.env.dist ((Grid.dense pr.d).point C159.env.val fs r)
          (List.replicate fs.length 0))) ∧
    classesFar (opsFar 1) (opsFarW 1) = Res.ok ["b"] ∧ classesFar (opsFar 10) (opsFarW 10) = Res.ok ["b"] := by
  obtain ⟨tr, pr, htr, hpr, D, _⟩ := dataFar
  obtain ⟨tr', pr', htr', hpr', D', _⟩ := dataFar10
  have h : ((run 4096 (opsFar 1)).bind fun tr => (run 4096 (opsFarW 1)).map fun pr => [decide (pr.d.allAttributes = [aX', aC']),
      decide (1 ≤ (List.range 2).countP fun q => decide (C159.env.dist ((Grid.dense pr.d).point C159.env.val [aX'] 0)
        ((Grid.dense tr.d).point C159.env.val [aX'] q) < C159.env.dist ((Grid.dense pr.d).point C159.env.val [aX'] 0) [0]))]) =
      Res.ok [true, true] := by decide +kernel
  rw [htr, Res.bind_ok, hpr, Res.map_ok, Res.ok.injEq] at h
  simp only [List.cons.injEq, decide_eq_true_eq, and_true] at h
  refine ⟨tr, pr, tr', pr', htr, hpr, htr', hpr', D, D', units (by decide +kernel) htr htr', units (by decide +kernel) hpr hpr',
    C159_manhattan 10, env_axis, sortRows_sorts, h.1, ?_, by decide +kernel, by decide +kernel⟩
  intro fs hfs r hr
  rw [h.1] at hfs
  obtain rfl := List.perm_singleton.1 (show fs.Perm [aX'] from hfs)
  obtain rfl : r = 0 := by omega
  simpa using h.2

end Golearn
