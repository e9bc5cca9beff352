import Verif.Proofs.KnnColumns
import Verif.Props.C159

/-! # C160: the columns nearest neighbours look at -/

namespace Golearn

theorem votes_same {fo : FloatOps} {g g' : Grid} {n : Nat} (h : ∀ i, i < n → getClass fo g' i = getClass fo g i) {m : GoMap String Nat}
    {l : List Nat} (hl : ∀ i ∈ l, i < n) : countVotes fo g' m l = countVotes fo g m l := by
  induction l generalizing m with
  | nil => rfl
  | cons i l ih =>
    simp only [countVotes, h i (hl i (by simp))]
    congr 1
    funext c
    exact ih fun j hj => hl j (by simp [hj])

theorem weights_same {R : Type} [Field R] [LinearOrder R] {fo : FloatOps} {g g' : Grid} {n : Nat}
    (h : ∀ i, i < n → getClass fo g' i = getClass fo g i) {m : GoMap String (WithTop R)}
    {l : List (Nat × R)} (hl : ∀ p ∈ l, p.1 < n) : sumWeights fo g' m l = sumWeights fo g m l := by
  induction l generalizing m with
  | nil => rfl
  | cons p l ih =>
    simp only [sumWeights, h p.1 (hl p (by simp))]
    congr 1
    funext c
    exact ih fun j hj => hl j (by simp [hj])

/-- Training rows with the same labels. -/
theorem knnData_labels {fo : FloatOps} {train train' what what' : Grid} {nT nW nW' : Nat} {lab : Nat → String} {cls cls' : Attr}
    (D : KnnData fo train what nT nW lab cls) (D' : KnnData fo train' what' nT nW' lab cls') :
    ∀ i, i < nT → getClass fo train' i = getClass fo train i := by
  intro i hi
  obtain ⟨c, c1, c2, c3⟩ := D.label
  obtain ⟨c', c1', c2', c3'⟩ := D'.label
  rw [getClass_ok D.trainRows c1 c2 c3 hi, getClass_ok D'.trainRows c1' c2' c3' hi]

section
variable {R : Type} [Field R] [LinearOrder R]

/-- Two pairs of tables have the same float columns, in any order, with the same numbers, and the same labels of the training rows;
all other columns may differ. With the linear search and a distance that does not depend on the order of the columns, all runs with
the same orders of maps and of equal distances end with the same predictions, or both panic, with ties or without. The columns may be
sorted in another way. -/
theorem C160_linear (e : KnnEnv R) (srt' : List Spec → List Spec) (k nT nW : Nat) (train train' what what' : Grid)
    (lab : Nat → String) (cls : Attr) (hcat : cls.isFloat = false)
    (D : KnnData e.fo train what nT nW lab cls) (D' : KnnData e.fo train' what' nT nW lab cls)
    (hall : (what'.allAttributes.filter Attr.isFloat).Perm (what.allAttributes.filter Attr.isFloat))
    (hT : SameNumbers e.val train train' nT what.allAttributes) (hW : SameNumbers e.val what what' nW what.allAttributes)
    (hdist : ColumnOrderFree e.dist) (hsrt : PositionSort e.srt) (hsrt' : PositionSort srt')
    (hkeys : ∀ r v l, (e.sortKeys r v l).Perm l) (hoW : what.RowOrder e.orderW) (hoT : ∀ r, train.RowOrder (e.orderT r))
    (ord : Nat → List String → List String) :
    knnPredictLinear { e with srt := srt' } k train' what' (fun r out m => vote e.fo train' (ord r) m (out.map Prod.fst)) [] =
      knnPredictLinear e k train what (fun r out m => vote e.fo train (ord r) m (out.map Prod.fst)) [] ∧
    knnPredictLinear { e with srt := srt' } k train' what' (fun r out m => weightedVote e.fo train' (ord r) m out) [] =
      knnPredictLinear e k train what (fun r out m => weightedVote e.fo train (ord r) m out) [] := by
  have hl := knnData_labels D D'
  refine ⟨linear_columns e srt' hcat D D' hall hT hW hdist hsrt hsrt' hkeys hoW hoT _ _ (fun r out v ho => ?_) _,
    linear_columns e srt' hcat D D' hall hT hW hdist hsrt hsrt' hkeys hoW hoT _ _ (fun r out v ho => ?_) _⟩
  · unfold vote
    rw [votes_same hl fun i hi => by
      obtain ⟨p, hp, rfl⟩ := List.mem_map.1 hi
      exact ho p hp]
  · unfold weightedVote
    rw [weights_same hl ho]

/-- With the k-d tree, the same if the float columns are in the same order: the other columns do not matter. What is missing is
another order of the float columns, see `C160_tree_refuted`. -/
theorem C160_tree_partial (e : KnnEnv R) (srtKd : List (List R) → Nat → List Nat → List Nat)
    (hkd : ∀ data, SortsBy data (srtKd data)) (orderB : List Nat) (k nT nW : Nat) (train train' what what' : Grid)
    (lab : Nat → String) (cls : Attr) (hcat : cls.isFloat = false)
    (D : KnnData e.fo train what nT nW lab cls) (D' : KnnData e.fo train' what' nT nW lab cls)
    (hall : what'.allAttributes.filter Attr.isFloat = what.allAttributes.filter Attr.isFloat)
    (hT : SameNumbers e.val train train' nT what.allAttributes) (hW : SameNumbers e.val what what' nW what.allAttributes)
    (hsrt : PositionSort e.srt) (hoW : what.RowOrder e.orderW) (hoB : train.RowOrder orderB)
    (ord : Nat → List String → List String) :
    knnPredictTree e srtKd orderB k train' what' (fun r out m => vote e.fo train' (ord r) m (out.map Prod.fst)) [] =
      knnPredictTree e srtKd orderB k train what (fun r out m => vote e.fo train (ord r) m (out.map Prod.fst)) [] ∧
    knnPredictTree e srtKd orderB k train' what' (fun r out m => weightedVote e.fo train' (ord r) m out) [] =
      knnPredictTree e srtKd orderB k train what (fun r out m => weightedVote e.fo train (ord r) m out) [] := by
  have hl := knnData_labels D D'
  refine ⟨tree_columns e srtKd hkd orderB hcat D D' hall hT hW hsrt hoW hoB _ _ (fun r out v ho => ?_) _,
    tree_columns e srtKd hkd orderB hcat D D' hall hT hW hsrt hoW hoB _ _ (fun r out v ho => ?_) _⟩
  · unfold vote
    rw [votes_same hl fun i hi => by
      obtain ⟨p, hp, rfl⟩ := List.mem_map.1 hi
      exact ho p hp]
  · unfold weightedVote
    rw [weights_same hl ho]

end

section
variable {R : Type} [Field R] [LinearOrder R] [IsStrictOrderedRing R]

theorem sum_columns {R : Type} [AddCommMonoid R] (f : R → R → R) :
    ColumnOrderFree fun x y : List R => (List.zipWith f x y).sum := by
  intro as bs x y h
  simp only [List.zipWith_map, List.zipWith_self]
  exact (h.map _).sum_eq

/-- The Euclidean and the Manhattan distance do not depend on the order of the columns. -/
theorem C160_distances : ColumnOrderFree (sqDist (R := R)) ∧
    ColumnOrderFree fun x y : List R => (List.zipWith (fun a b => |a - b|) x y).sum :=
  ⟨sum_columns fun a b => (a - b) * (a - b), sum_columns fun a b => |a - b|⟩
end

namespace C160
open C148 C159

def aK : Attr := ⟨6, .cat "colour" ["red", "blue"]⟩
def aK' : Attr := ⟨7, .cat "colour" ["red", "blue"]⟩
/-- Rows (1, 4) with the label a and (2, 1) with the label b. -/
def opsXY : List Op :=
  [.add aX, .add aY, .add aC, .addClass aC, .extend 2, .set 0 0 (packU64 1), .set 1 0 (packU64 4), .set 0 1 (packU64 2),
    .set 1 1 (packU64 1), .set 2 1 (packU64 1)]
/-- The same with the columns in another order. -/
def opsYX : List Op :=
  [.add aY, .add aX, .add aC, .addClass aC, .extend 2, .set 1 0 (packU64 1), .set 0 0 (packU64 4), .set 1 1 (packU64 2),
    .set 0 1 (packU64 1), .set 2 1 (packU64 1)]
/-- The same with a column of colours. -/
def opsColour : List Op :=
  [.add aK, .add aX, .add aY, .add aC, .addClass aC, .extend 2, .set 1 0 (packU64 1), .set 2 0 (packU64 4), .set 1 1 (packU64 2),
    .set 2 1 (packU64 1), .set 3 1 (packU64 1), .set 0 1 (packU64 1)]
/-- A row to predict at (0, 0). -/
def opsWXY : List Op := [.add aX', .add aY', .add aC', .addClass aC', .extend 1]
def opsWYX : List Op := [.add aY', .add aX', .add aC', .addClass aC', .extend 1]
/-- It has the colour of the first row. -/
def opsWColour : List Op := [.add aK', .add aX', .add aY', .add aC', .addClass aC', .extend 1]

/-- The class that is predicted with the k-d tree and one neighbour. -/
def classTree (t w : List Op) : Res (List String) :=
  (run 4096 t).bind fun tr => (run 4096 w).bind fun pr =>
    (knnPredictTree C159.env sortRows [0, 1] 1 (.dense tr.d) (.dense pr.d)
      (fun _ out m => vote fo0 (.dense tr.d) id m (out.map Prod.fst)) []).bind fun d => mapRes (getClass fo0 (.dense d)) [0]

theorem numbers {t t' : List Op} {n : Nat} {as : List Attr}
    (h : ((run 4096 t).bind fun tr => (run 4096 t').map fun tr' =>
      as.all fun a => (!a.isFloat) || (List.range n).all fun r => decide ((Grid.dense tr'.d).number C159.env.val a r =
        (Grid.dense tr.d).number C159.env.val a r)) = Res.ok true)
    {tr tr' : St} (htr : run 4096 t = Res.ok tr) (htr' : run 4096 t' = Res.ok tr') :
    SameNumbers C159.env.val (.dense tr.d) (.dense tr'.d) n as := by
  rw [htr, Res.bind_ok, htr', Res.map_ok, Res.ok.injEq] at h
  intro a ha hf r hr
  have := List.all_eq_true.1 h a ha
  rw [hf, Bool.not_true, Bool.false_or] at this
  exact of_decide_eq_true (List.all_eq_true.1 this r (List.mem_range.2 hr))

theorem attrsOf {t : List Op} {as : List Attr} (h : ((run 4096 t).map fun tr => decide (tr.d.allAttributes = as)) = Res.ok true)
    {tr : St} (htr : run 4096 t = Res.ok tr) : tr.d.allAttributes = as := by
  rw [htr, Res.map_ok, Res.ok.injEq] at h
  exact of_decide_eq_true h

set_option synthInstance.maxSize 1024 in
set_option synthInstance.maxHeartbeats 200000 in
theorem dataXY : ∃ tr pr, run 4096 opsXY = Res.ok tr ∧ run 4096 opsWXY = Res.ok pr ∧
    KnnData fo0 (.dense tr.d) (.dense pr.d) 2 1 (fun r => ["a", "b"].getD r "") aC' ∧
    (Grid.dense pr.d).RowOrder [0] ∧ (Grid.dense tr.d).RowOrder [0, 1] :=
  C159.data (by decide +kernel) (by decide) (by decide) rfl (by decide) (by decide) rfl

set_option synthInstance.maxSize 1024 in
set_option synthInstance.maxHeartbeats 200000 in
theorem dataYX : ∃ tr pr, run 4096 opsYX = Res.ok tr ∧ run 4096 opsWYX = Res.ok pr ∧
    KnnData fo0 (.dense tr.d) (.dense pr.d) 2 1 (fun r => ["a", "b"].getD r "") aC' ∧
    (Grid.dense pr.d).RowOrder [0] ∧ (Grid.dense tr.d).RowOrder [0, 1] :=
  C159.data (by decide +kernel) (by decide) (by decide) rfl (by decide) (by decide) rfl

set_option synthInstance.maxSize 1024 in
set_option synthInstance.maxHeartbeats 200000 in
theorem dataColour : ∃ tr pr, run 4096 opsColour = Res.ok tr ∧ run 4096 opsWColour = Res.ok pr ∧
    KnnData fo0 (.dense tr.d) (.dense pr.d) 2 1 (fun r => ["a", "b"].getD r "") aC' ∧
    (Grid.dense pr.d).RowOrder [0] ∧ (Grid.dense tr.d).RowOrder [0, 1] :=
  C159.data (by decide +kernel) (by decide) (by decide) rfl (by decide) (by decide) rfl

theorem idSort : PositionSort (id : List Spec → List Spec) :=
  ⟨List.range, fun _ => List.Perm.refl _, fun l => by rw [filterMap_range_getElem?]; rfl⟩

end C160

open C148 C159 C160 in
/-- Tables with the columns in another order, and with another column, meet the hypotheses. The row at (0, 0) is given the label b of
the nearest row by the linear search; the colour it shares with the row labelled a makes no difference. -/
theorem C160_witness : ∃ tr pr tr' pr' tk pk, run 4096 opsXY = Res.ok tr ∧ run 4096 opsWXY = Res.ok pr ∧
    run 4096 opsYX = Res.ok tr' ∧ run 4096 opsWYX = Res.ok pr' ∧ run 4096 opsColour = Res.ok tk ∧ run 4096 opsWColour = Res.ok pk ∧
    KnnData fo0 (.dense tr.d) (.dense pr.d) 2 1 (fun r => ["a", "b"].getD r "") aC' ∧
    KnnData fo0 (.dense tr'.d) (.dense pr'.d) 2 1 (fun r => ["a", "b"].getD r "") aC' ∧
    KnnData fo0 (.dense tk.d) (.dense pk.d) 2 1 (fun r => ["a", "b"].getD r "") aC' ∧
    pr.d.allAttributes = [aX', aY', aC'] ∧ pr'.d.allAttributes = [aY', aX', aC'] ∧
    pk.d.allAttributes.filter Attr.isFloat = pr.d.allAttributes.filter Attr.isFloat ∧
    SameNumbers C159.env.val (.dense tr.d) (.dense tr'.d) 2 pr.d.allAttributes ∧
    SameNumbers C159.env.val (.dense tr.d) (.dense tk.d) 2 pr.d.allAttributes ∧
    SameNumbers C159.env.val (.dense pr.d) (.dense pr'.d) 1 pr.d.allAttributes ∧
    SameNumbers C159.env.val (.dense pr.d) (.dense pk.d) 1 pr.d.allAttributes ∧
    ColumnOrderFree C159.env.dist ∧ PositionSort C159.env.srt ∧
    C159.classes opsXY opsWXY = Res.ok ["b"] ∧ C159.classes opsYX opsWYX = Res.ok ["b"] ∧
    C159.classes opsColour opsWColour = Res.ok ["b"] := by
  obtain ⟨tr, pr, htr, hpr, D, _⟩ := dataXY
  obtain ⟨tr', pr', htr', hpr', D', _⟩ := dataYX
  obtain ⟨tk, pk, htk, hpk, Dk, _⟩ := dataColour
  have a1 : pr.d.allAttributes = [aX', aY', aC'] := attrsOf (by decide +kernel) hpr
  have a2 : ((run 4096 opsWColour).map fun pk => decide (pk.d.allAttributes.filter Attr.isFloat = [aX', aY'])) = Res.ok true := by
    decide +kernel
  rw [hpk, Res.map_ok, Res.ok.injEq, decide_eq_true_eq] at a2
  refine ⟨tr, pr, tr', pr', tk, pk, htr, hpr, htr', hpr', htk, hpk, D, D', Dk, a1, attrsOf (by decide +kernel) hpr', ?_, ?_, ?_, ?_, ?_,
    C160_distances.2, idSort, by decide +kernel, by decide +kernel, by decide +kernel⟩
  · rw [a2, a1]; rfl
  · rw [a1]; exact numbers (by decide +kernel) htr htr'
  · rw [a1]; exact numbers (by decide +kernel) htr htk
  · rw [a1]; exact numbers (by decide +kernel) hpr hpr'
  · rw [a1]; exact numbers (by decide +kernel) hpr hpk

open C148 C159 C160 in
/-- With the k-d tree the row at (0, 0) gets one label with the columns x, y and another one with y, x. -/
theorem C160_tree_order : classTree opsXY opsWXY = Res.ok ["a"] ∧ classTree opsYX opsWYX = Res.ok ["b"] := by
  constructor <;> decide +kernel

open C148 C159 C160 in
/-- So the order of the columns matters to the k-d tree. -/
theorem C160_tree_refuted : ¬ TreeColumnsDoNotMatter := by
  intro H
  obtain ⟨tr, pr, htr, hpr, D, hw, ht⟩ := dataXY
  obtain ⟨tr', pr', htr', hpr', D', hw', ht'⟩ := dataYX
  obtain ⟨h1, h2⟩ := C160_tree_order
  unfold classTree at h1 h2
  rw [htr, Res.bind_ok, hpr, Res.bind_ok] at h1
  rw [htr', Res.bind_ok, hpr', Res.bind_ok] at h2
  obtain ⟨d, e1, k1⟩ := Res.bind_eq_ok.1 h1
  obtain ⟨d', e2, k2⟩ := Res.bind_eq_ok.1 h2
  have a1 : pr.d.allAttributes = [aX', aY', aC'] := attrsOf (by decide +kernel) hpr
  have a2 : pr'.d.allAttributes = [aY', aX', aC'] := attrsOf (by decide +kernel) hpr'
  have hperm : ((Grid.dense pr'.d).allAttributes.filter Attr.isFloat).Perm ((Grid.dense pr.d).allAttributes.filter Attr.isFloat) := by
    show (pr'.d.allAttributes.filter Attr.isFloat).Perm (pr.d.allAttributes.filter Attr.isFloat)
    rw [a1, a2]
    exact List.Perm.swap aX' aY' []
  have n1 : SameNumbers C159.env.val (.dense tr.d) (.dense tr'.d) 2 (Grid.dense pr.d).allAttributes := by
    show SameNumbers _ _ _ _ pr.d.allAttributes
    rw [a1]; exact numbers (by decide +kernel) htr htr'
  have n2 : SameNumbers C159.env.val (.dense pr.d) (.dense pr'.d) 1 (Grid.dense pr.d).allAttributes := by
    show SameNumbers _ _ _ _ pr.d.allAttributes
    rw [a1]; exact numbers (by decide +kernel) hpr hpr'
  have := H C159.env sortRows [0, 1] 1 2 1 (.dense tr.d) (.dense tr'.d) (.dense pr.d) (.dense pr'.d) _ aC' (fun _ => id) d d' 0
    sortRows_sorts rfl D D' hperm n1 n2 C160_distances.2 idSort hw hw' ht ht' (fun _ _ => List.Perm.refl _) e1 e2 (by decide)
  rw [mapRes_eq_ok] at k1 k2
  have g1 : getClass fo0 (.dense d) 0 = Res.ok "a" := by cases k1; assumption
  have g2 : getClass fo0 (.dense d') 0 = Res.ok "b" := by cases k2; assumption
  change getClass fo0 (.dense d) 0 = getClass fo0 (.dense d') 0 at this
  rw [g1, g2] at this
  exact absurd (Res.ok.inj this) (by decide)

end Golearn
