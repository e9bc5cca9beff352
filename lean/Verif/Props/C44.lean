import Verif.Props.C42
import Verif.Props.C43
import Mathlib.Tactic.IntervalCases

/-! # C44: k nearest neighbours votes by majority -/

namespace Golearn

variable {R : Type} [Field R] [LinearOrder R]

/-- `vote` returns the label of some neighbour, and no label belongs to more neighbours, whatever the order of
iteration over the votes (ties may go either way) and whatever an earlier vote left in the map. -/
theorem C44_vote (fo : FloatOps) (train : Grid) (lab : Nat → String) (ord : List String → List String)
    (hord : ∀ l, (ord l).Perm l) (m : GoMap String Nat) (rows : List Nat) (hne : rows ≠ [])
    (h : ∀ r ∈ rows, getClass fo train r = Res.ok (lab r)) :
    ∃ m' c, vote fo train ord m rows = Res.ok (m', c) ∧ Majority (rows.map lab) c :=
  vote_spec hord m rows hne h

/-- `weightedVote` returns the label of some neighbour, and no label has a larger total weight, the weight of a
neighbour being one over its distance, infinite for distance zero. -/
theorem C44_weighted_vote [IsStrictOrderedRing R] (fo : FloatOps) (train : Grid) (lab : Nat → String) (ord : List String → List String)
    (hord : ∀ l, (ord l).Perm l) (m : GoMap String (WithTop R)) (out : List (Nat × R)) (hne : out ≠ [])
    (hd : ∀ p ∈ out, 0 ≤ p.2) (h : ∀ p ∈ out, getClass fo train p.1 = Res.ok (lab p.1)) :
    ∃ m' c, weightedVote fo train ord m out = Res.ok (m', c) ∧ Heaviest lab out c :=
  weightedVote_spec hord m out hne hd h

omit [Field R] in
theorem votes_majority [Zero R] {fo : FloatOps} {train : Grid} {nT k : Nat} {lab : Nat → String}
    (h : ∀ q, q < nT → getClass fo train q = Res.ok (lab q)) {ord : Nat → List String → List String}
    (hord : ∀ r l, (ord r l).Perm l) (hk0 : 0 < k) (r : Nat) {pts : List (List R)} (hpts : pts.length = nT)
    {dist : List R → List R → R} {x : List R} {out : List (Nat × R)} (hn : Nearest pts dist x k out)
    (m : GoMap String Nat) :
    ∃ m' c, vote fo train (ord r) m (out.map Prod.fst) = Res.ok (m', c) ∧ Majority (out.map fun p => lab p.1) c := by
  obtain ⟨m', c, f1, f2⟩ := vote_spec (fo := fo) (train := train) (lab := lab) (hord r) m (out.map Prod.fst)
    (by
      intro h
      have := hn.length
      rw [List.map_eq_nil_iff.1 h, List.length_nil] at this
      omega)
    (by
      intro v hv
      obtain ⟨p, hp, rfl⟩ := List.mem_map.1 hv
      exact h _ (hpts ▸ (hn.real p hp).1))
  rw [List.map_map] at f2
  exact ⟨m', c, f1, f2⟩

omit [Field R] in
/-- Prediction with the linear search: every row gets a label that is a majority among `k` nearest training
rows. Neighbours are determined by the numeric columns of the data to predict, in some order. -/
theorem C44_predict [Zero R] (e : KnnEnv R) (k nT nW : Nat) (train what : Grid) (lab : Nat → String) (p : Nat) (nm : String)
    (vs : List String) (D : KnnData e.fo train what nT nW lab ⟨p, .cat nm vs⟩) (hsrt : PositionSort e.srt)
    (hkeys : ∀ r, SortsKeys (e.sortKeys r)) (hoW : what.RowOrder e.orderW) (hoT : ∀ r, train.RowOrder (e.orderT r))
    (ord : Nat → List String → List String) (hord : ∀ r l, (ord r l).Perm l) (hk0 : 0 < k) (hk : k ≤ nT)
    (hb : vs.length + nW ≤ 2 ^ 64) :
    ∃ d fs, knnPredictLinear e k train what (fun r out m => vote e.fo train (ord r) m (out.map Prod.fst)) [] = Res.ok d ∧
      d.maxRow = nW ∧ fs.Perm (what.allAttributes.filter Attr.isFloat) ∧
      ∀ r, r < nW → ∃ out c,
        Nearest ((List.range nT).map (train.point e.val fs)) e.dist (what.point e.val fs r) k out ∧
        Majority (out.map fun p => lab p.1) c ∧ getClass e.fo (.dense d) r = Res.ok c := by
  obtain ⟨ct, ht, htin, hread⟩ := D.label
  exact knnPredictLinear_spec e D hsrt hkeys hoW hoT hk hb _ [] (fun out c => Majority (out.map fun p => lab p.1) c)
    (fun r x out m fs hn => votes_majority (fun q hq => getClass_ok D.trainRows ht htin hread hq) hord hk0 r (by simp) hn m)

theorem votes_heaviest [IsStrictOrderedRing R] {fo : FloatOps} {train : Grid} {nT k : Nat} {lab : Nat → String}
    (h : ∀ q, q < nT → getClass fo train q = Res.ok (lab q)) {ord : Nat → List String → List String}
    (hord : ∀ r l, (ord r l).Perm l) (hk0 : 0 < k) (r : Nat) {pts : List (List R)} (hpts : pts.length = nT)
    {dist : List R → List R → R} (hdist : ∀ x y, 0 ≤ dist x y) {x : List R} {out : List (Nat × R)}
    (hn : Nearest pts dist x k out) (m : GoMap String (WithTop R)) :
    ∃ m' c, weightedVote fo train (ord r) m out = Res.ok (m', c) ∧ Heaviest lab out c := by
  refine weightedVote_spec (hord r) m out ?_ ?_ ?_
  · intro h
    have := hn.length
    rw [h, List.length_nil] at this
    omega
  · intro p hp
    rw [(hn.real p hp).2]
    exact hdist _ _
  · intro p hp
    exact h _ (hpts ▸ (hn.real p hp).1)

/-- The same with weights, for a distance that is never negative: every row gets a label with the largest total
weight among `k` nearest training rows. -/
theorem C44_predict_weighted [IsStrictOrderedRing R] (e : KnnEnv R) (k nT nW : Nat) (train what : Grid) (lab : Nat → String) (p : Nat)
    (nm : String) (vs : List String) (D : KnnData e.fo train what nT nW lab ⟨p, .cat nm vs⟩) (hsrt : PositionSort e.srt)
    (hkeys : ∀ r, SortsKeys (e.sortKeys r)) (hoW : what.RowOrder e.orderW) (hoT : ∀ r, train.RowOrder (e.orderT r))
    (ord : Nat → List String → List String) (hord : ∀ r l, (ord r l).Perm l) (hdist : ∀ x y, 0 ≤ e.dist x y)
    (hk0 : 0 < k) (hk : k ≤ nT) (hb : vs.length + nW ≤ 2 ^ 64) :
    ∃ d fs, knnPredictLinear e k train what (fun r out m => weightedVote e.fo train (ord r) m out) [] = Res.ok d ∧
      d.maxRow = nW ∧ fs.Perm (what.allAttributes.filter Attr.isFloat) ∧
      ∀ r, r < nW → ∃ out c,
        Nearest ((List.range nT).map (train.point e.val fs)) e.dist (what.point e.val fs r) k out ∧
        Heaviest lab out c ∧ getClass e.fo (.dense d) r = Res.ok c := by
  obtain ⟨ct, ht, htin, hread⟩ := D.label
  exact knnPredictLinear_spec e D hsrt hkeys hoW hoT hk hb _ [] (fun out c => Heaviest lab out c)
    (fun r x out m fs hn => votes_heaviest (fun q hq => getClass_ok D.trainRows ht htin hread hq) hord hk0 r (by simp) hdist hn m)

omit [Field R] in
/-- Prediction with the k-d tree: the same, for a distance the search can use, when at least `k` training rows
are closer to every row to predict than the origin is. Without this the search may return rows that are not
among the nearest (C42). -/
theorem C44_predict_tree_partial [Zero R] (e : KnnEnv R) (srtKd : List (List R) → Nat → List Nat → List Nat)
    (hkd : ∀ data, SortsBy data (srtKd data)) (orderB : List Nat) (k nT nW : Nat) (train what : Grid) (lab : Nat → String)
    (p : Nat) (nm : String) (vs : List String) (D : KnnData e.fo train what nT nW lab ⟨p, .cat nm vs⟩)
    (hsrt : PositionSort e.srt) (hoW : what.RowOrder e.orderW) (hoB : train.RowOrder orderB)
    (ord : Nat → List String → List String) (hord : ∀ r l, (ord r l).Perm l) (hdist : AxisBound e.dist)
    (hk0 : 0 < k) (hk : k ≤ nT) (hfeat : ∃ a ∈ what.allAttributes, a.isFloat = true) (hb : vs.length + nW ≤ 2 ^ 64)
    (hclose : ∀ fs, fs.Perm (what.allAttributes.filter Attr.isFloat) → ∀ r, r < nW →
      k ≤ (List.range nT).countP fun q => decide (e.dist (what.point e.val fs r) (train.point e.val fs q) <
        e.dist (what.point e.val fs r) (List.replicate fs.length 0))) :
    ∃ d fs, knnPredictTree e srtKd orderB k train what (fun r out m => vote e.fo train (ord r) m (out.map Prod.fst)) [] =
        Res.ok d ∧ d.maxRow = nW ∧ fs.Perm (what.allAttributes.filter Attr.isFloat) ∧
      ∀ r, r < nW → ∃ out c,
        Nearest ((List.range nT).map (train.point e.val fs)) e.dist (what.point e.val fs r) k out ∧
        Majority (out.map fun p => lab p.1) c ∧ getClass e.fo (.dense d) r = Res.ok c := by
  obtain ⟨ct, ht, htin, hread⟩ := D.label
  have hoB' := D.trainRows.order _ hoB
  have hlB : orderB.length = nT := by rw [hoB'.length_eq, List.length_range]
  refine knnPredictTree_spec e srtKd orderB D hsrt hoW hoB (by omega) hfeat hb ?_ _ []
    (fun out c => Majority (out.map fun p => lab p.1) c)
    (fun r x out m fs hn => votes_majority (fun q hq => getClass_ok D.trainRows ht htin hread hq) hord hk0 r (by simp) hn m)
  intro fs hfs r hr root hroot
  refine C42_search_partial (orderB.map (train.point e.val fs)) fs.length _ root k e.dist (what.point e.val fs r) (hkd _) hroot
    hdist ?_ (by simp [Grid.point]) hk0 ?_
  · intro v hv
    obtain ⟨q, _, rfl⟩ := List.mem_map.1 hv
    simp [Grid.point]
  · refine Nat.le_trans (hclose fs hfs r hr) (Nat.le_of_eq ?_)
    rw [← (hoB'.countP_eq _)]
    rw [List.length_map]
    have : ((List.range orderB.length).map fun i => orderB.getD i 0) = orderB := by
      apply List.ext_getElem
      · simp
      · intro i a1 a2
        simp [a2]
    conv_lhs => rw [← this]
    rw [List.countP_map]
    apply List.countP_congr
    intro i hi
    have hi' := List.mem_range.1 hi
    simp [hi']

/-- With `k` zero no neighbour votes; the first vote returns the empty string, which is no label of the class. -/
theorem C44_no_neighbours (fo : FloatOps) (train : Grid) (ord : List String → List String) (hord : ∀ l, (ord l).Perm l) :
    vote fo train ord [] [] = Res.ok ([], "") := by
  have : ord [] = [] := (hord []).eq_nil
  simp [vote, countVotes, Res.map_ok, this, argmaxLoop]

/-- Dense training data and dense data to predict. -/
theorem knnData_dense {fo : FloatOps} {tr pr : Dense} {nT nW : Nat} (Dt : DenseOK nT tr) (Dp : DenseOK nW pr)
    (same : checkCompatible (.dense pr) (.dense tr) = some pr.allAttributes) {cls c : Attr}
    (hc : pr.allClassAttributes = [cls]) (hin : cls ∈ pr.allAttributes) (ht : tr.allClassAttributes = [c])
    (htin : c ∈ tr.allAttributes) {lab : Nat → String} (hlab : ReadsAs fo (.dense tr) c nT lab) :
    KnnData fo (.dense tr) (.dense pr) nT nW lab cls where
  trainRows := Dt.presents
  whatRows := Dp.presents
  trainTyped := Dt.typed
  whatTyped := Dp.typed
  same := same
  finds := plain_finds rfl same
  whatClass := hc
  whatClassIn := hin
  label := ⟨c, ht, htin, hlab⟩

section Examples
private def fo0 : FloatOps := ⟨fun _ _ => "", fun u v => v.toNat < u.toNat⟩
private def aX : Attr := ⟨0, .float "x" 2⟩
private def aC : Attr := ⟨1, .cat "c" ["a", "b"]⟩
private def aX' : Attr := ⟨2, .float "x" 2⟩
private def aC' : Attr := ⟨3, .cat "c" ["a", "b"]⟩
private def opsT : List Op :=
  [.add aX, .add aC, .addClass aC, .extend 3, .set 0 0 (packU64 1), .set 0 1 (packU64 12), .set 0 2 (packU64 14),
   .set 1 1 (packU64 1), .set 1 2 (packU64 1)]
private def opsW : List Op :=
  [.add aX', .add aC', .addClass aC', .extend 2, .set 0 0 (packU64 2), .set 0 1 (packU64 13)]
private def env0 : KnnEnv Rat :=
  ⟨fo0, fun _ => none, 4096, fun u => (u.toNat : Rat), fun x y => (List.zipWith (fun a b => |a - b|) x y).sum, id,
    fun _ => keySort, [0, 1], fun _ => [0, 1, 2]⟩

set_option synthInstance.maxSize 1024 in
set_option synthInstance.maxHeartbeats 200000 in
/-- The hypotheses of `C44_predict` hold for training rows at 1, 12 and 14 labelled a, b and b and rows to predict
at 2 and 13. -/
example : ∃ tr pr, run 4096 opsT = Res.ok tr ∧ run 4096 opsW = Res.ok pr ∧
    KnnData fo0 (.dense tr.d) (.dense pr.d) 3 2 (fun r => ["a", "b", "b"].getD r "") aC' ∧
    PositionSort env0.srt ∧ (∀ r, SortsKeys (env0.sortKeys r)) ∧ (Grid.dense pr.d).RowOrder env0.orderW ∧
    ∀ r, (Grid.dense tr.d).RowOrder (env0.orderT r) := by
  have h : ((run 4096 opsT).bind fun tr => (run 4096 opsW).map fun pr =>
      (checkCompatible (.dense pr.d) (.dense tr.d) == some pr.d.allAttributes, pr.d.allClassAttributes, tr.d.allClassAttributes,
        decide (aC' ∈ pr.d.allAttributes), decide (aC ∈ tr.d.allAttributes), tr.d.maxRow, pr.d.maxRow)) =
      Res.ok (true, [aC'], [aC], true, true, 3, 2) := by decide +kernel
  have hl : ((run 4096 opsT).map fun tr => (List.range 3).map fun r =>
      aC.getString fo0 ((Grid.dense tr.d).cell aC r)) = Res.ok [Res.ok "a", Res.ok "b", Res.ok "b"] := by decide +kernel
  obtain ⟨tr, htr, h⟩ := Res.bind_eq_ok.1 h
  obtain ⟨pr, hpr, h⟩ := Res.map_eq_ok.1 h
  simp only [Prod.mk.injEq, beq_iff_eq, decide_eq_true_eq] at h
  obtain ⟨h1, h2, h3, h4, h5, h6, h7⟩ := h
  have Dt : DenseOK 3 tr.d := denseOK_run (ops := opsT) (by decide) htr (by decide)
  have Dp : DenseOK 2 pr.d := denseOK_run (ops := opsW) (by decide) hpr (by decide)
  rw [htr, Res.map_ok, Res.ok.injEq] at hl
  refine ⟨tr, pr, htr, hpr, knnData_dense Dt Dp h1 h2 h4 h3 h5 ?_, ⟨List.range, fun _ => List.Perm.refl _, fun l => ?_⟩,
    fun _ => keySort_sorts, ?_, fun _ => ?_⟩
  · intro r hr
    have := congrArg (fun l => l[r]?) hl
    interval_cases r <;> simpa using this
  · rw [filterMap_range_getElem?]; rfl
  · show [0, 1] = List.range pr.d.maxRow
    rw [h7]; rfl
  · show [0, 1, 2] = List.range tr.d.maxRow
    rw [h6]; rfl

/-- With three neighbours both rows get the label b of the majority; weighted by distance, the row at 2 gets the
label a of the row at 1. -/
example : ((run 4096 opsT).bind fun tr => (run 4096 opsW).bind fun pr =>
      (knnPredictLinear env0 3 (.dense tr.d) (.dense pr.d)
        (fun _ out m => vote fo0 (.dense tr.d) id m (out.map Prod.fst)) []).bind fun d =>
        mapRes (getClass fo0 (.dense d)) [0, 1]) = Res.ok ["b", "b"] := by decide +kernel
example : ((run 4096 opsT).bind fun tr => (run 4096 opsW).bind fun pr =>
      (knnPredictLinear env0 3 (.dense tr.d) (.dense pr.d)
        (fun _ out m => weightedVote fo0 (.dense tr.d) id m out) []).bind fun d =>
        mapRes (getClass fo0 (.dense d)) [0, 1]) = Res.ok ["a", "b"] := by decide +kernel

private def treeSort (data : List (List Rat)) (f : Nat) (l : List Nat) : List Nat :=
  l.insertionSort fun i j => coord (data.getD i []) f ≤ coord (data.getD j []) f

/-- With the k-d tree, four neighbours among three rows are an error of the search, which is dropped: the
prediction succeeds and every row reads as the first label of the class, although two of three training rows, and
those nearest to the second row, are labelled b. -/
theorem C44_tree_error_dropped : ((run 4096 opsT).bind fun tr => (run 4096 opsW).bind fun pr =>
      (knnPredictTree env0 treeSort [0, 1, 2] 4 (.dense tr.d) (.dense pr.d)
        (fun _ out m => vote fo0 (.dense tr.d) id m (out.map Prod.fst)) []).bind fun d =>
        mapRes (getClass fo0 (.dense d)) [0, 1]) = Res.ok ["a", "a"] := by decide +kernel

/-- With two neighbours the tree finds the majority for the second row. -/
example : ((run 4096 opsT).bind fun tr => (run 4096 opsW).bind fun pr =>
      (knnPredictTree env0 treeSort [0, 1, 2] 2 (.dense tr.d) (.dense pr.d)
        (fun _ out m => vote fo0 (.dense tr.d) id m (out.map Prod.fst)) []).bind fun d =>
        mapRes (getClass fo0 (.dense d)) [1]) = Res.ok ["b"] := by decide +kernel
end Examples

end Golearn
