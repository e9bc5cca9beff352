import Verif.Spec.Repeat
import Verif.Props.C44
import Verif.Props.C65
import Verif.Proofs.ForestPredict

/-! # C148: the same prediction again -/

namespace Golearn

section
variable {R : Type} [LinearOrder R]

/-- Rows that are clearly nearest are the ones that are found. -/
theorem clearlyNearest_perm {data : List (List R)} {dist : List R → List R → R} {target : List R} {k : Nat} {out : List (Nat × R)} {S : List Nat}
    (hn : Nearest data dist target k out) (hS : ClearlyNearest data dist target S) (hk : S.length = k) :
    (out.map Prod.fst).Perm S := by
  have hlen : (out.map Prod.fst).length = S.length := by rw [List.length_map, hn.length, hk]
  have hsub : ∀ i ∈ S, i ∈ out.map Prod.fst := by
    intro i hi
    by_contra hno
    have hex : ∃ p ∈ out, p.1 ∉ S := by
      by_contra hall
      push Not at hall
      have h1 : out.map Prod.fst ⊆ S.erase i := by
        intro x hx
        obtain ⟨p, hp, rfl⟩ := List.mem_map.1 hx
        refine (List.mem_erase_of_ne ?_).2 (hall p hp)
        rintro e
        exact hno (e ▸ List.mem_map_of_mem hp)
      have h2 := (List.subperm_of_subset hn.distinct h1).length_le
      rw [List.length_erase_of_mem hi, hlen] at h2
      have := List.length_pos_of_mem hi
      omega
    obtain ⟨p, hp, hpS⟩ := hex
    have h1 := hn.nearest i (hS.2.1 i hi) hno p hp
    obtain ⟨hr, hd⟩ := hn.real p hp
    have h2 := hS.2.2 i hi p.1 hr hpS
    rw [← hd] at h2
    exact absurd h1 (not_le.2 h2)
  exact ((List.subperm_of_subset hS.1 hsub).perm_of_length_le (le_of_eq hlen)).symm

theorem nearest_pairs {data : List (List R)} {dist : List R → List R → R} {target : List R} {k : Nat} {out : List (Nat × R)}
    (hn : Nearest data dist target k out) : out = (out.map Prod.fst).map fun i => (i, dist target (data.getD i [])) := by
  rw [List.map_map]
  conv_lhs => rw [← List.map_id out]
  refine List.map_congr_left fun p hp => ?_
  show p = (p.1, _)
  rw [← (hn.real p hp).2]

theorem clearWinner_unique {labels : List String} {c c' : String} (h : ClearWinner labels c) (h' : Majority labels c') : c' = c := by
  by_contra e
  exact absurd (h'.2 c) (not_le.2 (h.2 c' e))

end

section
variable {R : Type} [Field R] [LinearOrder R]

/-- A nearest neighbours prediction with the linear search. If the `k` nearest rows are clear and their labels have a clear winner, then
every run gives the row that label, whatever the orders of the rows, of the votes and of equal distances. The numeric attributes may be
taken in any order. -/
theorem C148_knn_partial (e : KnnEnv R) (k nT nW : Nat) (train what : Grid) (lab : Nat → String) (p : Nat) (nm : String)
    (vs : List String) (D : KnnData e.fo train what nT nW lab ⟨p, .cat nm vs⟩) (hsrt : PositionSort e.srt)
    (hkeys : ∀ r, SortsKeys (e.sortKeys r)) (hoW : what.RowOrder e.orderW) (hoT : ∀ r, train.RowOrder (e.orderT r))
    (ord : Nat → List String → List String) (hord : ∀ r l, (ord r l).Perm l) (hk0 : 0 < k) (hk : k ≤ nT)
    (hb : vs.length + nW ≤ 2 ^ 64) :
    ∃ d, knnPredictLinear e k train what (fun r out m => vote e.fo train (ord r) m (out.map Prod.fst)) [] = Res.ok d ∧
      ∀ r, r < nW → ∀ c, (∀ fs, fs.Perm (what.allAttributes.filter Attr.isFloat) → ∃ S, S.length = k ∧
          ClearlyNearest ((List.range nT).map (train.point e.val fs)) e.dist (what.point e.val fs r) S ∧ ClearWinner (S.map lab) c) →
        getClass e.fo (.dense d) r = Res.ok c := by
  obtain ⟨d, fs, h1, _, h3, h4⟩ := C44_predict e k nT nW train what lab p nm vs D hsrt hkeys hoW hoT ord hord hk0 hk hb
  refine ⟨d, h1, fun r hr c hc => ?_⟩
  obtain ⟨out, c', n1, n2, n3⟩ := h4 r hr
  obtain ⟨S, s1, s2, s3⟩ := hc fs h3
  have hp : (out.map fun p => lab p.1).Perm (S.map lab) := by
    have := (clearlyNearest_perm n1 s2 s1).map lab
    rwa [List.map_map] at this
  rw [n3, clearWinner_unique s3 ⟨hp.mem_iff.1 n2.1, fun x => by rw [← hp.count_eq, ← hp.count_eq]; exact n2.2 x⟩]

/-- Weighted by distance: if the `k` nearest rows are clear and one label has more weight than every other. -/
theorem C148_knn_weighted_partial [IsStrictOrderedRing R] (e : KnnEnv R) (k nT nW : Nat) (train what : Grid) (lab : Nat → String) (p : Nat)
    (nm : String) (vs : List String) (D : KnnData e.fo train what nT nW lab ⟨p, .cat nm vs⟩) (hsrt : PositionSort e.srt)
    (hkeys : ∀ r, SortsKeys (e.sortKeys r)) (hoW : what.RowOrder e.orderW) (hoT : ∀ r, train.RowOrder (e.orderT r))
    (ord : Nat → List String → List String) (hord : ∀ r l, (ord r l).Perm l) (hdist : ∀ x y, 0 ≤ e.dist x y)
    (hk0 : 0 < k) (hk : k ≤ nT) (hb : vs.length + nW ≤ 2 ^ 64) :
    ∃ d, knnPredictLinear e k train what (fun r out m => weightedVote e.fo train (ord r) m out) [] = Res.ok d ∧
      ∀ r, r < nW → ∀ c, (∀ fs, fs.Perm (what.allAttributes.filter Attr.isFloat) → ∃ S, S.length = k ∧
          ClearlyNearest ((List.range nT).map (train.point e.val fs)) e.dist (what.point e.val fs r) S ∧
          ∀ c', c' ≠ c →
            labelWeight lab (S.map fun i => (i, e.dist (what.point e.val fs r) (train.point e.val fs i))) c' <
            labelWeight lab (S.map fun i => (i, e.dist (what.point e.val fs r) (train.point e.val fs i))) c) →
        getClass e.fo (.dense d) r = Res.ok c := by
  obtain ⟨d, fs, h1, _, h3, h4⟩ :=
    C44_predict_weighted e k nT nW train what lab p nm vs D hsrt hkeys hoW hoT ord hord hdist hk0 hk hb
  refine ⟨d, h1, fun r hr c hc => ?_⟩
  obtain ⟨out, c', n1, n2, n3⟩ := h4 r hr
  obtain ⟨S, s1, s2, s3⟩ := hc fs h3
  have hp : out.Perm (S.map fun i => (i, e.dist (what.point e.val fs r) (train.point e.val fs i))) := by
    have h := (clearlyNearest_perm n1 s2 s1).map fun i => (i, e.dist (what.point e.val fs r) (((List.range nT).map (train.point e.val fs)).getD i []))
    rw [← nearest_pairs n1] at h
    refine h.trans (List.Perm.of_eq (List.map_congr_left fun i hi => ?_))
    have hi' : i < nT := by simpa using s2.2.1 i hi
    have : ((List.range nT).map (train.point e.val fs)).getD i [] = train.point e.val fs i := by
      simp [List.getD_eq_getElem?_getD, hi']
    rw [this]
  have hw : ∀ x, labelWeight lab out x = labelWeight lab (S.map fun i => (i, e.dist (what.point e.val fs r) (train.point e.val fs i))) x := by
    intro x
    exact ((hp.filter _).map _).sum_eq
  have : c' = c := by
    by_contra hne
    have := n2.2 c
    rw [hw, hw] at this
    exact absurd this (not_le.2 (s3 c' hne))
  rw [n3, this]

/-- The same with the k-d tree, where it finds the nearest rows. -/
theorem C148_knn_tree_partial (e : KnnEnv R) (srtKd : List (List R) → Nat → List Nat → List Nat)
    (hkd : ∀ data, SortsBy data (srtKd data)) (orderB : List Nat) (k nT nW : Nat) (train what : Grid) (lab : Nat → String)
    (p : Nat) (nm : String) (vs : List String) (D : KnnData e.fo train what nT nW lab ⟨p, .cat nm vs⟩)
    (hsrt : PositionSort e.srt) (hoW : what.RowOrder e.orderW) (hoB : train.RowOrder orderB)
    (ord : Nat → List String → List String) (hord : ∀ r l, (ord r l).Perm l) (hdist : AxisBound e.dist)
    (hk0 : 0 < k) (hk : k ≤ nT) (hfeat : ∃ a ∈ what.allAttributes, a.isFloat = true) (hb : vs.length + nW ≤ 2 ^ 64)
    (hclose : ∀ fs, fs.Perm (what.allAttributes.filter Attr.isFloat) → ∀ r, r < nW →
      k ≤ (List.range nT).countP fun q => decide (e.dist (what.point e.val fs r) (train.point e.val fs q) <
        e.dist (what.point e.val fs r) (List.replicate fs.length 0))) :
    ∃ d, knnPredictTree e srtKd orderB k train what (fun r out m => vote e.fo train (ord r) m (out.map Prod.fst)) [] = Res.ok d ∧
      ∀ r, r < nW → ∀ c, (∀ fs, fs.Perm (what.allAttributes.filter Attr.isFloat) → ∃ S, S.length = k ∧
          ClearlyNearest ((List.range nT).map (train.point e.val fs)) e.dist (what.point e.val fs r) S ∧ ClearWinner (S.map lab) c) →
        getClass e.fo (.dense d) r = Res.ok c := by
  obtain ⟨d, fs, h1, _, h3, h4⟩ := C44_predict_tree_partial e srtKd hkd orderB k nT nW train what lab p nm vs D hsrt hoW hoB ord hord hdist
    hk0 hk hfeat hb hclose
  refine ⟨d, h1, fun r hr c hc => ?_⟩
  obtain ⟨out, c', n1, n2, n3⟩ := h4 r hr
  obtain ⟨S, s1, s2, s3⟩ := hc fs h3
  have hp : (out.map fun p => lab p.1).Perm (S.map lab) := by
    have := (clearlyNearest_perm n1 s2 s1).map lab
    rwa [List.map_map] at this
  rw [n3, clearWinner_unique s3 ⟨hp.mem_iff.1 n2.1, fun x => by rw [← hp.count_eq, ← hp.count_eq]; exact n2.2 x⟩]

end

/-- An ensemble: whatever the schedule of the goroutines, the number of processors and the orders of maps, a row gets the class that has
more votes than every other one. -/
theorem C148_bagging_partial {fo : FloatOps} {parse : String → Option U64} {b : Bagged} {srt : List Spec → List Spec} {g : Grid}
    {n pg q : Nat} {nm : String}
    {vs : List String} {lab : Nat → Nat → String} (H : b.Predicts fo srt g n lab) (hsrt : ∀ l, (srt l).Perm l)
    (hrows : g.size.2 = n) (hcls : g.allClassAttributes = [⟨q, .cat nm vs⟩]) (hroom : vs.length + n ≤ 2 ^ 64)
    (hm : 0 < b.classifiers.length) {cpus : Nat} (hc : 0 < cpus)
    {ord : Nat → Grid → List Nat} (hord : ∀ j (v : Grid), v.RowOrder (ord j v))
    {ordRows : List Nat → List Nat} (hordRows : ∀ l, (ordRows l).Perm l)
    {ords : Nat → List String → List String} (hords : ∀ i l, (ords i l).Perm l) {sched : List Thread}
    {s : PipeState Grid (GoMap Nat (GoMap String Nat))}
    (h : (b.pipeline fo srt cpus ord g).Reaches [] sched s) (hd : s.pos = .done) :
    ∃ d, Bagged.consensus fo parse pg ordRows ords g s.tally = Res.ok d ∧
      ∀ r, r < n → ∀ c, (∀ c', c' ≠ c → votesFor b.classifiers.length lab r c' < votesFor b.classifiers.length lab r c) →
        getClass fo (.dense d) r = Res.ok c := by
  obtain ⟨d, h1, _, h3⟩ := C65_majority (parse := parse) (pg := pg) H hsrt hrows hcls hroom hm hc hord hordRows hords h hd
  refine ⟨d, h1, fun r hr c hc => ?_⟩
  obtain ⟨c', e1, _, e3⟩ := h3 r hr
  rw [e1]
  by_cases hne : c' = c
  · rw [hne]
  · exact absurd (e3 c) (not_le.2 (hc c' hne))

/-- Which leaf a row comes to does not depend on the order of the branches, if there is a branch for every value. -/
theorem leadsTo_class {fo : FloatOps} {g : Grid} {row : Nat} {t : Tree} {c : String} (h : LeadsTo fo g row t c) (ord : List String → List String) :
    treeClass fo g ord row t = Res.ok c := by
  induction h with
  | leaf => rfl
  | split dist cls r keys child s v k c h1 h2 h3 h4 _ ih =>
    rw [treeClass, h1]
    simp only [Res.orPanic, Res.bind_ok, h2, h3, if_pos h4]
    exact ih

/-- A decision tree: a row whose values all have branches gets the class of its leaf, whatever the orders of rows, attributes and
branches. -/
theorem C148_tree_partial {e : PredEnv} (E : e.Ok) {t : Tree} {what : Grid} {n : Nat} {as : List Attr}
    (W : TreeInput e.fo what n as) {k : Nat → String} (hk : ∀ r, r < n → LeadsTo e.fo what r t (k r)) :
    ∃ d, treePredict e t what = Res.ok d ∧ ∀ r, r < n → getClass e.fo (.dense d) r = Res.ok (k r) := by
  obtain ⟨d, h1, _, h3⟩ := treePredict_spec E W (Q := fun r c => c = k r) fun r hr => ⟨k r, leadsTo_class (hk r hr) _, rfl⟩
  refine ⟨d, h1, fun r hr => ?_⟩
  obtain ⟨c, rfl, h⟩ := h3 r hr
  exact h

/-! ## Ties -/

namespace C148

def fo0 : FloatOps := ⟨fun _ _ => "", fun u v => v.toNat < u.toNat⟩
def aX : Attr := ⟨0, .float "x" 2⟩
def aC : Attr := ⟨1, .cat "c" ["a", "b"]⟩
def aX' : Attr := ⟨2, .float "x" 2⟩
def aC' : Attr := ⟨3, .cat "c" ["a", "b"]⟩
/-- Rows at 1, 3 and 9 with the labels a, b and b. -/
def opsT : List Op :=
  [.add aX, .add aC, .addClass aC, .extend 3, .set 0 0 (packU64 1), .set 0 1 (packU64 3), .set 0 2 (packU64 9),
   .set 1 1 (packU64 1), .set 1 2 (packU64 1)]
/-- Rows to predict at 2 and 8. -/
def opsW : List Op :=
  [.add aX', .add aC', .addClass aC', .extend 2, .set 0 0 (packU64 2), .set 0 1 (packU64 8)]
def env0 : KnnEnv ℚ :=
  ⟨fo0, fun _ => none, 4096, fun u => (u.toNat : ℚ), fun x y => (List.zipWith (fun a b => |a - b|) x y).sum, id,
    fun _ => keySort, [0, 1], fun _ => [0, 1, 2]⟩
/-- Another sort by distance: of equal rows the later one comes first. -/
def laterFirst (v : Nat → ℚ) (l : List Nat) : List Nat := keySort v l.reverse

theorem laterFirst_sorts : SortsKeys laterFirst := fun v l => ⟨(keySort_sorts v l.reverse).1.trans (List.reverse_perm l), (keySort_sorts v l.reverse).2⟩

set_option synthInstance.maxSize 1024 in
set_option synthInstance.maxHeartbeats 200000 in
/-- The data meets the hypotheses. -/
theorem data : ∃ tr pr, run 4096 opsT = Res.ok tr ∧ run 4096 opsW = Res.ok pr ∧
    KnnData fo0 (.dense tr.d) (.dense pr.d) 3 2 (fun r => ["a", "b", "b"].getD r "") aC' ∧
    PositionSort env0.srt ∧ (∀ r, SortsKeys (env0.sortKeys r)) ∧ (Grid.dense pr.d).RowOrder env0.orderW ∧
    ∀ r, (Grid.dense tr.d).RowOrder (env0.orderT r) := by
  have h : ((run 4096 opsT).bind fun tr => (run 4096 opsW).map fun pr =>
      (checkCompatible (.dense pr.d) (.dense tr.d) == some pr.d.allAttributes, pr.d.allClassAttributes, tr.d.allClassAttributes,
        decide (aC' ∈ pr.d.allAttributes), decide (aC ∈ tr.d.allAttributes), tr.d.maxRow, pr.d.maxRow)) =
      Res.ok (true, [aC'], [aC], true, true, 3, 2) := by decide +kernel
  have hl : ((run 4096 opsT).map fun tr => (List.range 3).map fun r =>
      aC.getString fo0 ((Grid.dense tr.d).cell aC r)) = Res.ok [Res.ok "a", Res.ok "b", Res.ok "b"] := by decide +kernel
  obtain ⟨tr, htr, h⟩ := Res.bind_eq_ok.1 h
  obtain ⟨pr, hpr, h⟩ := Res.map_eq_ok.1 h
  simp only [Prod.mk.injEq, beq_iff_eq, decide_eq_true_eq] at h
  obtain ⟨h1, h2, h3, h4, h5, h6, h7⟩ := h
  have Dt : DenseOK 3 tr.d := denseOK_run (ops := opsT) (by decide) htr (by decide)
  have Dp : DenseOK 2 pr.d := denseOK_run (ops := opsW) (by decide) hpr (by decide)
  rw [htr, Res.map_ok, Res.ok.injEq] at hl
  refine ⟨tr, pr, htr, hpr, knnData_dense Dt Dp h1 h2 h4 h3 h5 ?_, ⟨List.range, fun _ => List.Perm.refl _, fun l => ?_⟩,
    fun _ => keySort_sorts, ?_, fun _ => ?_⟩
  · intro r hr
    have := congrArg (fun l => l[r]?) hl
    interval_cases r <;> simpa using this
  · rw [filterMap_range_getElem?]; rfl
  · show [0, 1] = List.range pr.d.maxRow
    rw [h7]; rfl
  · show [0, 1, 2] = List.range tr.d.maxRow
    rw [h6]; rfl

/-- The classes that are predicted with `k` neighbours, a sort by distance and an order of the votes. -/
def classes (k : Nat) (sk : (Nat → ℚ) → List Nat → List Nat) (ord : List String → List String) : Res (List String) :=
  (run 4096 opsT).bind fun tr => (run 4096 opsW).bind fun pr =>
    (knnPredictLinear { env0 with sortKeys := fun _ => sk } k (.dense tr.d) (.dense pr.d)
      (fun _ out m => vote fo0 (.dense tr.d) ord m (out.map Prod.fst)) []).bind fun d => mapRes (getClass fo0 (.dense d)) [0, 1]

end C148

open C148 in
/-- With two neighbours the row at 2 has one neighbour with each label, and the order of the votes decides. -/
theorem C148_vote_tie : classes 2 keySort id = Res.ok ["a", "b"] ∧ classes 2 keySort List.reverse = Res.ok ["b", "b"] := by
  constructor <;> decide +kernel

open C148 in
/-- With one neighbour there are two rows at the same distance, and the order among them decides. -/
theorem C148_distance_tie : classes 1 keySort id = Res.ok ["a", "b"] ∧ classes 1 laterFirst id = Res.ok ["b", "b"] := by
  constructor <;> decide +kernel

open C148 in
/-- So predicting the same data again need not give the same classes. -/
theorem C148_not_repeated : ¬ KnnRepeats := by
  intro H
  obtain ⟨tr, pr, htr, hpr, D, hs, hk, hw, ht⟩ := data
  obtain ⟨h1, h2⟩ := C148_vote_tie
  unfold classes at h1 h2
  rw [htr, Res.bind_ok, hpr, Res.bind_ok] at h1 h2
  obtain ⟨d, e1, k1⟩ := Res.bind_eq_ok.1 h1
  obtain ⟨d', e2, k2⟩ := Res.bind_eq_ok.1 h2
  have := H env0 env0.sortKeys env0.orderW env0.orderT 2 3 2 (.dense tr.d) (.dense pr.d) _ aC' (fun _ => id) (fun _ => List.reverse) d d' 0
    D hs hk hk hw hw ht ht (fun _ _ => List.Perm.refl _) (fun _ l => List.reverse_perm l) e1 e2 (by decide)
  rw [mapRes_eq_ok] at k1 k2
  have g1 : getClass fo0 (.dense d) 0 = Res.ok "a" := by cases k1; assumption
  have g2 : getClass fo0 (.dense d') 0 = Res.ok "b" := by cases k2; assumption
  change getClass fo0 (.dense d) 0 = getClass fo0 (.dense d') 0 at this
  rw [g1, g2] at this
  exact absurd (Res.ok.inj this) (by decide)

open C148 in
/-- The row at 8 with two neighbours: the rows at 3 and 9 are clearly nearest, and both have the label b. -/
example : ∃ tr pr, run 4096 opsT = Res.ok tr ∧ run 4096 opsW = Res.ok pr ∧
    ∀ fs, fs.Perm ((Grid.dense pr.d).allAttributes.filter Attr.isFloat) → ∃ S : List Nat, S.length = 2 ∧
      ClearlyNearest ((List.range 3).map ((Grid.dense tr.d).point env0.val fs)) env0.dist ((Grid.dense pr.d).point env0.val fs 1) S ∧
      ClearWinner (S.map fun r => ["a", "b", "b"].getD r "") "b" := by
  have h : ((run 4096 opsT).bind fun tr => (run 4096 opsW).map fun pr =>
      ((Grid.dense pr.d).allAttributes.filter Attr.isFloat, (List.range 3).map ((Grid.dense tr.d).point env0.val [aX']),
        (Grid.dense pr.d).point env0.val [aX'] 1)) = Res.ok ([aX'], [[1], [3], [9]], [8]) := by decide +kernel
  obtain ⟨tr, htr, h⟩ := Res.bind_eq_ok.1 h
  obtain ⟨pr, hpr, h⟩ := Res.map_eq_ok.1 h
  simp only [Prod.mk.injEq] at h
  obtain ⟨h1, h2, h3⟩ := h
  refine ⟨tr, pr, htr, hpr, fun fs hfs => ⟨[1, 2], rfl, ?_, by decide, ?_⟩⟩
  · rw [h1, List.perm_singleton] at hfs
    rw [hfs, h2, h3]
    refine ⟨by decide, by decide, fun i hi j hj hn => ?_⟩
    have : j = 0 := by
      simp only [List.length_cons, List.length_nil] at hj
      simp at hn
      omega
    subst this
    fin_cases hi <;> norm_num [env0]
  · intro c' hc'
    have : ("b" == c') = false := by simpa using fun e => hc' e.symm
    simp [List.count, List.countP, List.countP.go, this]

namespace C148

/-- A tree with branches for green and red. -/
def tree : Tree := .split [("a", 1), ("b", 1)] "a" ⟨⟨0, .cat "y" ["blue", "green", "red"]⟩, 0⟩ ["green", "red"]
  fun k => if k = "green" then .leaf [("a", 1)] "a" else .leaf [("b", 1)] "b"

/-- A blue and a red row. -/
def rows : Grid :=
  match run 4096 [.add ⟨0, .cat "y" ["blue", "green", "red"]⟩, .add aC, .addClass aC, .extend 2, .set 0 1 (packU64 2)] with
  | .ok st => .dense st.d
  | _ => .dense Dense.new

end C148

open C148 in
/-- A value without a branch: the order of the branches decides. -/
theorem C148_tree_order : treeClass fo0 rows id 0 tree = Res.ok "a" ∧ treeClass fo0 rows List.reverse 0 tree = Res.ok "b" := by
  decide +kernel

open C148 in
/-- A value with a branch. -/
example : LeadsTo fo0 rows 1 tree "b" := by
  refine .split _ _ _ _ _ ⟨some 0, 0, ⟨0, .cat "y" ["blue", "green", "red"]⟩⟩ (packU64 2) "red" _ ?_ ?_ ?_ ?_ ?_
  · decide +kernel
  · decide +kernel
  · decide +kernel
  · decide
  · exact .leaf _ _

open C148 in
/-- Two models with a vote each: the order of the votes decides. -/
theorem C148_bagging_tie :
    ((Bagged.consensus fo0 (fun _ => none) 4096 id (fun _ => id) rows [(0, [("a", 1), ("b", 1)])]).bind fun d => getClass fo0 (.dense d) 0) =
      Res.ok "a" ∧
    ((Bagged.consensus fo0 (fun _ => none) 4096 id (fun _ => List.reverse) rows [(0, [("a", 1), ("b", 1)])]).bind fun d =>
      getClass fo0 (.dense d) 0) = Res.ok "b" := by
  decide +kernel

/-- Three models, of which two agree. -/
example : ∀ c', c' ≠ "x" → votesFor 3 (fun i _ => if i = 1 then "y" else "x") 0 c' < votesFor 3 (fun i _ => if i = 1 then "y" else "x") 0 "x" := by
  intro c' h
  have hx : votesFor 3 (fun i _ => if i = 1 then "y" else "x") 0 "x" = 2 := by decide +kernel
  rw [hx]
  have : ("x" == c') = false := by simpa using fun e => h e.symm
  simp only [votesFor, List.range, List.range.loop, List.filter]
  by_cases hy : ("y" == c') = true <;> simp [hy, this]

end Golearn
