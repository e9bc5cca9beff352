import Verif.Proofs.Pipeline
import Verif.Props.C44
import Verif.Proofs.TreeExamples

/-! # C123: what is measured when a k-nearest-neighbours classifier is evaluated -/

namespace Golearn

section
variable {R : Type} [Field R] [LinearOrder R]

/-- The conditions on the arbitrary choices of the predictions: sorting sorts, maps are iterated over in some order, and numbers
are read by `val`. -/
structure KnnChoicesOk (fo : FloatOps) (val : U64 → R) (e : Grid → Grid → KnnEnv R) (c : Grid → Grid → KnnChoices R) : Prop where
  fo : ∀ g v, (e g v).fo = fo
  val : ∀ g v, (e g v).val = val
  srt : ∀ g v, PositionSort (e g v).srt
  keys : ∀ g v r, SortsKeys ((e g v).sortKeys r)
  orderW : ∀ g v : Grid, v.RowOrder (e g v).orderW
  orderT : ∀ (g v : Grid) r, g.RowOrder ((e g v).orderT r)
  ord : ∀ g v r l, ((c g v).ord r l).Perm l

/-- The classifier was made by `NewKnnClassifier` for the linear search with `k` neighbours and the named distance. -/
def KnnSettings (M : KnnMetrics R) (dist : List R → List R → R) (k : Nat) (m : KnnModel) : Prop :=
  ((m.distance = "euclidean" ∧ dist = M.euclidean) ∨ (m.distance = "manhattan" ∧ dist = M.manhattan) ∨
    (m.distance = "cosine" ∧ dist = M.cosine)) ∧ m.algorithm = "linear" ∧ m.neighbours = k ∧ m.weighted = false

/-- The label `c` has a majority among `k` rows of `known` that are nearest to row `r` of `g`. -/
def NearestLabel (val : U64 → R) (dist : List R → List R → R) (g : Grid) (lab : Nat → String) (k : Nat) (known : List Nat)
    (r : Nat) (c : String) : Prop :=
  ∃ fs near, fs.Perm (g.allAttributes.filter Attr.isFloat) ∧ KNearest dist (g.point val fs) known r k near ∧
    Majority (near.map lab) c

theorem knn_answers {fo : FloatOps} {val : U64 → R} {e : Grid → Grid → KnnEnv R} {ch : Grid → Grid → KnnChoices R}
    (E : KnnChoicesOk fo val e ch) {M : KnnMetrics R} {dist : List R → List R → R} {k : Nat} (hk0 : 0 < k) {g : Grid} {n : Nat}
    (T : g.typed n) {p : Nat} {nm : String} {vs : List String} (hin : (⟨p, .cat nm vs⟩ : Attr) ∈ g.allAttributes)
    {lab : Nat → String} (hl : ReadsAs fo g ⟨p, .cat nm vs⟩ n lab) (hb : vs.length + n ≤ 2 ^ 64) :
    AnswersBy fo (knnOps M e ch) (KnnSettings M dist k) g n ⟨p, .cat nm vs⟩ (fun tr _ => k ≤ tr.length)
      (NearestLabel val dist g lab k) := by
  intro s train test tr te hI hT hE hn hr hk
  obtain ⟨I0, I2, I3, I4⟩ := hI
  have I1 : M.named s.distance = some dist := by
    rcases I0 with ⟨h, rfl⟩ | ⟨h, rfl⟩ | ⟨h, rfl⟩ <;> rw [h] <;> rfl
  have hfo := E.fo train test
  have hval := E.val train test
  have hte : te.length ≤ n := by
    have h2 : (List.range n).length = n := List.length_range
    have : te.length ≤ (List.range n).length := by
      refine ((List.nodup_append.1 hn).2.1.subperm ?_).length_le
      intro r h
      exact List.mem_range.2 (hr r (by simp [h]))
    omega
  have D := hT.knnData (test := test) T hin hl hE hr
  obtain ⟨d, fs, h1, h2, h3, h4⟩ := C44_predict { e train test with dist := dist } k tr.length te.length train test _ p nm vs
    (by simpa only [hfo] using D) (E.srt _ _) (E.keys _ _) (E.orderW _ _) (E.orderT _ _) (ch train test).ord (E.ord _ _) hk0 hk
    (by omega)
  refine ⟨{ s with train := train }, { s with train := train }, .dense d, rfl, ?_, ⟨I0, I2, I3, I4⟩, h2, ?_⟩
  · obtain ⟨src, sp, rs, cl, mask, rfl⟩ := hE.view
    have hlin : ¬ (s.algorithm ≠ "linear" ∧ s.algorithm ≠ "kdtree") := fun h => h.1 I2
    have hopt : knnOptimised (ch train (.view src sp rs cl mask)) { s with train := train } (.view src sp rs cl mask) = Res.ok none := by
      unfold knnOptimised
      split <;> rfl
    obtain ⟨sd, sa, sk, sw, so, st⟩ := s
    simp only at I1 I2 I3 I4
    subst I2 I3 I4
    simp only [knnOps, knnPredict, I1, if_neg hlin, D.same, hopt, Res.bind_ok, knnGeneral, if_true, Bool.false_eq_true, if_false, h1,
      Res.map_ok]
  · intro i hi
    obtain ⟨out, c, h5, h6, h7⟩ := h4 i hi
    have hfs : ∀ a ∈ fs, a ∈ g.allAttributes := fun a ha => hE.attrs.subset (List.mem_filter.1 (h3.subset ha)).1
    have hlen : ((List.range tr.length).map (train.point val fs)).length = tr.length := by simp
    have hpt : ∀ q, q < tr.length → ((List.range tr.length).map (train.point val fs)).getD q [] = g.point val fs (tr.getD q 0) := by
      intro q hq
      have : tr.getD q 0 = tr[q] := by simp [List.getD, hq]
      rw [this, ← hT.point hfs hq]
      simp [List.getD, hq]
    simp only [hval] at h5
    rw [hE.point hfs hi] at h5
    have hreal : ∀ q ∈ out, q.1 < tr.length := fun q hq => hlen ▸ (h5.real q hq).1
    have hdist : ∀ q ∈ out, q.2 = dist (g.point val fs te[i]) (g.point val fs (tr.getD q.1 0)) := by
      intro q hq
      rw [← hpt q.1 (hreal q hq)]
      exact (h5.real q hq).2
    have htr : tr.Nodup := (List.nodup_append.1 hn).1
    refine ⟨c, ⟨fs, out.map fun q => tr.getD q.1 0, h3.trans (hE.attrs.filter _), ⟨by simpa using h5.length, ?_, ?_, ?_⟩, ?_⟩, ?_⟩
    · rw [show (out.map fun q => tr.getD q.1 0) = (out.map Prod.fst).map fun q => tr.getD q 0 by simp]
      refine List.Nodup.map_on ?_ h5.distinct
      intro x hx y hy exy
      obtain ⟨x', hx', rfl⟩ := List.mem_map.1 hx
      obtain ⟨y', hy', rfl⟩ := List.mem_map.1 hy
      have a1 := hreal x' hx'
      have a2 := hreal y' hy'
      simp only [List.getD, a1, a2, List.getElem?_eq_getElem, Option.getD_some] at exy
      exact (htr.getElem_inj_iff).1 exy
    · intro q hq
      obtain ⟨x, hx, rfl⟩ := List.mem_map.1 hq
      have := hreal x hx
      simp [List.getD, this]
    · intro q hq q' hq' hnot
      obtain ⟨x, hx, rfl⟩ := List.mem_map.1 hq
      obtain ⟨y, hy, rfl⟩ := List.mem_iff_getElem.1 hq'
      have := h5.nearest y (by rw [hlen]; exact hy) ?_ x hx
      · rw [hdist x hx, hpt y hy] at this
        simpa [List.getD, hy] using this
      · intro hmem
        obtain ⟨z, hz, rfl⟩ := List.mem_map.1 hmem
        exact hnot (List.mem_map.2 ⟨z, hz, by simp [List.getD, hy]⟩)
    · rw [List.map_map]; exact h6
    · simpa only [hfo] using h7

/-- Cross validation with `folds` folds of a k-nearest-neighbours classifier, on any table with one categorical class attribute,
for every random assignment of rows to folds that leaves at least `k` rows outside each fold: it succeeds with one matrix for each
fold, which counts exactly the rows of the fold, with their own label and the label given to them; and the label given to a row has
a majority among `k` rows that are nearest to it among the rows outside its own fold. -/
theorem C123_cross_validation (fo : FloatOps) (val : U64 → R) (e : Grid → Grid → KnnEnv R) (ch : Grid → Grid → KnnChoices R)
    (E : KnnChoicesOk fo val e ch) (M : KnnMetrics R) (dist : List R → List R → R) (k : Nat) (hk0 : 0 < k) (g : Grid) (n : Nat)
    (P : g.Presents n) (hd : g.distinct) (T : g.typed n) (p : Nat) (nm : String) (vs : List String)
    (hc : g.allClassAttributes = [⟨p, .cat nm vs⟩]) (hin : (⟨p, .cat nm vs⟩ : Attr) ∈ g.allAttributes) (lab : Nat → String)
    (hl : ReadsAs fo g ⟨p, .cat nm vs⟩ n lab) (hb : vs.length + n ≤ 2 ^ 64) (m : KnnModel) (hm : KnnSettings M dist k m)
    (srt : List Spec → List Spec) (hsrt : ∀ l, (srt l).Perm l) (draw : Nat → Nat) (folds : Nat)
    (hdraw : ∀ i, i < n → draw i < folds)
    (hk : ∀ f, f < folds → k ≤ (List.range n).countP fun r => decide (draw r ≠ f)) :
    ∃ ms, ∃ c : Nat → String, crossValidate fo srt (knnOps M e ch) m g draw folds = Res.ok ms ∧ ms.length = folds ∧
      (∀ f (h : f < ms.length), Counts ms[f] (((List.range n).filter fun r => decide (draw r = f)).map fun r => (lab r, c r))) ∧
      ∀ r, r < n → NearestLabel val dist g lab k ((List.range n).filter fun q => decide (draw q ≠ draw r)) r (c r) := by
  obtain ⟨ms, c, h1, h2, h3, h4⟩ := crossValidate_answers (knn_answers E (M := M) (dist := dist) hk0 T hin hl hb) P hd hc hin hl hsrt
    hdraw (fun f hf => by
      rw [(otherRows_perm hdraw hf).length_eq, ← List.countP_eq_length_filter]
      exact hk f hf) hm
  refine ⟨ms, c, h1, h2, fun f h => foldRows_eq draw n f ▸ h3 f h, fun r hr => ?_⟩
  obtain ⟨fs, near, a1, a2, a3⟩ := h4 r hr
  have hp := otherRows_perm hdraw (hdraw r hr)
  exact ⟨fs, near, a1, ⟨a2.length, a2.distinct, fun q hq => hp.subset (a2.within q hq),
    fun q hq q' hq' => a2.closest q hq q' (hp.symm.subset hq')⟩, a3⟩

/-- The same for a split into training and test data: the matrix of the predictions counts exactly the test rows, and the label
given to a test row has a majority among `k` training rows that are nearest to it. -/
theorem C123_split (fo : FloatOps) (val : U64 → R) (e : Grid → Grid → KnnEnv R) (ch : Grid → Grid → KnnChoices R)
    (E : KnnChoicesOk fo val e ch) (M : KnnMetrics R) (dist : List R → List R → R) (k : Nat) (hk0 : 0 < k) (d : Dense) (n : Nat)
    (D : DenseOK n d) (p : Nat) (nm : String) (vs : List String) (hc : d.allClassAttributes = [⟨p, .cat nm vs⟩])
    (hin : (⟨p, .cat nm vs⟩ : Attr) ∈ d.allAttributes) (lab : Nat → String)
    (hl : ReadsAs fo (.dense d) ⟨p, .cat nm vs⟩ n lab) (hb : vs.length + n ≤ 2 ^ 64) (m : KnnModel) (hm : KnnSettings M dist k m)
    (srt : List Spec → List Spec) (hsrt : ∀ l, (srt l).Perm l) (draw coin : Nat → Nat) (hdraw : ∀ i, draw i ≤ i) (pct : Int)
    (hk : k ≤ (List.range n).countP fun i => decide ((coin i : Int) > pct)) :
    ∃ train test src tr te, trainTestSplit srt draw coin pct (.dense d) = Res.ok (train, test, src) ∧
      (tr ++ te).Perm (List.range n) ∧ tr.length = ((List.range n).countP fun i => decide ((coin i : Int) > pct)) ∧
      ∃ m1 m2 gen cm, ∃ c : Nat → String, (knnOps M e ch).fit m train = Res.ok m1 ∧
        (knnOps M e ch).predict m1 test = Res.ok (m2, gen) ∧ getConfusionMatrix fo test gen = Res.ok cm ∧
        Counts cm (te.map fun r => (lab r, c r)) ∧ ∀ r ∈ te, NearestLabel val dist (.dense d) lab k tr r (c r) := by
  obtain ⟨train, test, src, tr, te, h1, h2, h3, h4⟩ := split_answers (knn_answers E (M := M) (dist := dist) hk0 D.typed hin hl hb) D hc
    hin hl hsrt draw coin hdraw pct hm
  exact ⟨train, test, src, tr, te, h1, h2, h3, h4 (by rw [h3]; exact hk)⟩
end

section Examples
private def fo0 : FloatOps := ⟨fun _ _ => "", fun u v => v.toNat < u.toNat⟩
private def aX : Attr := ⟨0, .float "x" 2⟩
private def aC : Attr := ⟨1, .cat "c" ["a", "b"]⟩
private def ops0 : List Op :=
  [.add aX, .add aC, .addClass aC, .extend 5, .set 0 0 (packU64 1), .set 0 1 (packU64 12), .set 0 2 (packU64 14),
   .set 0 3 (packU64 3), .set 0 4 (packU64 13), .set 1 1 (packU64 1), .set 1 2 (packU64 1)]
private def env0 (g v : Grid) : KnnEnv Rat :=
  ⟨fo0, fun _ => none, 4096, fun u => (u.toNat : Rat), fun _ _ => 0, id, fun _ => keySort, someOrder v, fun _ => someOrder g⟩
private def ch0 (g _v : Grid) : KnnChoices Rat := ⟨fun _ l => l, fun _ _ l => l, someOrder g, id, [], fun _ => []⟩
private def abs0 (x y : List Rat) : Rat := (List.zipWith (fun a b => |a - b|) x y).sum
private def M0 : KnnMetrics Rat := ⟨fun _ _ => 0, abs0, fun _ _ => 0⟩
private def m0 : KnnModel := KnnModel.new "manhattan" "linear" 1 (.dense St.init.d)
private def labs : List String := ["a", "b", "b", "a", "a"]

private theorem env0_ok : KnnChoicesOk fo0 (fun u => (u.toNat : Rat)) env0 ch0 where
  fo _ _ := rfl
  val _ _ := rfl
  srt _ _ := ⟨List.range, fun _ => List.Perm.refl _, fun l => by rw [filterMap_range_getElem?]; rfl⟩
  keys _ _ _ := keySort_sorts
  orderW _ v := someOrder_rowOrder v
  orderT g _ _ := someOrder_rowOrder g
  ord _ _ _ _ := List.Perm.refl _

/-- The hypotheses hold for five rows at 1, 12, 14, 3 and 13 labelled a, b, b, a and a, one neighbour and two folds. -/
example : ∃ st, run 4096 ops0 = Res.ok st ∧ DenseOK 5 st.d ∧ st.d.allClassAttributes = [aC] ∧ aC ∈ st.d.allAttributes ∧
    ReadsAs fo0 (.dense st.d) aC 5 (fun r => labs.getD r "") ∧ KnnSettings M0 abs0 1 m0 ∧
    KnnChoicesOk fo0 (fun u => (u.toNat : Rat)) env0 ch0 ∧
    ∀ f, f < 2 → 1 ≤ (List.range 5).countP fun r => decide (r % 2 ≠ f) := by
  have h : (run 4096 ops0).map (fun st => (st.d.allClassAttributes, decide (aC ∈ st.d.allAttributes),
      (List.range 5).map fun r => aC.getString fo0 ((Grid.dense st.d).cell aC r))) =
      Res.ok ([aC], true, [Res.ok "a", Res.ok "b", Res.ok "b", Res.ok "a", Res.ok "a"]) := by decide +kernel
  obtain ⟨st, hst, h⟩ := Res.map_eq_ok.1 h
  simp only [Prod.mk.injEq, decide_eq_true_eq] at h
  refine ⟨st, hst, denseOK_run (ops := ops0) (by decide) hst (by decide), h.1, h.2.1, ?_, ⟨Or.inr (Or.inl ⟨rfl, rfl⟩), rfl, rfl, rfl⟩, env0_ok, by decide⟩
  intro r hr
  have := congrArg (fun l => l[r]?) h.2.2
  interval_cases r <;> simpa [labs] using this

set_option synthInstance.maxSize 1000 in
/-- What is computed in that case, with the rows of even number in the first fold: row 0 is nearest to row 3, rows 2 and 4 to row
1, row 1 to row 4 and row 3 to row 0. -/
example : ((run 4096 ops0).bind fun st => crossValidate fo0 id (knnOps M0 env0 ch0) m0 (.dense st.d) (fun r => r % 2) 2) =
    Res.ok [[("a", [("a", 1), ("b", 1)]), ("b", [("b", 1)])], [("b", [("a", 1)]), ("a", [("a", 1)])]] := by decide +kernel
end Examples

end Golearn
