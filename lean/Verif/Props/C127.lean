import Verif.Spec.Refuse
import Verif.Props.C26
import Verif.Props.C70
import Verif.Props.C94
import Verif.Props.C121
import Verif.Model.Layered
import Verif.Model.OneVsAll
import Verif.Model.Em
import Verif.Proofs.TreeExamples
import Verif.Model.NaiveBayes
import Verif.Model.Entropy
import Verif.Model.Discretise

/-!
# C127: an estimator gives no result for settings or data that it does not support

For settings and data sets outside what an estimator is made for, training or prediction gives an error or panics. The averaged
perceptron is an exception: predicting for other attributes gives neither predictions nor an error.
-/

namespace Golearn

/-- `CheckCompatible` answers nil exactly for other attributes. -/
theorem incompatible_iff (what train : Grid) : checkCompatible what train = none ↔ ¬ SameAttributes what train := by
  constructor
  · intro h ⟨h1, h2⟩
    have := (C26_check_compatible what train what.allAttributes).2 ⟨rfl, h1, h2⟩
    rw [h] at this
    cases this
  · intro h
    cases hc : checkCompatible what train with
    | none => rfl
    | some out => exact absurd ((C26_check_compatible what train out).1 hc).2 h

/-! ## Nearest neighbours -/

section
variable {R : Type} [Field R] [LinearOrder R]

/-- A nearest neighbours classifier with an unknown distance or algorithm, or asked about other attributes than it was trained on,
reports an error. -/
theorem C127_knn (M : KnnMetrics R) (e : KnnEnv R) (c : KnnChoices R) (m : KnnModel) (what : Grid)
    (h : ¬ KnnKnown m ∨ ¬ SameAttributes what m.train) : knnPredict M e c m what = Res.err := by
  unfold knnPredict
  cases hn : M.named m.distance with
  | none => rfl
  | some dist =>
    simp only
    split
    · rfl
    · rename_i ha
      have hc : checkCompatible what m.train = none := by
        rw [incompatible_iff]
        rcases h with h | h
        · refine absurd ⟨?_, ?_⟩ h
          · by_contra hx
            push Not at hx
            simp [KnnMetrics.named, hx] at hn
          · by_contra hx
            push Not at hx
            exact ha hx
        · exact h
      rw [hc]

/-- So do the two searches on their own. -/
theorem C127_knn_search {τ : Type} (e : KnnEnv R) (srtKd : List (List R) → Nat → List Nat → List Nat) (orderB : List Nat) (k : Nat)
    (train what : Grid) (votes : Nat → List (Nat × R) → τ → Res (τ × String)) (v0 : τ) (h : ¬ SameAttributes what train) :
    knnPredictLinear e k train what votes v0 = Res.err ∧ knnPredictTree e srtKd orderB k train what votes v0 = Res.err := by
  have hc := (incompatible_iff what train).2 h
  simp only [knnPredictLinear, knnPredictTree, hc, and_self]
end

/-! ## Class attributes -/

section
variable {K : Type} [Field K] [LinearOrder K] [IsStrictOrderedRing K]

theorem percClassOk_iff (g : Grid) : percClassOk g = true ↔ g.OneClass Attr.twoSided := by
  unfold percClassOk Grid.OneClass
  constructor
  · intro h
    split at h
    · rename_i a ha
      refine ⟨a, ha, ?_⟩
      unfold Attr.twoSided
      split at h <;> simp_all
    · cases h
  · rintro ⟨a, ha, h⟩
    rw [ha]
    unfold Attr.twoSided at h
    simp only
    split <;> simp_all

omit [IsStrictOrderedRing K] in
/-- An averaged perceptron trains only on data with one class attribute that has two sides; on other data it panics. -/
theorem C127_perceptron (fo : FloatOps) (val : U64 → K) (srt : List Spec → List Spec) (order : List Nat) (p : Perceptron K) (g : Grid)
    (n : Nat) (P : g.Presents n) (h : ¬ g.OneClass Attr.twoSided) : p.fit fo val srt order g = Res.panic := by
  obtain ⟨sp, hs⟩ := P.resolve_total (attrs := g.nonClassFloats) (fun a ha => (nonClassFloats_mem ha).1)
  have hb : percClassOk g = false := by
    rw [← Bool.not_eq_true, percClassOk_iff]; exact h
  simp only [Perceptron.fit, percData, Grid.resolve, hs, Res.map_ok, Res.bind_ok, hb]
  rfl

omit [IsStrictOrderedRing K] in
/-- Asked about such data, one that was trained panics too. -/
theorem C127_perceptron_predict (fo : FloatOps) (val : U64 → K) (pg : Nat) (srt : List Spec → List Spec) (order : List Nat)
    (p : Perceptron K) (what : Grid) (n : Nat) (P : what.Presents n) (h : ¬ what.OneClass Attr.twoSided) :
    p.predict fo val pg srt order what = Res.panic := by
  obtain ⟨sp, hs⟩ := P.resolve_total (attrs := what.nonClassFloats) (fun a ha => (nonClassFloats_mem ha).1)
  have hb : percClassOk what = false := by
    rw [← Bool.not_eq_true, percClassOk_iff]; exact h
  unfold Perceptron.predict
  cases p.data with
  | none => rfl
  | some train =>
    simp only [percData, Grid.resolve, hs, Res.map_ok, Res.bind_ok, hb]
    rfl

theorem labelVec_refuses {Y : Type} [Zero Y] (conv : U64 → Y) (srt : List Spec → List Spec) (order : List Nat) (g : Grid)
    (h : ¬ g.OneClass fun a => a.isFloat = true) : labelVec conv srt order g = Res.err := by
  unfold labelVec
  split
  · rename_i c hc
    rw [if_neg (fun hf => h ⟨c, hc, hf⟩)]
  · rfl

omit [IsStrictOrderedRing K] in
/-- A CART tree, of either kind, trains only on data with one numeric class attribute; on other data it reports an error. -/
theorem C127_cart {Y : Type} [Zero Y] (e : CartEnv K Y) (val : U64 → K) (conv : U64 → Y) (srt : List Spec → List Spec)
    (hsrt : PositionSort srt) (order order' : List Nat) (g : Grid) (n : Nat) (P : g.Presents n) (T : g.typed n) (ho : g.RowOrder order)
    (h : ¬ g.OneClass fun a => a.isFloat = true) : cartFitGrid e val conv srt order order' g = Res.err := by
  obtain ⟨fs, hfs, hsp⟩ := positionSort_attrs hsrt g.nonClassFloats
  unfold cartFitGrid
  rw [problemVec_spec P T ho hfs hsp, Res.bind_ok, labelVec_refuses conv srt order' g h]
  rfl

omit [IsStrictOrderedRing K] in
/-- A CART tree that may grow refuses an unknown criterion: a classification tree with an error, a regression tree with a panic. -/
theorem C127_criterion (lg : K → K) (labels : List Int) (c : Criterion) (sortIdx : List K → List Nat) (maxDepth : Int)
    (hd : maxDepth = -1 ∨ 1 ≤ maxDepth) (x : List K) (xs : List (List K)) :
    (c ≠ .gini → c ≠ .entropy → ∀ y : List Int, cartFit ⟨classLoss lg labels c, sortIdx, maxDepth⟩ (x :: xs) y = Res.err) ∧
    (c ≠ .mae → c ≠ .mse → ∀ y : List K, cartFit ⟨regLoss c, sortIdx, maxDepth⟩ (x :: xs) y = Res.panic) := by
  have hnd : ¬ (maxDepth ≠ -1 ∧ maxDepth < 0 + 1) := by omega
  constructor
  · intro h1 h2 y
    have hl : classLoss lg labels c y = Res.err := by
      unfold classLoss
      split
      · rfl
      · cases c <;> simp_all
    unfold cartFit bestSplit
    rw [if_neg hnd]
    simp only [hl]
    rfl
  · intro h1 h2 y
    have hl : regLoss c y = Res.panic := by
      unfold regLoss
      split
      · rfl
      · cases c <;> simp_all
    unfold cartFit bestSplit
    rw [if_neg hnd]
    simp only [hl]
    rfl

omit [IsStrictOrderedRing K] in
/-- A linear support vector machine or a logistic regression trains only on data with one numeric class attribute; on other data it panics. -/
theorem C127_linear_models (solve : Solver K) (toInt : K → Int) (fo : FloatOps) (half : U64) (val : U64 → K)
    (srt : List Spec → List Spec) (hsrt : PositionSort srt) (order0 order1 order2 : List Nat) (lr : Svc K) (param : LParam K) (g : Grid)
    (n : Nat) (P : g.Presents n) (T : g.typed n) (ho : g.RowOrder order1) (h : ¬ g.OneClass fun a => a.isFloat = true) :
    svcFit solve toInt fo half val srt order0 order1 order2 lr g = Res.panic ∧
      logisticFit solve toInt val srt order1 order2 param g = Res.panic := by
  obtain ⟨fs, hfs, hsp⟩ := positionSort_attrs hsrt g.nonClassFloats
  have hl : linLabelVec val srt order2 g = Res.panic := by
    unfold linLabelVec
    rw [labelVec_refuses val srt order2 g h]
  constructor
  · unfold svcFit
    rw [problemVec_spec P T ho hfs hsp, hl]
    have hw : ∀ w, classWeights (K := K) fo half srt order0 lr.params g = w → (∃ l, w = Res.ok l) ∨ w = Res.panic := by
      intro w hw
      unfold classWeights at hw
      subst hw
      split
      · split
        · right
          unfold weightsFromDist binFloatDist
          split
          · rename_i c hc
            rw [if_neg (fun hf => h ⟨c, hc, hf⟩)]
            rfl
          · rfl
        · right
          unfold weightsFixed
          split
          · rename_i c hc
            rw [if_neg (fun hf => h ⟨c, hc, hf⟩)]
          · rfl
      · exact Or.inl ⟨_, rfl⟩
    rcases hw _ rfl with ⟨l, hl⟩ | hl
    · rw [hl]; rfl
    · rw [hl]; rfl
  · unfold logisticFit
    rw [problemVec_spec P T ho hfs hsp, hl]
    rfl

omit [IsStrictOrderedRing K] in
/-- Both predict only for data with one class attribute. -/
theorem C127_linear_models_predict (val : U64 → K) (enc : Int → U64) (srt : List Spec → List Spec) (pg : Nat) (order : List Nat)
    (m : LModel K) (g : Grid) (h : ¬ g.OneClass fun _ => True) : svcPredict val enc srt pg order m g = Res.panic := by
  unfold svcPredict
  split
  · rename_i c hc
    exact absurd ⟨c, hc, trivial⟩ h
  · rfl

/-- The weights of the classes, and the distributions of a categorical or numeric class, are given for one class attribute of that kind only. -/
theorem C127_distributions (fo : FloatOps) (half : U64) (srt : List Spec → List Spec) (order : List Nat) (g : Grid) :
    (¬ g.OneClass Attr.categorical → catDist srt g order = Res.panic) ∧
    (¬ (g.OneClass fun a => a.isFloat = true) → binFloatDist fo half srt g order = Res.panic) := by
  constructor
  · intro h
    unfold catDist
    split
    · rename_i a ha
      split
      · rename_i nm vs hb
        exact absurd ⟨a, ha, by unfold Attr.categorical; rw [hb]; trivial⟩ h
      · rfl
    · rfl
  · intro h
    unfold binFloatDist
    split
    · rename_i a ha
      rw [if_neg (fun hf => h ⟨a, ha, hf⟩)]
    · rfl

/-- A one-vs-all model trains only on data with one categorical class attribute; on other data it panics. -/
theorem C127_one_vs_all (train : String → Option Grid → Res (Grid → Res Grid)) (fresh : Attr → Nat)
    (ord : Nat → List FAttr → List FAttr) (g : Grid) (h : ¬ g.OneClass Attr.categorical) :
    OneVsAll.fit train fresh ord g = Res.panic := by
  unfold OneVsAll.fit
  split
  · rename_i a ha
    split
    · rename_i nm vs hb
      exact absurd ⟨a, ha, by unfold Attr.categorical; rw [hb]; trivial⟩ h
    · rfl
  · rfl

/-! ## Before training -/

omit [IsStrictOrderedRing K] in
/-- A network that was not trained gives no predictions. -/
theorem C127_untrained_net (val : U64 → K) (bits : K → U64) (srt : List Spec → List Spec) (pg : Nat) (run : NetRun K) (m : MLNet K)
    (hm : m.network = none) (g : Grid) (d : Dense) : m.predict val bits srt pg run g ≠ Res.ok d := by
  intro h
  unfold MLNet.predict at h
  rw [Res.bind_eq_ok] at h
  obtain ⟨ret, _, h⟩ := h
  simp only [hm] at h
  split at h
  · cases h
  · split at h
    · cases h
    · split at h <;> cases h

/-- A mixture model that was not trained reports an error. -/
theorem C127_untrained_mixture {Cov : Type} (lib : EmLib K Cov) (val : U64 → K) (srt : List Spec → List Spec) (order : List Nat)
    (comps : Nat) (g : Grid) : emPredict lib val srt order none comps g = Res.err := rfl
end

/-! ## Settings, shapes and kinds -/

/-- A linear support vector classifier can be made for three kinds of settings; every other choice is an error, also those which
the setter would change to a supported one. -/
theorem C127_svc_settings {F : Type} (loss penalty : String) (dual : Bool) (c eps : F)
    (h : ¬ ((loss = "l1" ∧ penalty = "l2" ∧ dual = true) ∨ (loss = "l2" ∧ penalty = "l2") ∨
      (loss = "l2" ∧ penalty = "l1" ∧ dual = false))) : newLinearSVC loss penalty dual c eps = Res.err := by
  unfold newLinearSVC SvcParams.setKind
  by_cases h1 : loss = "l1" <;> by_cases h2 : loss = "l2" <;> by_cases h3 : penalty = "l1" <;> by_cases h4 : penalty = "l2" <;>
    cases dual <;> simp_all [setKindEnd, solverL2L1Dual, solverL2L2Dual, solverL2L2, solverL1L2]

section
variable {K : Type} [Field K] [LinearOrder K]

theorem nbScoreLoop_empty (log : K → K) (count : Nat) (cond : List K) : ∀ (vs : List Bytes) (j : Nat) (acc : K), [] ∈ vs →
    nbScoreLoop log count cond vs j acc = Res.panic
  | v :: vs, j, acc, h => by
    cases v with
    | nil => simp [nbScoreLoop]
    | cons b t =>
      have h' : [] ∈ vs := by simpa using h
      cases hc : cond[j]? with
      | none => simp [nbScoreLoop, hc]
      | some p => simp [nbScoreLoop, hc, nbScoreLoop_empty log count cond vs (j + 1) _ h']

/-- Naive Bayes panics on a row with an empty value, if it knows any class. -/
theorem C127_naive_bayes_cell (log : K → K) (low : K) (ordC : List String → List String) (nb : NB K) (vector : List Bytes)
    (hord : ∀ l, (ordC l).Perm l) (hcls : nb.inst ≠ []) (h : [] ∈ vector) : nbPredictOne log low ordC nb vector = Res.panic := by
  unfold nbPredictOne
  split
  · rfl
  · split
    · rfl
    · cases hl : ordC (nb.inst.map Prod.fst) with
      | nil =>
        have := (hord (nb.inst.map Prod.fst)).length_eq
        rw [hl, List.length_map] at this
        exact absurd (List.length_eq_zero_iff.1 this.symm) hcls
      | cons c cs =>
        rw [nbBest, nbScore]
        simp only [nbScoreLoop_empty log _ _ vector 0 _ h]
        rfl

theorem optDistances_length (val : U64 → K) (tr pr : Dense) (row : Nat) (old : List (K × Nat)) (names : List String) :
    (optDistances val tr pr row old names).length = old.length := by
  unfold optDistances
  rw [← List.length_map (as := old) (f := fun p : K × Nat => ((0 : K), p.2))]
  generalize old.map (fun p : K × Nat => ((0 : K), p.2)) = out
  induction names generalizing out with
  | nil => rfl
  | cons n ns ih =>
    rw [List.foldl_cons, ih]
    split
    · simp [euclideanKernel]
    · rfl

/-- The fast search panics if it is asked for more neighbours than there are training rows. -/
theorem C127_fast_neighbours (fo : FloatOps) (parse : String → Option U64) (pg : Nat) (val : U64 → K)
    (srtD : List (K × Nat) → List (K × Nat)) (hsort : ∀ l, (srtD l).Perm l) (ord : Nat → List String → List String) (k : Nat)
    (tr pr : Dense) (names : Nat → List String) (ret : Dense) (hret : generatePredictionVector pg (.dense pr) = Res.ok ret)
    (hk : tr.maxRow < k) (hrow : 0 < pr.maxRow) : optimisedPredict fo parse pg val srtD ord k tr pr names = Res.panic := by
  unfold optimisedPredict
  rw [hret, Res.bind_ok]
  split
  · rfl
  · obtain ⟨n, hn⟩ : ∃ n, pr.maxRow = n + 1 := ⟨pr.maxRow - 1, by omega⟩
    rw [hn, List.range_succ_eq_map, optLoop, if_pos]
    rw [(hsort _).length_eq, optDistances_length, List.length_replicate]
    exact hk

/-- A CART tree that was not trained panics when it is asked for predictions. -/
theorem C127_untrained_cart {Y : Type} (x : List K) (test : List (List K)) :
    cartPredictAll (.nil : CNode K Y) (x :: test) = Res.panic := rfl
end

/-- Splitting at a threshold is only for number attributes, and discretising a chosen attribute that is not one panics. -/
theorem C127_numbers_only {F : Type} [Field F] [LinearOrder F] [FloorRing F] (a : Attr) (ha : a.isFloat = false) :
    (∀ (fo : FloatOps) (srt : List Spec → List Spec) (g : Grid) (val : U64) (order : List Nat),
      decomposeThreshold fo srt g a val order = Res.panic) ∧
    ∀ (val : U64 → F) (bins : Nat) (chosen : List Attr) (m : GoMap Attr (Range F)) (n : Attr) (raw : Bytes), a ∈ chosen →
      binTransform val bins chosen m a n raw = Res.panic := by
  refine ⟨fun fo srt g val order => by simp [decomposeThreshold, ha], ?_⟩
  intro val bins chosen m n raw hc
  simp [binTransform, hc, ha]

/-- Choosing a rule by information gain from no attributes panics. -/
theorem C127_no_attributes {F : Type} [Field F] [LinearOrder F] (e : RuleEnv F) (g : Grid) : infoGainFrom e [] g = Res.panic := rfl

/-- The conditions are met: settings that are refused, a row with an empty value, a table of one row searched for two neighbours, and an
attribute that is not a number. -/
example : newLinearSVC "l1" "l2" false (1 : Rat) 0 = Res.err ∧ newLinearSVC "hinge" "l2" true (1 : Rat) 0 = Res.err ∧
    (newLinearSVC "l1" "l2" true (1 : Rat) 0).isOk = true ∧
    nbPredictOne (K := Rat) id (-5) id ⟨[("a", [1 / 2, 1 / 3])], [("a", 2)], 2, 2, []⟩ [[1], []] = Res.panic ∧
    nbPredictOne (K := Rat) id (-5) id ⟨[("a", [1 / 2, 1 / 3])], [("a", 2)], 2, 2, []⟩ [[1], [0]] = Res.ok "a" ∧
    (⟨1, .cat "c" []⟩ : Attr).isFloat = false := by
  refine ⟨C127_svc_settings _ _ _ _ _ (by decide), C127_svc_settings _ _ _ _ _ (by decide), by rfl, ?_, ?_, rfl⟩ <;> decide +kernel

/-! ## The full claim -/

/-- What one would expect: predicting with attributes that were not trained on is an error. -/
def C127_full (K : Type) [Field K] [LinearOrder K] : Prop :=
  ∀ (fo : FloatOps) (val : U64 → K) (srt : List Spec → List Spec), PositionSort srt → ∀ (pg : Nat) (order : List Nat)
    (p : Perceptron K) (train what : Grid) (n : Nat) (c : Attr) (s0 s1 : String) (k : Nat → String), p.data = some train →
    TwoClasses fo what n c s0 s1 k → what.RowOrder order → ¬ SameAttributes what train →
    p.predict fo val pg srt order what = Res.err

section Examples
private def fa : Attr := ⟨10, .float "a" 2⟩
private def fb : Attr := ⟨11, .float "b" 2⟩
private def c2 : Attr := ⟨12, .cat "c" ["x", "y"]⟩
private def c3 : Attr := ⟨13, .cat "d" ["x", "y", "z"]⟩
private def opsOther : List Op := [.add fa, .add fb, .add c2, .extend 2, .set 2 1 (packU64 1), .addClass c2]
private def opsThree : List Op := [.add fa, .add c3, .extend 2, .set 1 1 (packU64 2), .addClass c3]
private def opsNumber : List Op := [.add fa, .add fb, .extend 2, .addClass fb]
private def fo0 : FloatOps := ⟨fun _ _ => "", fun _ _ => false⟩
private def v0 (u : U64) : Rat := (u.toNat : Rat)

/-- The perceptron of `perc_example` was trained on one number and a class; asked about two numbers and a class, it returns nothing
and no error. -/
theorem C127_refuted : ¬ C127_full Rat := by
  intro hall
  obtain ⟨g, _, q, T, _, _, _, _, _, hcomp, _, _, hdata, _, _⟩ := perc_example
  have hw : ∃ st, run 4096 opsOther = Res.ok st ∧ (∀ op ∈ opsOther, basicOp op = true) ∧
      (addedAttrs opsOther).Pairwise (fun a b => a.equals b = false) ∧ totalRows opsOther = 2 ∧
      st.d.allClassAttributes = [c2] ∧ c2 ∈ st.d.allAttributes ∧ st.d.allAttributes.length = 3 ∧
      (∀ r ∈ List.range 2, c2.getString fo0 ((Grid.dense st.d).cell c2 r) = Res.ok (if r = 1 then "y" else "x")) := by
    refine ⟨_, rfl, ?_, ?_, ?_, ?_, ?_, ?_, ?_⟩
    all_goals decide +kernel
  obtain ⟨st, hrun, hb, hd, h2, hcl, hcm, hlen, hl⟩ := hw
  have D := denseOK_run hb hrun hd
  rw [h2] at D
  have Tw : TwoClasses fo0 (.dense st.d) 2 c2 "x" "y" (fun r => if r = 1 then "y" else "x") :=
    ⟨D.presents, D.typed, hcl, ⟨"c", rfl⟩, hcm, fun r hr => hl r (List.mem_range.2 hr)⟩
  have hps : PositionSort fun l => l :=
    ⟨List.range, fun n => List.Perm.refl _, fun l => (filterMap_range_getElem? l).symm⟩
  have hl2 : g.allAttributes.length = 2 := by
    have := ((C26_check_compatible g g _).1 hcomp).1
    rw [← this]; rfl
  have hns : ¬ SameAttributes (.dense st.d) g := by
    rintro ⟨h, _⟩
    rw [hl2] at h
    change st.d.allAttributes.length = 2 at h
    omega
  have e1 := hall fo0 v0 (fun l => l) hps 4096 _ q g (.dense st.d) 2 c2 "x" "y" _ hdata Tw (someOrder_rowOrder _) hns
  have e2 := (C70_refuses (val := v0) hps q (.dense st.d) 4096).2 g 2 c2 "x" "y" _ hdata Tw (someOrder_rowOrder _)
    ((incompatible_iff _ _).2 hns)
  rw [e1] at e2
  cases e2

/-- A table with one number and a class of three values: it can be read, and its class is neither two-sided nor a number. A table whose
class is a number: its class is not categorical. -/
theorem C127_witness : (∃ g : Grid, g.Presents 2 ∧ g.typed 2 ∧ g.RowOrder (someOrder g) ∧ ¬ g.OneClass Attr.twoSided ∧
      ¬ (g.OneClass fun a => a.isFloat = true) ∧ g.OneClass Attr.categorical) ∧
    ∃ g : Grid, g.Presents 2 ∧ g.typed 2 ∧ ¬ g.OneClass Attr.categorical ∧ g.OneClass fun a => a.isFloat = true := by
  have hw : ∃ st, run 4096 opsThree = Res.ok st ∧ (∀ op ∈ opsThree, basicOp op = true) ∧
      (addedAttrs opsThree).Pairwise (fun a b => a.equals b = false) ∧ totalRows opsThree = 2 ∧
      st.d.allClassAttributes = [c3] := by
    refine ⟨_, rfl, ?_, ?_, ?_, ?_⟩
    all_goals decide +kernel
  obtain ⟨st, hrun, hb, hd, h2, hcl⟩ := hw
  have D := denseOK_run hb hrun hd
  rw [h2] at D
  have hw' : ∃ st, run 4096 opsNumber = Res.ok st ∧ (∀ op ∈ opsNumber, basicOp op = true) ∧
      (addedAttrs opsNumber).Pairwise (fun a b => a.equals b = false) ∧ totalRows opsNumber = 2 ∧
      st.d.allClassAttributes = [fb] := by
    refine ⟨_, rfl, ?_, ?_, ?_, ?_⟩
    all_goals decide +kernel
  obtain ⟨st', hrun', hb', hd', h2', hcl'⟩ := hw'
  have D' := denseOK_run hb' hrun' hd'
  rw [h2'] at D'
  have e : (Grid.dense st.d).allClassAttributes = [c3] := hcl
  have e' : (Grid.dense st'.d).allClassAttributes = [fb] := hcl'
  refine ⟨⟨.dense st.d, D.presents, D.typed, someOrder_rowOrder _, ?_, ?_, c3, e, trivial⟩,
    .dense st'.d, D'.presents, D'.typed, ?_, fb, e', rfl⟩
  · rintro ⟨c, hc, h⟩
    rw [e] at hc
    simp only [List.cons.injEq, and_true] at hc
    subst hc
    simp [Attr.twoSided, c3] at h
  · rintro ⟨c, hc, h⟩
    rw [e] at hc
    simp only [List.cons.injEq, and_true] at hc
    subst hc
    cases h
  · rintro ⟨c, hc, h⟩
    rw [e'] at hc
    simp only [List.cons.injEq, and_true] at hc
    subst hc
    exact h
end Examples

end Golearn
