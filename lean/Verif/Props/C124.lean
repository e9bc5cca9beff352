import Verif.Proofs.Pipeline
import Verif.Props.C69
import Verif.Proofs.TreeExamples
import Mathlib.Tactic.IntervalCases

/-! # C124: what is measured when a naive Bayes classifier is evaluated -/

namespace Golearn

theorem Part.nonClass {g : Grid} {cls : Attr} {v : Grid} {rows : List Nat} (V : Part g cls v rows) (hc : g.allClassAttributes = [cls]) :
    v.nonClass.Perm g.nonClass := by
  unfold Grid.nonClass
  rw [V.classAttr, hc]
  exact V.attrs.filter _

theorem nonClass_sub {g : Grid} {a : Attr} (h : a ∈ g.nonClass) : a ∈ g.allAttributes := (List.mem_filter.1 h).1

theorem Part.hasFeature {g : Grid} {cls : Attr} {v : Grid} {rows : List Nat} (V : Part g cls v rows) {a : Attr}
    (ha : a ∈ g.allAttributes) {i : Nat} (hi : i < rows.length) : v.hasFeature a i = g.hasFeature a rows[i] := by
  unfold Grid.hasFeature
  rw [V.cells a ha i hi]

/-- Counting rows of a list by number. -/
theorem countRows_list {rows : List Nat} {p q : Nat → Bool} (h : ∀ i (hi : i < rows.length), p i = q rows[i]) :
    countRows rows.length p = rows.countP q := by
  unfold countRows
  have : rows = (List.range rows.length).map fun i => rows.getD i 0 := by
    apply List.ext_getElem
    · simp
    · intro i h1 h2
      simp [List.getD, h1]
  conv_rhs => rw [this]
  rw [List.countP_map, List.countP_eq_length_filter]
  congr 1
  apply List.filter_congr
  intro i hi
  have hi' := List.mem_range.1 hi
  simp [h i hi', List.getD, hi']

section
variable {K : Type} [Field K] [LinearOrder K]

theorem Part.docsIn {lab : Nat → String} {rows : List Nat} (c : String) :
    docsIn rows.length (fun i => lab (rows.getD i 0)) c = labelled lab rows c := by
  refine countRows_list fun i hi => ?_
  simp [List.getD, hi, Bool.beq_eq_decide_eq]

theorem Part.docsWith {g : Grid} {cls : Attr} {v : Grid} {rows : List Nat} (V : Part g cls v rows) {lab : Nat → String} (c : String)
    {a : Attr} (ha : a ∈ g.allAttributes) :
    docsWith v rows.length (fun i => lab (rows.getD i 0)) c a = labelledWith g lab rows c a := by
  refine countRows_list fun i hi => ?_
  rw [V.hasFeature ha hi]
  simp [List.getD, hi, Bool.beq_eq_decide_eq]

theorem Part.likelihood {g : Grid} {cls : Attr} {v : Grid} {rows : List Nat} (V : Part g cls v rows) {lab : Nat → String} (c : String)
    {a : Attr} (ha : a ∈ g.allAttributes) (has : Bool) :
    (likelihood v rows.length (fun i => lab (rows.getD i 0)) c a has : K) = featureProb g lab rows c a has := by
  unfold Golearn.likelihood smoothed featureProb
  rw [V.docsWith c ha, Part.docsIn]

theorem Part.posterior {g : Grid} {cls : Attr} {train test : Grid} {tr te : List Nat} (hT : Part g cls train tr) (hE : Part g cls test te)
    (hc : g.allClassAttributes = [cls]) {lab : Nat → String} (c : String) {i : Nat} (hi : i < te.length) :
    (posterior train tr.length (fun i => lab (tr.getD i 0)) test i c : K) = bayesScore g lab tr te[i] c := by
  unfold Golearn.posterior bayesScore
  rw [Part.docsIn]
  congr 1
  rw [((hT.nonClass hc).map _).prod_eq]
  congr 1
  apply List.map_congr_left
  intro a ha
  rw [hE.hasFeature (nonClass_sub ha) hi, hT.likelihood c (nonClass_sub ha)]

omit [LinearOrder K] [Field K] in
theorem Part.binaryData {fo : FloatOps} {g : Grid} {n : Nat} {cls : Attr} {train : Grid} {tr : List Nat} (hT : Part g cls train tr)
    {lab : Nat → String} (hc : g.allClassAttributes = [cls]) (hin : cls ∈ g.allAttributes) (hl : ReadsAs fo g cls n lab)
    (hbin : ∀ a ∈ g.nonClass, a.isBin = true) (hbytes : ∀ a ∈ g.nonClass, ∀ r, r < n → ∃ b, g.cell a r = [b])
    (hr : ∀ r ∈ tr, r < n) : BinaryData fo train tr.length (fun i => lab (tr.getD i 0)) := by
  have hT' := hT.nonClass hc
  refine ⟨hT.presents, fun a ha => hbin a (hT'.subset ha), ?_, _, hT.classAttr, hT.classIn hin, hT.reads hin hl hr⟩
  intro a ha i hi
  have ha' := hT'.subset ha
  rw [hT.cells a (nonClass_sub ha') i hi]
  exact hbytes a ha' _ (hr _ (List.getElem_mem hi))

variable [IsStrictOrderedRing K]

/-- The conditions on the choices and library functions. -/
structure NbEnv.Ok (e : NbEnv K) : Prop where
  log : Logarithm e.log
  srt : PositionSort e.srt
  order : ∀ g : Grid, g.RowOrder (e.order g)
  ordC : ∀ g l, (e.ordC g l).Perm l
  ordP : ∀ g r l, (e.ordP g r l).Perm l

/-- Every label of the rows `known` has a row among them with some feature. -/
def LabelsHaveFeatures (g : Grid) (lab : Nat → String) (known : List Nat) : Prop :=
  ∀ r ∈ known, ∃ q ∈ known, lab q = lab r ∧ ∃ a ∈ g.nonClass, g.hasFeature a q = true

theorem nb_answers {e : NbEnv K} (E : e.Ok) {g : Grid} {n : Nat} {p : Nat} {nm : String} {vs : List String} {lab : Nat → String}
    (hc : g.allClassAttributes = [⟨p, .cat nm vs⟩]) (hin : (⟨p, .cat nm vs⟩ : Attr) ∈ g.allAttributes)
    (hl : ReadsAs e.fo g ⟨p, .cat nm vs⟩ n lab) (hbin : ∀ a ∈ g.nonClass, a.isBin = true)
    (hbytes : ∀ a ∈ g.nonClass, ∀ r, r < n → ∃ b, g.cell a r = [b]) (hne : g.nonClass ≠ [])
    (hlow : e.low < ((g.nonClass.length + 1 : Nat) : K) * e.log (1 / ((n + 1 : Nat) : K))) (hb : vs.length + n ≤ 2 ^ 64) :
    AnswersBy e.fo (nbOps e) (fun _ => True) g n ⟨p, .cat nm vs⟩ (fun tr _ => tr ≠ [] ∧ LabelsHaveFeatures g lab tr)
      (BestScore K g lab) := by
  rintro s train test tr te - hT hE hn hr ⟨htr, hfeat⟩
  have hlen : ∀ l : List Nat, l.Nodup → (∀ r ∈ l, r < n) → l.length ≤ n := by
    intro l h1 h2
    have h3 : (List.range n).length = n := List.length_range
    have := (h1.subperm fun r h => List.mem_range.2 (h2 r h)).length_le
    omega
  have hteL := hlen te (List.nodup_append.1 hn).2.1 fun r h => hr r (by simp [h])
  have htrL := hlen tr (List.nodup_append.1 hn).1 fun r h => hr r (by simp [h])
  have hpos : 0 < tr.length := List.length_pos_of_ne_nil htr
  have hT' := hT.nonClass hc
  have D := hT.binaryData hc hin hl hbin hbytes fun r h => hr r (by simp [h])
  have hall : ∀ i, i < tr.length → ClassHasFeature train tr.length (fun i => lab (tr.getD i 0)) (lab (tr.getD i 0)) := by
    intro i hi
    have e1 : tr.getD i 0 = tr[i] := by simp [List.getD, hi]
    obtain ⟨q, hq, h1, a, ha, h2⟩ := hfeat (tr[i]) (List.getElem_mem hi)
    obtain ⟨j, hj, rfl⟩ := List.mem_iff_getElem.1 hq
    refine ⟨j, hj, ?_, a, hT'.symm.subset ha, ?_⟩
    · have e2 : tr.getD j 0 = tr[j] := by simp [List.getD, hj]
      simp only [e1, e2]
      exact h1
    · rw [hT.hasFeature (nonClass_sub ha) hj]
      exact h2
  have hlow' : e.low < ((train.nonClass.length + 1 : Nat) : K) * e.log (1 / ((tr.length + 1 : Nat) : K)) := by
    refine hlow.trans_le ?_
    rw [hT'.length_eq]
    have h1 : (0 : K) < ((n + 1 : Nat) : K) := by exact_mod_cast Nat.succ_pos _
    have h2 : (0 : K) < ((tr.length + 1 : Nat) : K) := by exact_mod_cast Nat.succ_pos _
    refine mul_le_mul_of_nonneg_left (E.log.le (one_div_pos.2 h1) (one_div_le_one_div_of_le h2 ?_)) ?_
    · exact_mod_cast Nat.succ_le_succ htrL
    · exact_mod_cast Nat.zero_le _
  obtain ⟨nb, d, h1, h2, h3, h4⟩ := C69_predict E.log D hpos (fun h => hne (by simpa [h] using hT'.symm)) hall E.srt (E.order train)
    (E.ordC train) s.condProb hlow' hE.presents (what := test)
    (fun a ha => ⟨a, hE.attrs.symm.subset (nonClass_sub (hT'.subset ha)), C28_equals_refl a, rfl⟩)
    (fun a ha i hi => by
      have ha' := hT'.subset ha
      rw [hE.cells a (nonClass_sub ha') i hi]
      exact hbytes a ha' _ (hr _ (by simp [List.getElem_mem hi])))
    hE.classAttr (by omega) (E.order test) (E.ordP test) e.parse e.pg
  refine ⟨nb, nb, .dense d, h1, ?_, trivial, h3, ?_⟩
  · simp only [nbOps, h2, Res.map_ok]
  · intro i hi
    obtain ⟨j, hj, h5, h6⟩ := h4 i hi
    have e1 : tr.getD j 0 = tr[j] := by simp [List.getD, hj]
    refine ⟨lab (tr[j]), ⟨⟨tr[j], List.getElem_mem hj, rfl⟩, ?_⟩, by simpa only [e1] using h5⟩
    intro q hq
    obtain ⟨s', hs', rfl⟩ := List.mem_iff_getElem.1 hq
    have := h6 s' hs'
    have e2 : tr.getD s' 0 = tr[s'] := by simp [List.getD, hs']
    simp only [hT.posterior hE hc _ hi, e1, e2] at this
    exact this

theorem bayesScore_perm {g : Grid} {lab : Nat → String} {l l' : List Nat} (h : l.Perm l') (r : Nat) (c : String) :
    (bayesScore g lab l r c : K) = bayesScore g lab l' r c := by
  unfold bayesScore featureProb labelledWith labelled
  simp only [h.countP_eq, h.length_eq]

theorem bestScore_perm {g : Grid} {lab : Nat → String} {l l' : List Nat} (h : l.Perm l') {r : Nat} {c : String}
    (H : BestScore K g lab l r c) : BestScore K g lab l' r c := by
  refine ⟨H.1.imp fun q hq => ⟨h.subset hq.1, hq.2⟩, fun q hq => ?_⟩
  rw [← bayesScore_perm h, ← bayesScore_perm h]
  exact H.2 q (h.symm.subset hq)

/-- Cross validation with `folds` folds of a Bernoulli naive Bayes classifier, whatever it was trained on before, on any table of
binary features with one categorical class attribute, for every random assignment of rows to folds that leaves outside each fold at
least one row and, for every label that occurs there, a row with that label and some feature: it succeeds with one matrix for each
fold, which counts exactly the rows of the fold, with their own label and the label given to them; and the label given to a row has
the best score, computed from the rows outside its own fold only. -/
theorem C124_cross_validation (e : NbEnv K) (E : e.Ok) (g : Grid) (n : Nat) (P : g.Presents n) (hd : g.distinct) (p : Nat)
    (nm : String) (vs : List String) (lab : Nat → String) (hc : g.allClassAttributes = [⟨p, .cat nm vs⟩])
    (hin : (⟨p, .cat nm vs⟩ : Attr) ∈ g.allAttributes) (hl : ReadsAs e.fo g ⟨p, .cat nm vs⟩ n lab)
    (hbin : ∀ a ∈ g.nonClass, a.isBin = true) (hbytes : ∀ a ∈ g.nonClass, ∀ r, r < n → ∃ b, g.cell a r = [b])
    (hne : g.nonClass ≠ []) (hlow : e.low < ((g.nonClass.length + 1 : Nat) : K) * e.log (1 / ((n + 1 : Nat) : K)))
    (hb : vs.length + n ≤ 2 ^ 64) (nb : NB K) (srt : List Spec → List Spec) (hsrt : ∀ l, (srt l).Perm l) (draw : Nat → Nat)
    (folds : Nat) (hdraw : ∀ i, i < n → draw i < folds)
    (hk : ∀ f, f < folds → (∃ r, r < n ∧ draw r ≠ f) ∧
      LabelsHaveFeatures g lab ((List.range n).filter fun r => decide (draw r ≠ f))) :
    ∃ ms, ∃ c : Nat → String, crossValidate e.fo srt (nbOps e) nb g draw folds = Res.ok ms ∧ ms.length = folds ∧
      (∀ f (h : f < ms.length), Counts ms[f] (((List.range n).filter fun r => decide (draw r = f)).map fun r => (lab r, c r))) ∧
      ∀ r, r < n → BestScore K g lab ((List.range n).filter fun q => decide (draw q ≠ draw r)) r (c r) := by
  obtain ⟨ms, c, h1, h2, h3, h4⟩ := crossValidate_answers (nb_answers E hc hin hl hbin hbytes hne hlow hb) P hd hc hin hl hsrt
    hdraw (fun f hf => by
      have hp := otherRows_perm hdraw hf
      obtain ⟨⟨r, hr, hr'⟩, hL⟩ := hk f hf
      refine ⟨fun h => ?_, ?_⟩
      · rw [h] at hp
        have : r ∈ (List.range n).filter fun q => decide (draw q ≠ f) := List.mem_filter.2 ⟨List.mem_range.2 hr, by simpa using hr'⟩
        rw [← hp.mem_iff] at this
        cases this
      · intro r hr
        obtain ⟨q, hq, h⟩ := hL r (hp.subset hr)
        exact ⟨q, hp.symm.subset hq, h⟩) (s := nb) trivial
  exact ⟨ms, c, h1, h2, fun f h => foldRows_eq draw n f ▸ h3 f h,
    fun r hr => bestScore_perm (otherRows_perm hdraw (hdraw r hr)) (h4 r hr)⟩

/-- If instead outside some fold there is a label none of whose rows has a feature, cross validation panics. -/
theorem C124_panics (e : NbEnv K) (E : e.Ok) (g : Grid) (n : Nat) (P : g.Presents n) (hd : g.distinct) (p : Nat)
    (nm : String) (vs : List String) (lab : Nat → String) (hc : g.allClassAttributes = [⟨p, .cat nm vs⟩])
    (hin : (⟨p, .cat nm vs⟩ : Attr) ∈ g.allAttributes) (hl : ReadsAs e.fo g ⟨p, .cat nm vs⟩ n lab)
    (hbin : ∀ a ∈ g.nonClass, a.isBin = true) (hbytes : ∀ a ∈ g.nonClass, ∀ r, r < n → ∃ b, g.cell a r = [b])
    (hne : g.nonClass ≠ []) (hlow : e.low < ((g.nonClass.length + 1 : Nat) : K) * e.log (1 / ((n + 1 : Nat) : K)))
    (hb : vs.length + n ≤ 2 ^ 64) (nb : NB K) (srt : List Spec → List Spec) (hsrt : ∀ l, (srt l).Perm l) (draw : Nat → Nat)
    (folds : Nat) (hdraw : ∀ i, i < n → draw i < folds) (hk : ∀ f, f < folds → ∃ r, r < n ∧ draw r ≠ f)
    (hbad : ∃ f, f < folds ∧ ¬ LabelsHaveFeatures g lab ((List.range n).filter fun r => decide (draw r ≠ f))) :
    crossValidate e.fo srt (nbOps e) nb g draw folds = Res.panic := by
  classical
  have hL : ∀ f, f < folds → (LabelsHaveFeatures g lab (otherRows draw n folds f) ↔
      LabelsHaveFeatures g lab ((List.range n).filter fun r => decide (draw r ≠ f))) := by
    intro f hf
    have hp := otherRows_perm hdraw hf
    constructor
    · intro h r hr
      obtain ⟨q, hq, h⟩ := h r (hp.symm.subset hr)
      exact ⟨q, hp.subset hq, h⟩
    · intro h r hr
      obtain ⟨q, hq, h⟩ := h r (hp.subset hr)
      exact ⟨q, hp.symm.subset hq, h⟩
  have hne' : ∀ f, f < folds → otherRows draw n folds f ≠ [] := by
    intro f hf h
    have hp := otherRows_perm hdraw hf
    obtain ⟨r, hr, hr'⟩ := hk f hf
    rw [h] at hp
    have : r ∈ (List.range n).filter fun q => decide (draw q ≠ f) := List.mem_filter.2 ⟨List.mem_range.2 hr, by simpa using hr'⟩
    rw [← hp.mem_iff] at this
    cases this
  obtain ⟨f, hf, hno, hmin⟩ : ∃ f, f < folds ∧
      ¬ LabelsHaveFeatures g lab ((List.range n).filter fun r => decide (draw r ≠ f)) ∧
      ∀ x, x < f → LabelsHaveFeatures g lab ((List.range n).filter fun r => decide (draw r ≠ x)) := by
    refine ⟨Nat.find hbad, (Nat.find_spec hbad).1, (Nat.find_spec hbad).2, fun x hx => ?_⟩
    by_contra h
    exact Nat.find_min hbad hx ⟨hx.trans (Nat.find_spec hbad).1, h⟩
  have hsplit : List.range folds = List.range f ++ f :: (List.range (folds - f - 1)).map (fun i => f + 1 + i) := by
    obtain ⟨m, rfl⟩ : ∃ m, folds = f + (m + 1) := ⟨folds - f - 1, by omega⟩
    rw [List.range_add, List.range_succ_eq_map, show f + (m + 1) - f - 1 = m by omega]
    simp only [List.map_cons, List.map_map]
    congr 2
    apply List.map_congr_left
    intro i _
    simp only [Function.comp_apply, Nat.succ_eq_add_one]
    omega
  unfold crossValidate
  rw [if_neg (by omega), hsplit]
  refine crossLoop_panics (nb_answers E hc hin hl hbin hbytes hne hlow hb).to P hd hc hin hl hsrt hdraw (List.range f) f _ ?_ ?_ ?_ trivial
  · intro x hx
    simp only [List.mem_append, List.mem_range, List.mem_singleton] at hx
    omega
  · intro x hx
    have hx' := List.mem_range.1 hx
    exact ⟨hne' x (by omega), (hL x (by omega)).2 (hmin x hx')⟩
  · intro s train _ hT
    have hp := ((C39_folds_partition draw n folds hdraw).2 f hf).1
    have hr : ∀ r ∈ otherRows draw n folds f, r < n := fun r h => List.mem_range.1 (hp.subset (by simp [h]))
    have hT' := hT.nonClass hc
    have D := hT.binaryData hc hin hl hbin hbytes hr
    refine (C68_succeeds_iff D (fun l => ?_) (E.order train) (E.ordC train) s.condProb).2 ?_
    · obtain ⟨τ, s1, s2⟩ := E.srt
      rw [s2]
      refine ((s1 l.length).filterMap _).trans ?_
      rw [filterMap_range_getElem?]
    · rw [(C68_succeeds_iff D (fun l => ?_) (E.order train) (E.ordC train) s.condProb).1]
      · rintro (h | h)
        · exact hne (by simpa [h] using hT'.symm)
        · refine hno ((hL f hf).1 fun r hr' => ?_)
          obtain ⟨i, hi, rfl⟩ := List.mem_iff_getElem.1 hr'
          obtain ⟨j, hj, h1, a, ha, h2⟩ := h i hi
          have ha' := hT'.subset ha
          rw [hT.hasFeature (nonClass_sub ha') hj] at h2
          refine ⟨(otherRows draw n folds f)[j], List.getElem_mem hj, ?_, a, ha', h2⟩
          simpa [List.getD, hi, hj] using h1
      · obtain ⟨τ, s1, s2⟩ := E.srt
        rw [s2]
        refine ((s1 l.length).filterMap _).trans ?_
        rw [filterMap_range_getElem?]

/-- The same for a split into training and test data, if the training rows are as said. -/
theorem C124_split (e : NbEnv K) (E : e.Ok) (d : Dense) (n : Nat) (D : DenseOK n d) (p : Nat)
    (nm : String) (vs : List String) (lab : Nat → String) (hc : d.allClassAttributes = [⟨p, .cat nm vs⟩])
    (hin : (⟨p, .cat nm vs⟩ : Attr) ∈ d.allAttributes) (hl : ReadsAs e.fo (.dense d) ⟨p, .cat nm vs⟩ n lab)
    (hbin : ∀ a ∈ (Grid.dense d).nonClass, a.isBin = true) (hne : (Grid.dense d).nonClass ≠ [])
    (hlow : e.low < (((Grid.dense d).nonClass.length + 1 : Nat) : K) * e.log (1 / ((n + 1 : Nat) : K)))
    (hb : vs.length + n ≤ 2 ^ 64) (nb : NB K) (srt : List Spec → List Spec) (hsrt : ∀ l, (srt l).Perm l) (draw coin : Nat → Nat)
    (hdraw : ∀ i, draw i ≤ i) (pct : Int) :
    ∃ train test src tr te, trainTestSplit srt draw coin pct (.dense d) = Res.ok (train, test, src) ∧
      (tr ++ te).Perm (List.range n) ∧ tr.length = ((List.range n).countP fun i => decide ((coin i : Int) > pct)) ∧
      (tr ≠ [] ∧ LabelsHaveFeatures (.dense d) lab tr → ∃ nb1 nb2 gen cm, ∃ c : Nat → String, (nbOps e).fit nb train = Res.ok nb1 ∧
        (nbOps e).predict nb1 test = Res.ok (nb2, gen) ∧ getConfusionMatrix e.fo test gen = Res.ok cm ∧
        Counts cm (te.map fun r => (lab r, c r)) ∧ ∀ r ∈ te, BestScore K (.dense d) lab tr r (c r)) :=
  split_answers (nb_answers E hc hin hl hbin (fun a ha r hr => by
      have := D.typed a (nonClass_sub ha) r hr
      rw [wellFormed, if_pos (hbin a ha)] at this
      rcases this with h | h <;> exact ⟨_, h⟩) hne hlow hb) D hc hin hl hsrt draw coin hdraw pct (s := nb) trivial
end

section Examples
private def b1 : Attr := ⟨0, .bin "p"⟩
private def b2 : Attr := ⟨1, .bin "q"⟩
private def cc : Attr := ⟨2, .cat "c" ["x", "y"]⟩
private def ops0 : List Op := [.add b1, .add b2, .add cc, .addClass cc, .extend 4, .set 0 0 [1#8], .set 0 1 [1#8], .set 1 2 [1#8],
  .set 1 3 [1#8], .set 2 2 (packU64 1), .set 2 3 (packU64 1)]
private noncomputable def env0 : NbEnv ℝ :=
  ⟨nbFloats, fun _ => none, 4096, id, someOrder, fun _ => id, fun _ _ => id, Real.logb 2, -9⟩
private def lab0 (r : Nat) : String := if r < 2 then "x" else "y"

private theorem env0_ok : env0.Ok where
  log := logb_logarithm
  srt := ⟨List.range, fun _ => List.Perm.refl _, fun l => (filterMap_range_getElem? l).symm⟩
  order := someOrder_rowOrder
  ordC _ _ := List.Perm.refl _
  ordP _ _ _ := List.Perm.refl _

set_option synthInstance.maxSize 1000 in
/-- The hypotheses of the theorems hold for two rows with the first feature, labelled x, and two with the second, labelled y, with
the rows of even number in one fold and the others in the other. -/
example : ∃ st, run 4096 ops0 = Res.ok st ∧ DenseOK 4 st.d ∧ st.d.allClassAttributes = [cc] ∧ cc ∈ st.d.allAttributes ∧
    ReadsAs env0.fo (.dense st.d) cc 4 lab0 ∧ (Grid.dense st.d).nonClass = [b1, b2] ∧ env0.Ok ∧
    env0.low < (((Grid.dense st.d).nonClass.length + 1 : Nat) : ℝ) * env0.log (1 / ((4 + 1 : Nat) : ℝ)) ∧
    ∀ f, f < 2 → (∃ r, r < 4 ∧ r % 2 ≠ f) ∧
      LabelsHaveFeatures (.dense st.d) lab0 ((List.range 4).filter fun r => decide (r % 2 ≠ f)) := by
  have h : (run 4096 ops0).map (fun st => (st.d.allClassAttributes, decide (cc ∈ st.d.allAttributes), (Grid.dense st.d).nonClass,
      (List.range 4).map (fun r => cc.getString nbFloats ((Grid.dense st.d).cell cc r)),
      (List.range 4).map (fun r => ((Grid.dense st.d).hasFeature b1 r, (Grid.dense st.d).hasFeature b2 r)))) =
      Res.ok ([cc], true, [b1, b2], [Res.ok "x", Res.ok "x", Res.ok "y", Res.ok "y"],
        [(true, false), (true, false), (false, true), (false, true)]) := by decide +kernel
  obtain ⟨st, hst, h⟩ := Res.map_eq_ok.1 h
  simp only [Prod.mk.injEq, decide_eq_true_eq] at h
  obtain ⟨h1, h2, h3, h4, h5⟩ := h
  refine ⟨st, hst, denseOK_run (ops := ops0) (by decide) hst (by decide), h1, h2, ?_, h3, env0_ok, ?_, ?_⟩
  · intro r hr
    have := congrArg (fun l => l[r]?) h4
    interval_cases r <;> simpa [lab0, env0] using this
  · rw [h3]
    show (-9 : ℝ) < _ * Real.logb 2 _
    have : Real.logb 2 (1 / 8) ≤ Real.logb 2 (1 / ((4 + 1 : Nat) : ℝ)) :=
      Real.logb_le_logb_of_le (by norm_num) (by norm_num) (by norm_num)
    have e : Real.logb 2 (1 / 8) = -3 := by
      rw [show (1 / 8 : ℝ) = (2 : ℝ) ^ (-3 : ℝ) by norm_num [Real.rpow_neg]]
      exact Real.logb_rpow (by norm_num) (by norm_num)
    have h8 : Real.logb 2 (1 / 8) < Real.logb 2 (1 / ((4 + 1 : Nat) : ℝ)) :=
      Real.logb_lt_logb (by norm_num) (by norm_num) (by norm_num)
    rw [e] at h8
    norm_num at h8 ⊢
    linarith
  · intro f hf
    have hfe : ∀ r, r < 4 → ∃ a ∈ (Grid.dense st.d).nonClass, (Grid.dense st.d).hasFeature a r = true := by
      intro r hr
      rw [h3]
      have := congrArg (fun l => l[r]?) h5
      interval_cases r <;> simp at this <;> simp [this]
    refine ⟨⟨1 - f, by omega, by omega⟩, fun r hr => ⟨r, hr, rfl, hfe r (List.mem_range.1 (List.mem_filter.1 hr).1)⟩⟩
private def ops1 : List Op := [.add b1, .add b2, .add cc, .addClass cc, .extend 4, .set 0 0 [1#8], .set 0 1 [1#8],
  .set 2 2 (packU64 1), .set 2 3 (packU64 1)]

/-- The condition of `C124_panics` holds in the same case if the rows labelled y have no features. -/
example : ∃ st, run 4096 ops1 = Res.ok st ∧ ∃ f, f < 2 ∧
    ¬ LabelsHaveFeatures (.dense st.d) lab0 ((List.range 4).filter fun r => decide (r % 2 ≠ f)) := by
  have h : (run 4096 ops1).map (fun st => ((Grid.dense st.d).nonClass,
      [2, 3].map (fun r => ((Grid.dense st.d).hasFeature b1 r, (Grid.dense st.d).hasFeature b2 r)))) =
      Res.ok ([b1, b2], [(false, false), (false, false)]) := by decide +kernel
  obtain ⟨st, hst, h⟩ := Res.map_eq_ok.1 h
  simp only [Prod.mk.injEq, List.map_cons, List.map_nil, List.cons.injEq, and_true] at h
  obtain ⟨h3, ⟨p1, p2⟩, q1, q2⟩ := h
  refine ⟨st, hst, 1, by omega, fun hL => ?_⟩
  obtain ⟨q, hq, hl, a, ha, hf⟩ := hL 2 (by decide)
  rw [h3] at ha
  simp only [List.mem_cons, List.not_mem_nil, or_false] at ha
  have hq4 : q = 0 ∨ q = 2 := by
    have : q ∈ [0, 2] := hq
    simpa using this
  rcases hq4 with rfl | rfl
  · exact absurd hl (by decide)
  · rcases ha with rfl | rfl
    · rw [p1] at hf; cases hf
    · rw [p2] at hf; cases hf
end Examples

end Golearn
