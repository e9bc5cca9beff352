import Verif.Proofs.Eval
import Verif.Proofs.DenseTable

/-! # C39: cross-validation folds partition the data -/

namespace Golearn

/-- `v` shows exactly the rows `rows` of `g`, in that order, with all attributes and class attributes. -/
def ShowsRows (g v : Grid) (rows : List Nat) : Prop :=
  v.Presents rows.length ∧ v.allAttributes.Perm g.allAttributes ∧
  (∀ x, x ∈ v.allClassAttributes ↔ x ∈ g.allClassAttributes) ∧
  ∀ a ∈ g.allAttributes, ∀ i (h : i < rows.length), v.cell a i = g.cell a rows[i]

theorem visible_shows {g : Grid} {n : Nat} (P : g.Presents n) (hd : g.distinct)
    (hc : ∀ x ∈ g.allClassAttributes, x ∈ g.allAttributes) {srt : List Spec → List Spec}
    (hsrt : ∀ l, (srt l).Perm l) {specs : List Spec} (hs : g.resolve srt g.allAttributes = Res.ok specs)
    {rows : List Nat} (hr : ∀ r ∈ rows, r < n) :
    ShowsRows g (Grid.viewFromVisible g rows specs) rows := by
  have hres : g.Resolves g.allAttributes specs := by
    unfold Grid.resolve at hs
    rw [Res.map_eq_ok] at hs
    obtain ⟨l, hl, e⟩ := hs
    exact ⟨l, hl, e ▸ hsrt l⟩
  obtain ⟨r1, r2⟩ := P.resolves (fun a h => h) hres
  obtain ⟨V1, V2⟩ := visible_presents P hd r2 hr
  refine ⟨V1, r1, ?_, fun a ha i h => V2 a (r1.symm.subset ha) i h⟩
  intro x
  show x ∈ ((Grid.classFromSrc (some specs) g.allClassAttributes).filter fun p => p.2).map Prod.fst ↔ _
  rw [classFromSrc_mem]
  constructor
  · exact fun h => h.1
  · intro hx
    refine ⟨hx, ?_⟩
    intro sp e
    rw [Option.some.injEq] at e
    subst e
    have : x ∈ specs.map Spec.attr := r1.symm.subset (hc x hx)
    obtain ⟨s, hs', e⟩ := List.mem_map.1 this
    exact ⟨s, hs', by rw [e]; exact C28_equals_refl x⟩

theorem flatMap_fold_perm {rows folds : List Nat} (draw : Nat → Nat) (hn : folds.Nodup) (p : Nat → Bool) :
    (folds.flatMap fun j => if p j then rows.filter (fun i => draw i == j) else []).Perm
      (rows.filter fun i => decide (draw i ∈ folds) && p (draw i)) := by
  induction folds with
  | nil => simp
  | cons f fs ih =>
    rw [List.nodup_cons] at hn
    rw [List.flatMap_cons]
    refine ((ih hn.2).append_left _).trans ?_
    have e1 : (if p f = true then rows.filter (fun i => draw i == f) else []) =
        (rows.filter fun i => decide (draw i ∈ f :: fs) && p (draw i)).filter (fun i => draw i == f) := by
      rw [List.filter_filter]
      split
      · rename_i hp
        apply List.filter_congr
        intro i _
        by_cases h : draw i = f <;> simp [h, hp]
      · rename_i hp
        symm
        rw [List.filter_eq_nil_iff]
        intro i _
        by_cases h : draw i = f <;> simp [h, hp]
    have e2 : rows.filter (fun i => decide (draw i ∈ fs) && p (draw i)) =
        (rows.filter fun i => decide (draw i ∈ f :: fs) && p (draw i)).filter (fun i => !(draw i == f)) := by
      rw [List.filter_filter]
      apply List.filter_congr
      intro i _
      by_cases h : draw i = f
      · have : f ∉ fs := hn.1
        simp [h, this]
      · simp [h]
    rw [e1, e2]
    exact List.filter_append_perm _ _

/-- The rows of the folds partition the rows, and the other rows of a fold are exactly the rows outside
it. -/
theorem C39_folds_partition (draw : Nat → Nat) (rows folds : Nat) (hdraw : ∀ i, i < rows → draw i < folds) :
    ((List.range folds).flatMap (foldRows draw rows)).Perm (List.range rows) ∧
    ∀ f, f < folds → (otherRows draw rows folds f ++ foldRows draw rows f).Perm (List.range rows) ∧
      ∀ r, r ∈ otherRows draw rows folds f ↔ r < rows ∧ r ∉ foldRows draw rows f := by
  have hp := flatMap_fold_perm (rows := List.range rows) (folds := List.range folds) draw List.nodup_range
  have hall : ∀ q : Nat → Bool, (List.range rows).filter (fun i => decide (draw i ∈ List.range folds) && q (draw i)) =
      (List.range rows).filter fun i => q (draw i) := by
    intro q
    apply List.filter_congr
    intro i hi
    have := hdraw i (List.mem_range.1 hi)
    simp [this]
  refine ⟨?_, ?_⟩
  · have := hp (fun _ => true)
    rw [hall (fun _ => true)] at this
    simp only [if_true, List.filter_true] at this
    exact this
  · intro f hf
    have h1 : (otherRows draw rows folds f).Perm ((List.range rows).filter fun i => !(draw i == f)) := by
      have := hp (fun j => !(j == f))
      rw [hall (fun j => !(j == f))] at this
      refine (List.Perm.of_eq ?_).trans this
      unfold otherRows foldRows
      congr 1
      funext j
      by_cases h : f = j
      · simp [h]
      · simp [h, Ne.symm h]
    refine ⟨?_, ?_⟩
    · refine (h1.append_right _).trans ?_
      refine (List.perm_append_comm).trans ?_
      exact List.filter_append_perm _ _
    · intro r
      rw [h1.mem_iff]
      simp only [foldRows, List.mem_filter, List.mem_range, Bool.not_eq_true', beq_eq_false_iff_ne, ne_eq,
        beq_iff_eq, not_and]
      constructor
      · rintro ⟨h2, h3⟩; exact ⟨h2, fun _ => h3⟩
      · rintro ⟨h2, h3⟩; exact ⟨h2, h3 h2⟩

/-- What the classifier is given for one fold, and the matrix obtained. -/
def FoldDone {σ : Type} (fo : FloatOps) (cls : ClassifierOps σ) (data : Grid) (n : Nat) (testRows : List Nat)
    (cf : ConfMat) : Prop :=
  ∃ train test trainRows s s1 q, ShowsRows data test testRows ∧ ShowsRows data train trainRows ∧
    (trainRows ++ testRows).Perm (List.range n) ∧ cls.fit s train = Res.ok s1 ∧
    cls.predict s1 test = Res.ok q ∧ getConfusionMatrix fo test q.2 = Res.ok cf

theorem crossLoop_spec {σ : Type} (fo : FloatOps) {srt : List Spec → List Spec} (hsrt : ∀ l, (srt l).Perm l)
    (cls : ClassifierOps σ) {data : Grid} {n : Nat} (P : data.Presents n) (hd : data.distinct)
    (hc : ∀ x ∈ data.allClassAttributes, x ∈ data.allAttributes) {draw : Nat → Nat} {folds : Nat}
    (hdraw : ∀ i, i < n → draw i < folds) (fs : List Nat) (hfs : ∀ f ∈ fs, f < folds) (s : σ) (ms : List ConfMat)
    (h : crossLoop fo srt cls data draw folds s fs = Res.ok ms) :
    List.Forall₂ (fun f cf => FoldDone fo cls data n (foldRows draw n f) cf) fs ms := by
  induction fs generalizing s ms with
  | nil =>
    simp only [crossLoop, Res.ok.injEq] at h
    subst h
    exact List.Forall₂.nil
  | cons f fs ih =>
    simp only [crossLoop, Res.bind_eq_ok, Res.map_eq_ok, P.rows] at h
    obtain ⟨sp1, h1, sp2, h2, s1, h3, q, h4, cf, h5, rest, h6, e⟩ := h
    subst e
    obtain ⟨hp, _⟩ := (C39_folds_partition draw n folds hdraw).2 f (hfs f (by simp))
    refine List.Forall₂.cons ⟨_, _, otherRows draw n folds f, s, s1, q, ?_, ?_, hp, h3, h4, h5⟩
      (ih (fun g hg => hfs g (by simp [hg])) q.1 rest h6)
    · exact visible_shows P hd hc hsrt h1 (fun r hr => List.mem_range.1 (List.mem_filter.1 hr).1)
    · exact visible_shows P hd hc hsrt h2 (fun r hr => List.mem_range.1
        (hp.subset (List.mem_append_left _ hr)))

/-- Cross validation of any classifier on a table of `n` rows, for every random assignment of rows to
folds: one matrix per fold; the test sets together are all rows, each once; in every fold the classifier
is fitted to a view of exactly the rows that are not in the test set, and the matrix is that of its
predictions for the test set. -/
theorem C39_cross_validation {σ : Type} (fo : FloatOps) (srt : List Spec → List Spec)
    (hsrt : ∀ l, (srt l).Perm l) (cls : ClassifierOps σ) (s : σ) (data : Grid) (n : Nat)
    (P : data.Presents n) (hd : data.distinct) (hc : ∀ x ∈ data.allClassAttributes, x ∈ data.allAttributes)
    (draw : Nat → Nat) (folds : Nat) (hdraw : ∀ i, i < n → draw i < folds) (ms : List ConfMat)
    (h : crossValidate fo srt cls s data draw folds = Res.ok ms) :
    ms.length = folds ∧ ∃ tests : List (List Nat), tests.length = folds ∧
      tests.flatten.Perm (List.range n) ∧
      List.Forall₂ (fun test cf => FoldDone fo cls data n test cf) tests ms := by
  unfold crossValidate at h
  split at h
  · cases h
  · have F := crossLoop_spec fo hsrt cls P hd hc hdraw (List.range folds) (by simp) s ms h
    refine ⟨by rw [← F.length_eq]; simp, (List.range folds).map (foldRows draw n), by simp, ?_, ?_⟩
    · have := (C39_folds_partition draw n folds hdraw).1
      rw [List.flatMap_def] at this
      exact this
    · rw [List.forall₂_map_left_iff]
      exact F

theorem confLoop_total {fo : FloatOps} {ref gen : Grid} (rows : List Nat) (m m' : ConfMat)
    (pairs : List (String × String)) (hm : Counts m pairs) (h : confLoop fo ref gen rows m = Res.ok m') :
    ∃ more, Counts m' (pairs ++ more) ∧
      List.Forall₂ (fun r p => getClass fo ref r = Res.ok p.1 ∧ getClass fo gen r = Res.ok p.2) rows more := by
  induction rows generalizing m pairs with
  | nil =>
    simp only [confLoop, Res.ok.injEq] at h
    subst h
    exact ⟨[], by simpa using hm, List.Forall₂.nil⟩
  | cons r rs ih =>
    simp only [confLoop, Res.bind_eq_ok] at h
    obtain ⟨x, h1, y, h2, h3⟩ := h
    obtain ⟨more, h4, h5⟩ := ih _ _ (hm.step x y) h3
    exact ⟨(x, y) :: more, by simpa using h4, List.Forall₂.cons ⟨h1, h2⟩ h5⟩

/-- Whenever cross validation succeeds, the matrices together count every row exactly once. -/
theorem C39_every_row_counted {σ : Type} (fo : FloatOps) (srt : List Spec → List Spec)
    (hsrt : ∀ l, (srt l).Perm l) (cls : ClassifierOps σ) (s : σ) (data : Grid) (n : Nat)
    (P : data.Presents n) (hd : data.distinct) (hc : ∀ x ∈ data.allClassAttributes, x ∈ data.allAttributes)
    (draw : Nat → Nat) (folds : Nat) (hdraw : ∀ i, i < n → draw i < folds) (ms : List ConfMat)
    (h : crossValidate fo srt cls s data draw folds = Res.ok ms) :
    (ms.map ConfMat.total).sum = n := by
  obtain ⟨_, tests, _, h2, F⟩ := C39_cross_validation fo srt hsrt cls s data n P hd hc draw folds hdraw ms h
  have key : ∀ (ts : List (List Nat)) (ms : List ConfMat),
      List.Forall₂ (fun test cf => FoldDone fo cls data n test cf) ts ms →
      (ms.map ConfMat.total).sum = ts.flatten.length := by
    intro ts ms F
    induction F with
    | nil => rfl
    | cons hx _ ih =>
      obtain ⟨train, test, _, _, _, q, hs, _, _, _, _, hcf⟩ := hx
      rw [List.map_cons, List.sum_cons, ih, List.flatten_cons, List.length_append]
      congr 1
      unfold getConfusionMatrix at hcf
      split at hcf
      · cases hcf
      · obtain ⟨more, hm1, hm2⟩ := confLoop_total _ _ _ _ Counts.nil hcf
        rw [hm1.total, List.nil_append, ← hm2.length_eq, List.length_range, hs.1.rows]
  rw [key tests ms F, h2.length_eq, List.length_range]

theorem fdivq (a : ℚ) (n : Nat) (hn : n ≠ 0) : fdiv a n = some (a / n) := by
  unfold fdiv
  rw [if_neg]
  exact_mod_cast hn

theorem fsum_some (l : List ℚ) : fsum (l.map some) = some l.sum := by
  induction l with
  | nil => rfl
  | cons x xs ih => simp [fsum, ih]

/-- `GetCrossValidatedMetric` on defined scores of at least one fold: the mean is the average, it lies
between any bounds of the scores, and the variance is the average squared deviation, never negative, and
zero only when all scores are equal. -/
theorem C39_mean_variance (scores : List ℚ) (hne : scores ≠ []) :
    crossMean (scores.map some) = some (meanOf scores) ∧
    crossVariance (scores.map some) = some (varianceOf scores) ∧
    (∀ lo hi, (∀ x ∈ scores, lo ≤ x ∧ x ≤ hi) → lo ≤ meanOf scores ∧ meanOf scores ≤ hi) ∧
    0 ≤ varianceOf scores ∧ (varianceOf scores = 0 → ∀ x ∈ scores, x = meanOf scores) := by
  have hlen : scores.length ≠ 0 := fun h => hne (List.length_eq_zero_iff.1 h)
  have hpos : (0 : ℚ) < scores.length := by exact_mod_cast Nat.pos_of_ne_zero hlen
  have hmean : crossMean (scores.map some) = some (meanOf scores) := by
    unfold crossMean meanOf
    rw [fsum_some, List.length_map]
    exact fdivq _ _ hlen
  have hnn : ∀ (l : List ℚ), 0 ≤ (l.map fun x => (x - meanOf scores) * (x - meanOf scores)).sum ∧
      ((l.map fun x => (x - meanOf scores) * (x - meanOf scores)).sum = 0 →
        ∀ x ∈ l, x = meanOf scores) := by
    intro l
    induction l with
    | nil => simp
    | cons y ys ih =>
      rw [List.map_cons, List.sum_cons]
      have hy := mul_self_nonneg (y - meanOf scores)
      refine ⟨by linarith [ih.1], ?_⟩
      intro h0 x hx
      have hy0 : (y - meanOf scores) * (y - meanOf scores) = 0 := by linarith [ih.1]
      rcases List.mem_cons.1 hx with rfl | hx
      · have := mul_self_eq_zero.1 hy0
        linarith
      · exact ih.2 (by linarith) x hx
  refine ⟨hmean, ?_, ?_, div_nonneg (hnn scores).1 hpos.le, ?_⟩
  · unfold crossVariance
    rw [hmean, Option.bind_some, List.map_map]
    have e : (scores.map ((fun s => Option.map (fun x => (x - meanOf scores) *
        (x - meanOf scores)) s) ∘ some)) =
        (scores.map fun x => (x - meanOf scores) * (x - meanOf scores)).map some := by
      rw [List.map_map]
      apply List.map_congr_left
      intro x _
      simp
    rw [e, fsum_some, List.length_map]
    exact fdivq _ _ hlen
  · intro lo hi hb
    have key : ∀ l : List ℚ, (∀ x ∈ l, lo ≤ x ∧ x ≤ hi) → lo * l.length ≤ l.sum ∧ l.sum ≤ hi * l.length := by
      intro l
      induction l with
      | nil => simp
      | cons y ys ih =>
        intro hl
        obtain ⟨h1, h2⟩ := ih (fun x hx => hl x (by simp [hx]))
        obtain ⟨h3, h4⟩ := hl y (by simp)
        rw [List.sum_cons, List.length_cons]
        push_cast
        constructor <;> linarith
    obtain ⟨h1, h2⟩ := key scores hb
    exact ⟨(le_div_iff₀ hpos).2 h1, (div_le_iff₀ hpos).2 h2⟩
  · intro h0
    unfold varianceOf at h0
    rw [div_eq_zero_iff] at h0
    rcases h0 with h0 | h0
    · exact (hnn scores).2 h0
    · exact absurd h0 hpos.ne'

section Examples
private def fo0 : FloatOps := ⟨fun _ _ => "", fun _ _ => false⟩
private def aC : Attr := ⟨0, .cat "c" ["x", "y"]⟩
private def ops1 : List Op := [.add aC, .addClass aC, .extend 4, .set 0 1 (packU64 1)]
/-- A classifier that predicts the labels it is shown. -/
private def echo : ClassifierOps Unit := ⟨fun _ _ => Res.ok (), fun _ g => Res.ok ((), g)⟩

set_option synthInstance.maxSize 1024 in
set_option synthInstance.maxHeartbeats 200000 in
/-- Four rows drawn into folds 2, 0, 2, 0 of three; fold 1 is empty. -/
example : ((run 4096 ops1).bind fun st =>
      (crossValidate fo0 id echo () (.dense st.d) (fun i => if i % 2 = 0 then 2 else 0) 3)) =
    Res.ok [[("y", [("y", 1)]), ("x", [("x", 1)])], [], [("x", [("x", 2)])]] := by decide +kernel
end Examples

end Golearn
