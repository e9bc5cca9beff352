import Verif.Proofs.NaiveBayes
import Verif.Proofs.DenseTable
import Verif.Proofs.TreeExamples
import Mathlib.Data.Rat.Floor

/-! # C68: training naive Bayes -/

namespace Golearn

section
variable {K : Type} [Field K] [LinearOrder K]

/-- The whole claim: training succeeds on every data set of binary features with one class attribute. -/
def C68_trains_always (K : Type) [Field K] [LinearOrder K] : Prop :=
  ∀ (fo : FloatOps) (g : Grid) (n : Nat) (k : Nat → String), BinaryData fo g n k →
    ∀ (srt : List Spec → List Spec), (∀ l, (srt l).Perm l) → ∀ order, g.RowOrder order →
      ∀ ordC : List String → List String, (∀ l, (ordC l).Perm l) → ∀ old : GoMap String (List K),
        (nbFit fo srt order ordC old g).isOk = true

/-- Where `Fit` stops, for the data and every order of rows and classes. -/
theorem nb_fit {fo : FloatOps} {g : Grid} {n : Nat} {k : Nat → String} (D : BinaryData fo g n k)
    {srt : List Spec → List Spec} (hsrt : ∀ l, (srt l).Perm l) {order : List Nat} (ho : g.RowOrder order)
    {ordC : List String → List String} (hord : ∀ l, (ordC l).Perm l) (old : GoMap String (List K)) :
    ((g.nonClass = [] ∨ ∀ r, r < n → ClassHasFeature g n k (k r)) → ∃ nb cols,
      nbFit fo srt order ordC old g = Res.ok nb ∧ nb.TrainedOn g n k cols ∧
      ∀ fs, (∀ sp : Attr → Spec, srt (g.nonClass.map sp) = fs.map sp) → (∀ a ∈ fs, a ∈ g.nonClass) → cols = fs) ∧
    (g.nonClass ≠ [] → ∀ r, r < n → ¬ ClassHasFeature g n k (k r) → nbFit fo srt order ordC old g = Res.panic) := by
  obtain ⟨specs, s, h1, h2, h3, h4, C⟩ := nb_counts D hsrt ho
  have hrow := D.table.order order ho
  have heq := nbFit_eq D ordC old h1 h4
  have hlen : g.nonClass.length = (specs.map Spec.attr).length := h2.length_eq.symm
  have hkeys : ∀ c, c ∈ s.inst.map Prod.fst ↔ ∃ r, r < n ∧ k r = c := by
    intro c
    rw [← GoMap.isSome_iff_mem, C.inst.2 c]
    by_cases hc : c ∈ order.map k
    · rw [if_pos hc]
      obtain ⟨r, hr, rfl⟩ := List.mem_map.1 hc
      simp only [Option.isSome_some, true_iff]
      exact ⟨r, List.mem_range.1 (hrow.mem_iff.1 hr), rfl⟩
    · rw [if_neg hc]
      simp only [Option.isSome_none, Bool.false_eq_true, false_iff]
      rintro ⟨r, hr, rfl⟩
      exact hc (List.mem_map.2 ⟨r, hrow.mem_iff.2 (List.mem_range.2 hr), rfl⟩)
  have hocc : ∀ r, r < n → k r ∈ order.map k := fun r hr =>
    List.mem_map.2 ⟨r, hrow.mem_iff.2 (List.mem_range.2 hr), rfl⟩
  have hcond := fun r hr => nbCond_spec (K := K) hrow C (k r) (hocc r hr)
  have hcls : ∀ r, ClassHasFeature g n k (k r) ↔
      ∃ r', r' < n ∧ k r' = k r ∧ ∃ a ∈ specs.map Spec.attr, g.hasFeature a r' = true := by
    intro r
    simp only [ClassHasFeature, h2.mem_iff]
  constructor
  · intro hall
    have hok : ∀ c ∈ ordC (s.inst.map Prod.fst),
        nbCond (K := K) g.nonClass.length s c = Res.ok ((specs.map Spec.attr).map (smoothed g n k c)) := by
      intro c hc
      obtain ⟨r, hr, rfl⟩ := (hkeys c).1 ((hord _).mem_iff.1 hc)
      rw [hlen]
      rcases hall with hnil | hall
      · rw [hnil] at hlen
        have hz : specs = [] := by
          rw [List.length_map] at hlen
          exact List.length_eq_zero_iff.1 (by simpa using hlen.symm)
        subst hz
        rfl
      · exact (hcond r hr).1 ((hcls r).1 (hall r hr))
    obtain ⟨cp, c1, c2⟩ := nbConds_ok g.nonClass.length s _ _ hok old
    refine ⟨_, specs.map Spec.attr, by rw [heq, c1, Res.map_ok], ⟨rfl, rfl, rfl, h2, hkeys, ?_, ?_⟩, h3⟩
    · intro r hr
      show s.inst.get? (k r) = _
      rw [C.inst.2 (k r), if_pos (hocc r hr), List.count, List.countP_map, List.countP_eq_length_filter]
      exact congrArg some (count_perm hrow _)
    · intro r hr
      show cp.get? (k r) = _
      rw [c2, if_pos ((hord _).mem_iff.2 ((hkeys _).2 ⟨r, hr, rfl⟩))]
  · intro hne r hr hno
    rw [heq, nbConds_panic]
    · rfl
    · intro c hc
      obtain ⟨r', hr', rfl⟩ := (hkeys c).1 ((hord _).mem_iff.1 hc)
      rw [hlen]
      by_cases h : ClassHasFeature g n k (k r')
      · exact Or.inl ⟨_, (hcond r' hr').1 ((hcls r').1 h)⟩
      · refine Or.inr ((hcond r' hr').2 (fun hh => h ((hcls r').2 hh)) ?_)
        intro hz
        rw [hz] at hlen
        exact hne (List.length_eq_zero_iff.1 hlen)
    · refine ⟨k r, (hord _).mem_iff.2 ((hkeys _).2 ⟨r, hr, rfl⟩), ?_⟩
      rw [hlen]
      refine (hcond r hr).2 (fun hh => hno ((hcls r).2 hh)) ?_
      intro hz
      rw [hz] at hlen
      exact hne (List.length_eq_zero_iff.1 hlen)

/-- If every class has a row with some feature, training succeeds, for every order of rows and classes: the model
holds the number of rows of each class, and for each class and feature the smoothed fraction of the rows that have the
feature. -/
theorem C68_trains_partial {fo : FloatOps} {g : Grid} {n : Nat} {k : Nat → String} (D : BinaryData fo g n k)
    (hall : ∀ r, r < n → ClassHasFeature g n k (k r)) {srt : List Spec → List Spec} (hsrt : ∀ l, (srt l).Perm l)
    {order : List Nat} (ho : g.RowOrder order) {ordC : List String → List String} (hord : ∀ l, (ordC l).Perm l)
    (old : GoMap String (List K)) :
    ∃ nb cols, nbFit fo srt order ordC old g = Res.ok nb ∧ nb.TrainedOn g n k cols := by
  obtain ⟨nb, cols, h1, h2, _⟩ := (nb_fit D hsrt ho hord old).1 (Or.inr hall)
  exact ⟨nb, cols, h1, h2⟩

/-- Exactly when training succeeds: there are no features, or every class has a row with some feature. Otherwise it
panics. -/
theorem C68_succeeds_iff {fo : FloatOps} {g : Grid} {n : Nat} {k : Nat → String} (D : BinaryData fo g n k)
    {srt : List Spec → List Spec} (hsrt : ∀ l, (srt l).Perm l)
    {order : List Nat} (ho : g.RowOrder order) {ordC : List String → List String} (hord : ∀ l, (ordC l).Perm l)
    (old : GoMap String (List K)) :
    ((∃ nb, nbFit fo srt order ordC old g = Res.ok nb) ↔
      g.nonClass = [] ∨ ∀ r, r < n → ClassHasFeature g n k (k r)) ∧
    ((¬ ∃ nb, nbFit fo srt order ordC old g = Res.ok nb) → nbFit fo srt order ordC old g = Res.panic) := by
  obtain ⟨h1, h2⟩ := nb_fit D hsrt ho hord old
  by_cases h : g.nonClass = [] ∨ ∀ r, r < n → ClassHasFeature g n k (k r)
  · obtain ⟨nb, _, e, _⟩ := h1 h
    exact ⟨⟨fun _ => h, fun _ => ⟨nb, e⟩⟩, fun hno => absurd ⟨nb, e⟩ hno⟩
  · push Not at h
    obtain ⟨hne, r, hr, hno⟩ := h
    have e := h2 hne r hr hno
    refine ⟨⟨?_, ?_⟩, fun _ => e⟩
    · rintro ⟨nb, hnb⟩; rw [e] at hnb; cases hnb
    · rintro (hh | hh)
      · exact absurd hh hne
      · exact absurd (hh r hr) hno

/-- The stored fractions are positive and at most one. -/
theorem C68_range [IsStrictOrderedRing K] (g : Grid) (n : Nat) (k : Nat → String) (c : String) (a : Attr) :
    (0 : K) < smoothed g n k c a ∧ smoothed (K := K) g n k c a ≤ 1 := by
  have h1 : (0 : K) < ((docsIn n k c + 1 : Nat) : K) := by exact_mod_cast Nat.succ_pos _
  have h2 : (0 : K) < ((docsWith g n k c a + 1 : Nat) : K) := by exact_mod_cast Nat.succ_pos _
  refine ⟨div_pos h2 h1, ?_⟩
  unfold smoothed
  rw [div_le_one h1]
  exact_mod_cast Nat.succ_le_succ (docsWith_le g n k c a)

/-- Features that are not binary, or a number of class attributes other than one, are reported as errors. -/
theorem C68_rejects {fo : FloatOps} {g : Grid} {srt : List Spec → List Spec} {order : List Nat}
    {ordC : List String → List String} (old : GoMap String (List K)) :
    ((∃ a ∈ g.nonClass, a.isBin = false) → nbFit fo srt order ordC old g = Res.err) ∧
    (∀ n, g.Presents n → (∀ a ∈ g.nonClass, a.isBin = true) → g.allClassAttributes.length ≠ 1 →
      nbFit fo srt order ordC old g = Res.err) := by
  constructor
  · rintro ⟨a, ha, hb⟩
    unfold nbFit
    simp only [features_eq]
    rw [if_pos (List.any_eq_true.2 ⟨a, ha, by simp [hb]⟩)]
  · intro n P hb hl
    obtain ⟨sp, h1, _⟩ := finds_spec P (finds_self (features_sub g))
    unfold nbFit
    simp only [features_eq]
    rw [if_neg (by
      rw [List.any_eq_true]
      rintro ⟨a, ha, h⟩
      simp [hb a ha] at h)]
    simp only [Grid.resolve, h1, Res.map_ok, Res.bind_ok, if_pos hl]
end

section Examples
private def b1 : Attr := ⟨0, .bin "p"⟩
private def b2 : Attr := ⟨1, .bin "q"⟩
private def cc : Attr := ⟨2, .cat "c" ["x", "y"]⟩
private def ops1 : List Op := [.add b1, .add b2, .add cc, .extend 3, .set 0 0 [1#8], .set 0 1 [1#8], .set 1 2 [1#8],
  .set 2 2 (packU64 1), .addClass cc]
private def ops2 : List Op := [.add b1, .add b2, .add cc, .extend 3, .set 0 0 [1#8], .set 0 1 [1#8],
  .set 2 2 (packU64 1), .addClass cc]
/-- Operations on floats that the example does not use. -/
def nbFloats : FloatOps := ⟨fun _ _ => "", fun _ _ => false⟩
/-- The classes of the rows of the example. -/
def nbLab (r : Nat) : String := if r = 2 then "y" else "x"

/-- Three rows of two features and two classes: every class has a row with a feature. -/
theorem nb_example : ∃ st, run 4096 ops1 = Res.ok st ∧ BinaryData nbFloats (.dense st.d) 3 nbLab ∧
    (Grid.dense st.d).nonClass = [⟨0, .bin "p"⟩, ⟨1, .bin "q"⟩] ∧
    (Grid.dense st.d).allClassAttributes = [⟨2, .cat "c" ["x", "y"]⟩] ∧
    (∀ r, r < 3 → ClassHasFeature (.dense st.d) 3 nbLab (nbLab r)) ∧
    docsIn 3 nbLab "x" = 2 ∧ docsWith (.dense st.d) 3 nbLab "x" ⟨0, .bin "p"⟩ = 2 ∧
    docsWith (.dense st.d) 3 nbLab "x" ⟨1, .bin "q"⟩ = 0 ∧ docsIn 3 nbLab "y" = 1 ∧
    docsWith (.dense st.d) 3 nbLab "y" ⟨0, .bin "p"⟩ = 0 ∧ docsWith (.dense st.d) 3 nbLab "y" ⟨1, .bin "q"⟩ = 1 := by
  have hw : ∃ st, run 4096 ops1 = Res.ok st ∧ (∀ op ∈ ops1, basicOp op = true) ∧
      (addedAttrs ops1).Pairwise (fun a b => a.equals b = false) ∧ totalRows ops1 = 3 ∧
      st.d.allClassAttributes = [cc] ∧ (Grid.dense st.d).nonClass = [b1, b2] ∧ cc ∈ st.d.allAttributes ∧
      (∀ r ∈ List.range 3, (Grid.dense st.d).cell b1 r = [if r = 2 then 0#8 else 1#8]) ∧
      (∀ r ∈ List.range 3, (Grid.dense st.d).cell b2 r = [if r = 2 then 1#8 else 0#8]) ∧
      (∀ r ∈ List.range 3, cc.getString nbFloats ((Grid.dense st.d).cell cc r) = Res.ok (nbLab r)) ∧
      docsIn 3 nbLab "x" = 2 ∧ docsWith (.dense st.d) 3 nbLab "x" b1 = 2 ∧ docsWith (.dense st.d) 3 nbLab "x" b2 = 0 ∧
      docsIn 3 nbLab "y" = 1 ∧ docsWith (.dense st.d) 3 nbLab "y" b1 = 0 ∧ docsWith (.dense st.d) 3 nbLab "y" b2 = 1 := by
    refine ⟨_, rfl, ?_, ?_, ?_, ?_, ?_, ?_, ?_, ?_, ?_, ?_, ?_, ?_, ?_, ?_, ?_⟩
    all_goals decide +kernel
  obtain ⟨st, hrun, hb, hd, h3, hcl, hfe, hcm, hp, hq, hl, hrest⟩ := hw
  have D := denseOK_run hb hrun hd
  rw [h3] at D
  refine ⟨st, hrun, ⟨D.presents, ?_, ?_, cc, hcl, hcm, fun r hr => hl r (List.mem_range.2 hr)⟩, hfe, hcl, ?_, hrest⟩
  · rw [hfe]; decide
  · intro a ha r hr
    rw [hfe] at ha
    simp only [List.mem_cons, List.not_mem_nil, or_false] at ha
    rcases ha with rfl | rfl
    · exact ⟨_, hp r (List.mem_range.2 hr)⟩
    · exact ⟨_, hq r (List.mem_range.2 hr)⟩
  · intro r hr
    rcases (by omega : r = 0 ∨ r = 1 ∨ r = 2) with rfl | rfl | rfl
    · exact ⟨0, by decide, rfl, b1, by rw [hfe]; simp, by rw [Grid.hasFeature, hp 0 (by decide)]; decide⟩
    · exact ⟨0, by decide, rfl, b1, by rw [hfe]; simp, by rw [Grid.hasFeature, hp 0 (by decide)]; decide⟩
    · exact ⟨2, by decide, rfl, b2, by rw [hfe]; simp, by rw [Grid.hasFeature, hq 2 (by decide)]; decide⟩

/-- The example meets the hypotheses of `C68_trains_partial`, and the fraction for the first class and feature is
`(2 + 1) / (2 + 1)`, that for the second feature `(0 + 1) / (2 + 1)`. -/
example : ∃ st : St, BinaryData nbFloats (.dense st.d) 3 nbLab ∧ (∀ r, r < 3 → ClassHasFeature (.dense st.d) 3 nbLab (nbLab r)) ∧
    smoothed (.dense st.d) 3 nbLab "x" ⟨0, .bin "p"⟩ = (1 : Rat) ∧
    smoothed (.dense st.d) 3 nbLab "x" ⟨1, .bin "q"⟩ = (1 / 3 : Rat) := by
  obtain ⟨st, _, D, _, _, h, e1, e2, e3, _⟩ := nb_example
  refine ⟨st, D, h, ?_, ?_⟩
  · rw [smoothed, e1, e2]; norm_num
  · rw [smoothed, e1, e3]; norm_num

/-- The only row of class `y` has no feature: training panics, so the whole claim is false. -/
theorem C68_not_always : ¬ C68_trains_always Rat := by
  intro hall
  have hw : ∃ st, run 4096 ops2 = Res.ok st ∧ (∀ op ∈ ops2, basicOp op = true) ∧
      (addedAttrs ops2).Pairwise (fun a b => a.equals b = false) ∧ totalRows ops2 = 3 ∧
      st.d.allClassAttributes = [cc] ∧ (Grid.dense st.d).nonClass = [b1, b2] ∧ cc ∈ st.d.allAttributes ∧
      (∀ r ∈ List.range 3, (Grid.dense st.d).cell b1 r = [if r = 2 then 0#8 else 1#8]) ∧
      (∀ r ∈ List.range 3, (Grid.dense st.d).cell b2 r = [0#8]) ∧
      (∀ r ∈ List.range 3, cc.getString nbFloats ((Grid.dense st.d).cell cc r) = Res.ok (nbLab r)) := by
    refine ⟨_, rfl, ?_, ?_, ?_, ?_, ?_, ?_, ?_, ?_, ?_⟩
    all_goals decide +kernel
  obtain ⟨st, hrun, hb, hd, h3, hcl, hfe, hcm, hp, hq, hl⟩ := hw
  have D := denseOK_run hb hrun hd
  rw [h3] at D
  have B : BinaryData nbFloats (.dense st.d) 3 nbLab := by
    refine ⟨D.presents, ?_, ?_, cc, hcl, hcm, fun r hr => hl r (List.mem_range.2 hr)⟩
    · rw [hfe]; decide
    · intro a ha r hr
      rw [hfe] at ha
      simp only [List.mem_cons, List.not_mem_nil, or_false] at ha
      rcases ha with rfl | rfl
      · exact ⟨_, hp r (List.mem_range.2 hr)⟩
      · exact ⟨_, hq r (List.mem_range.2 hr)⟩
  have h := hall nbFloats _ 3 nbLab B (fun l => l) (fun l => List.Perm.refl l) _ (someOrder_rowOrder _) (fun l => l)
    (fun l => List.Perm.refl l) []
  have hp' := (nb_fit (K := Rat) B (srt := fun l => l) (fun l => List.Perm.refl l) (someOrder_rowOrder _)
    (ordC := fun l => l) (fun l => List.Perm.refl l) []).2 (by rw [hfe]; simp) 2 (by decide) (by
      rintro ⟨r, hr, hk, a, ha, hf⟩
      have hr2 : r = 2 := by
        by_contra hne
        rw [nbLab, if_neg hne] at hk
        revert hk; decide
      subst hr2
      rw [hfe] at ha
      simp only [List.mem_cons, List.not_mem_nil, or_false] at ha
      rcases ha with rfl | rfl
      · rw [Grid.hasFeature, hp 2 (by decide)] at hf; revert hf; decide
      · rw [Grid.hasFeature, hq 2 (by decide)] at hf; revert hf; decide)
  rw [hp'] at h
  cases h

/-- A data set with a feature that is not binary is rejected, and so is one with no class attribute. -/
example : ∃ st, run 4096 [.add ⟨0, .float "a" 2⟩, .add cc, .addClass cc] = Res.ok st ∧
    ∃ a ∈ (Grid.dense st.d).nonClass, a.isBin = false := by
  refine ⟨_, rfl, ?_⟩
  decide +kernel
end Examples

end Golearn
