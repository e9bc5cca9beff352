import Verif.Proofs.RuleExamples
import Verif.Props.C47
import Verif.Props.C48

/-! # C50: rule generators choose the test with the greatest gain -/

namespace Golearn

section
variable {K : Type} [Field K] [LinearOrder K] [IsStrictOrderedRing K]

/-- The attributes other than the class attribute. -/
def Grid.features (g : Grid) (cls : Attr) : List Attr := g.allAttributes.filter fun a => decide (a ≠ cls)

omit [IsStrictOrderedRing K] in
theorem cands_mem {e : RuleEnv K} (E : e.Ok) {g : Grid} {cls : Attr} (hc : g.allClassAttributes = [cls]) (a : Attr) :
    a ∈ e.cands g.normalAttrs ↔ a ∈ g.features cls := by
  have := (C27_references g.allAttributes g.allClassAttributes _ _ (List.Perm.refl _) (List.Perm.refl _)).2.2.2 a
  rw [hc, List.mem_singleton] at this
  rw [(E.cands _).mem_iff, Grid.normalAttrs, hc, this, Grid.features, List.mem_filter, decide_eq_true_eq]

omit [IsStrictOrderedRing K] in
theorem cands_ne {e : RuleEnv K} (E : e.Ok) {g : Grid} {n : Nat} {lab : Nat → String} {cls : Attr}
    (D : TreeData e.fo g n lab cls) : e.cands g.normalAttrs ≠ [] := by
  intro h
  have hall : ∀ a ∈ g.allAttributes, a = cls := by
    intro a ha
    by_contra hne
    have := (cands_mem E D.classAttr a).2 (List.mem_filter.2 ⟨ha, by simpa using hne⟩)
    rw [h] at this; cases this
  have hn := distinct_nodup D.distinct
  have hw := D.wide
  match hl : g.allAttributes, hw with
  | x :: y :: rest, _ =>
    rw [hl] at hall hn
    have h1 := hall x (by simp)
    have h2 := hall y (by simp)
    subst h1
    simp [h2] at hn

theorem isTest_congr {fo : FloatOps} {val : U64 → K} {g : Grid} {n : Nat} {as bs : List Attr} (h : ∀ a, a ∈ as ↔ a ∈ bs)
    (key : Nat → String) : g.IsTest fo val n as key ↔ g.IsTest fo val n bs key := by
  unfold Grid.IsTest
  constructor
  · rintro ⟨a, ha, h'⟩; exact ⟨a, (h a).1 ha, h'⟩
  · rintro ⟨a, ha, h'⟩; exact ⟨a, (h a).2 ha, h'⟩

/-- The generator answers. With a rule, the rule tests an attribute other than the class attribute, groups the rows by it
with no empty side, and no other test of any attribute scores higher. With no rule, there is no test. -/
def ChoosesBest (fo : FloatOps) (val : U64 → K) {V : Type} [LE V] (score : (Nat → String) → V) (g : Grid) (n : Nat)
    (as : List Attr) (answer : Res (Option Rule)) : Prop :=
  ∃ r, answer = Res.ok r ∧ (r = none → ∀ key, ¬ g.IsTest fo val n as key) ∧
    ∀ rule, r = some rule → rule.attr ∈ as ∧ g.IsTest fo val n as (g.branch fo rule) ∧
      ∀ key, g.IsTest fo val n as key → score key ≤ score (g.branch fo rule)

theorem choosesBest_congr {fo : FloatOps} {val : U64 → K} {V : Type} [LE V] {score : (Nat → String) → V} {g : Grid}
    {n : Nat} {as bs : List Attr} {answer : Res (Option Rule)} (h : ∀ a, a ∈ as ↔ a ∈ bs)
    (hc : ChoosesBest fo val score g n as answer) : ChoosesBest fo val score g n bs answer := by
  obtain ⟨r, h1, h2, h3⟩ := hc
  refine ⟨r, h1, fun hr key hk => h2 hr key ((isTest_congr h key).2 hk), ?_⟩
  intro rule hr
  obtain ⟨i1, i2, i3⟩ := h3 rule hr
  exact ⟨(h _).1 i1, (isTest_congr h _).1 i2, fun key hk => i3 key ((isTest_congr h key).2 hk)⟩

/-- For all training data whose float columns hold exact numbers with no repeats, the generator of information gain
chooses a test with the greatest gain among all tests of all attributes and all thresholds. What is missing is data with
repeated numbers: the claim is then false, see `C50_repeats_break`. -/
theorem C50_information_gain_partial (e : RuleEnv K) (E : e.Ok) (g : Grid) (n : Nat) (lab : Nat → String) (cls : Attr)
    (D : TreeData e.fo g n lab cls) (val : U64 → K) (S : U64 → Prop) (X : g.ExactCells e n val S) (N : g.NoRepeats n val) :
    ChoosesBest e.fo val (fun key => gainOf e.lg lab key n) g n (g.features cls) (infoGain e g) :=
  choosesBest_congr (cands_mem E D.classAttr)
    (infoGainFrom_spec E D X N _ (fun a ha => (List.mem_filter.1 ((cands_mem E D.classAttr a).1 ha)).1) (cands_ne E D))

/-- The same for what the code calls the gain ratio, for rows with different labels. -/
theorem C50_gain_ratio_partial (e : RuleEnv K) (E : e.Ok) (g : Grid) (n : Nat) (lab : Nat → String) (cls : Attr)
    (D : TreeData e.fo g n lab cls) (val : U64 → K) (S : U64 → Prop) (X : g.ExactCells e n val S) (N : g.NoRepeats n val)
    (hmix : ∃ p q, p < n ∧ q < n ∧ lab p ≠ lab q) :
    ChoosesBest e.fo val (fun key => ratioOf e.lg lab key n) g n (g.features cls) (gainRatioRule e g) :=
  choosesBest_congr (cands_mem E D.classAttr)
    (gainRatioFrom_spec E D X N hmix _ (fun a ha => (List.mem_filter.1 ((cands_mem E D.classAttr a).1 ha)).1)
      (cands_ne E D))

/-- If no attribute is numeric nothing is missing: a rule is always found, and it has the greatest gain among the
attributes. -/
theorem C50_categorical (e : RuleEnv K) (E : e.Ok) (g : Grid) (n : Nat) (lab : Nat → String) (cls : Attr)
    (D : TreeData e.fo g n lab cls) (hcat : ∀ a ∈ g.allAttributes, a.isFloat = false) :
    ∃ rule, infoGain e g = Res.ok (some rule) ∧ rule.attr ∈ g.allAttributes ∧ rule.attr ≠ cls ∧
      ∀ a ∈ g.allAttributes, a ≠ cls →
        gainOf e.lg lab (g.branch e.fo ⟨a, 0⟩) n ≤ gainOf e.lg lab (g.branch e.fo rule) n := by
  have hX : g.ExactCells e n (fun _ => (0 : K)) fun _ => False := by
    have no : ∀ u, ¬ OrMid e.mid (fun _ => False) u := by
      rintro u (h | ⟨_, _, h, _⟩) <;> exact h
    refine ⟨⟨fun u _ h => absurd h (no u), fun u _ h => absurd h (no u), fun _ _ h => h.elim, fun _ _ h => h.elim⟩, ?_⟩
    intro a ha hf
    rw [hcat a ha] at hf; cases hf
  have hN : g.NoRepeats n fun _ => (0 : K) := by
    intro a ha hf
    rw [hcat a ha] at hf; cases hf
  obtain ⟨r, h1, h2, h3⟩ := C50_information_gain_partial e E g n lab cls D _ _ hX hN
  have test : ∀ a ∈ g.allAttributes, a ≠ cls → g.IsTest e.fo (fun _ => (0 : K)) n (g.features cls) (g.branch e.fo ⟨a, 0⟩) :=
    fun a ha hne => ⟨a, List.mem_filter.2 ⟨ha, by simpa using hne⟩, Or.inl ⟨hcat a ha, fun _ _ => rfl⟩⟩
  cases r with
  | none =>
    obtain ⟨a, ha⟩ := List.exists_mem_of_ne_nil _ (cands_ne E D)
    have ha := List.mem_filter.1 ((cands_mem E D.classAttr a).1 ha)
    exact absurd (test a ha.1 (by simpa using ha.2)) (h2 rfl _)
  | some rule =>
    obtain ⟨i1, _, i3⟩ := h3 rule rfl
    have hm := List.mem_filter.1 i1
    exact ⟨rule, h1, hm.1, by simpa using hm.2, fun a ha hne => i3 _ (test a ha hne)⟩

/-! ## Building trees with these generators -/

theorem localEntropy_total {e : RuleEnv K} (E : e.Ok) {g : Grid} {n : Nat} {lab : Nat → String} {cls : Attr}
    (D : TreeData e.fo g n lab cls) {val : U64 → K} {S : U64 → Prop} (X : g.ExactCells e n val S)
    {a : Attr} (ha : a ∈ g.allAttributes) : ∃ p, localEntropy e g a = Res.ok p := by
  by_cases hf : a.isFloat = true
  · obtain ⟨o, ho⟩ := numericEntropy_total E D X ha hf
    cases o with
    | none => exact ⟨(none, posInf), by simp only [localEntropy, hf, if_true, ho, Res.map_ok]⟩
    | some p => exact ⟨(some p.1, p.2), by simp only [localEntropy, hf, if_true, ho, Res.map_ok]⟩
  · exact ⟨_, localEntropy_cat E D ha (by simpa using hf)⟩

omit [Field K] [LinearOrder K] [IsStrictOrderedRing K] in
theorem pickMax_attr {V : Type} [LinearOrder V] {f : Attr → Res (Option V × U64)} {as : List Attr}
    (h : ∀ a ∈ as, ∃ p, f a = Res.ok p) :
    ∃ l, mapRes (fun a => (f a).map fun p => (a, p.1, p.2)) as = Res.ok l ∧
      ∀ rule, (pickMax l none).map Prod.snd = some rule → rule.attr ∈ as := by
  obtain ⟨l, l1, l2⟩ := mapRes_forall₂ (f := fun a => (f a).map fun p => (a, p.1, p.2)) (R := fun a p => p.1 = a) as (by
    intro a ha
    obtain ⟨p, hp⟩ := h a ha
    exact ⟨(a, p.1, p.2), by rw [hp, Res.map_ok], rfl⟩)
  refine ⟨l, l1, ?_⟩
  intro rule hr
  rw [Option.map_eq_some_iff] at hr
  obtain ⟨⟨v, r⟩, h1, rfl⟩ := hr
  rcases ((pickMax_spec l none).2 v r h1).1 with h | ⟨t, ht, _, rfl⟩
  · cases h
  · obtain ⟨a, ha, he⟩ := forall₂_mem_right l2 t ht
    simpa only [he] using ha

/-- For exact numbers, repeated or not, the generator of information gain answers, and its rule tests an attribute other
than the class attribute. So `C47` and `C48` hold for trees it builds. -/
theorem C50_information_gain_chooses (e : RuleEnv K) (E : e.Ok) (val : U64 → K) (S : U64 → Prop) (X : ExactOn e val S) :
    ChoosesAttribute e.fo S (infoGain e) := by
  intro g n lab cls D hS
  have hsub : ∀ a ∈ e.cands g.normalAttrs, a ∈ g.allAttributes ∧ a ≠ cls := by
    intro a ha
    have := List.mem_filter.1 ((cands_mem E D.classAttr a).1 ha)
    exact ⟨this.1, by simpa using this.2⟩
  obtain ⟨d, d1, _⟩ := baseEntropy_data (K := K) D
  obtain ⟨l, l1, l2⟩ := pickMax_attr (f := fun a => (localEntropy e g a).map fun p => (subO (baseEntropy e.lg d) p.1, p.2))
    (as := e.cands g.normalAttrs) (by
      intro a ha
      obtain ⟨p, hp⟩ := localEntropy_total E D ⟨X, hS⟩ (hsub a ha).1
      exact ⟨_, by rw [hp, Res.map_ok]⟩)
  refine ⟨(pickMax l none).map Prod.snd, ?_, fun rule hr => hsub _ (l2 rule hr)⟩
  have hne := cands_ne E D
  unfold infoGain infoGainFrom
  cases hl : e.cands g.normalAttrs with
  | nil => exact absurd hl hne
  | cons a as =>
    rw [hl] at l1
    simp only [d1, Res.bind_ok]
    have : (fun a => (localEntropy e g a).map fun p => (a, subO (baseEntropy e.lg d) p.1, p.2)) =
        fun a => ((localEntropy e g a).map fun p => (subO (baseEntropy e.lg d) p.1, p.2)).map fun p => (a, p.1, p.2) := by
      funext a
      cases localEntropy e g a <;> rfl
    rw [this, l1, Res.map_ok]

theorem C50_gain_ratio_chooses (e : RuleEnv K) (E : e.Ok) (val : U64 → K) (S : U64 → Prop) (X : ExactOn e val S) :
    ChoosesAttribute e.fo S (gainRatioRule e) := by
  intro g n lab cls D hS
  have hsub : ∀ a ∈ e.cands g.normalAttrs, a ∈ g.allAttributes ∧ a ≠ cls := by
    intro a ha
    have := List.mem_filter.1 ((cands_mem E D.classAttr a).1 ha)
    exact ⟨this.1, by simpa using this.2⟩
  obtain ⟨d, d1, _⟩ := baseEntropy_data (K := K) D
  obtain ⟨l, l1, l2⟩ := pickMax_attr (f := fun a => (localEntropy e g a).map fun p => (gainRatio (baseEntropy e.lg d) p.1, p.2))
    (as := e.cands g.normalAttrs) (by
      intro a ha
      obtain ⟨p, hp⟩ := localEntropy_total E D ⟨X, hS⟩ (hsub a ha).1
      exact ⟨_, by rw [hp, Res.map_ok]⟩)
  refine ⟨(pickMax l none).map Prod.snd, ?_, fun rule hr => hsub _ (l2 rule hr)⟩
  have hne := cands_ne E D
  unfold gainRatioRule gainRatioFrom
  cases hl : e.cands g.normalAttrs with
  | nil => exact absurd hl hne
  | cons a as =>
    rw [hl] at l1
    simp only [d1, Res.bind_ok]
    have : (fun a => (localEntropy e g a).map fun p => (a, gainRatio (baseEntropy e.lg d) p.1, p.2)) =
        fun a => ((localEntropy e g a).map fun p => (gainRatio (baseEntropy e.lg d) p.1, p.2)).map fun p => (a, p.1, p.2) := by
      funext a
      cases localEntropy e g a <;> rfl
    rw [this, l1, Res.map_ok]

/-- So trees grown with information gain fit their training data, for all data with exact numbers. -/
theorem C50_trees_fit (e : RuleEnv K) (E : e.Ok) (val : U64 → K) (S : U64 → Prop) (X : ExactOn e val S)
    (srt : List Spec → List Spec) (hs : ∀ l, (srt l).Perm l) (order : List String → Grid → List Nat)
    (ho : ∀ p (g : Grid), g.RowOrder (order p g)) (classes : List String → List String → List String)
    (hc : ∀ p l, (classes p l).Perm l) (g : Grid) (n : Nat) (lab : Nat → String) (cls : Attr)
    (D : TreeData e.fo g n lab cls) (hS : g.FloatsIn n S) :
    ∃ t, inferID3 ⟨e.fo, srt, order, classes, fun _ => infoGain e⟩ g = Res.ok t ∧
      t.Fits (g.branch e.fo) lab (List.range n) ∧ t.AllRules fun r => r.attr ∈ g.allAttributes ∧ r.attr ≠ cls :=
  C48_fits ⟨e.fo, srt, order, classes, fun _ => infoGain e⟩ S
    ⟨hs, ho, hc, fun _ => C50_information_gain_chooses e E val S X⟩ g n lab cls D hS

/-! ## What goes wrong -/

omit [IsStrictOrderedRing K] in
/-- NaN: if the first midpoint compares as neither equal nor greater to anything, the scan never ends, however many turns
it is given. -/
theorem C50_nan_never_ends (e : RuleEnv K) (cs : List String) (p q : U64 × String) (rest : List (U64 × String))
    (hne : ∀ v, e.feq (e.mid p.1 q.1) v = false) (hgt : ∀ v, e.fo.gt (e.mid p.1 q.1) v = false) (fuel : Nat) :
    scanLoop e cs (p :: q :: rest) fuel 0 none (p :: q :: rest) (fun _ => 0)
      ((p :: q :: rest).foldl (fun s x => bump s x.2) fun _ => 0) none = Res.panic := by
  have key : ∀ fuel prev r l l' best, scanLoop e cs (p :: q :: rest) fuel 0 prev r l l' best = Res.panic := by
    intro fuel
    induction fuel with
    | zero => intros; rfl
    | succ fuel ih =>
      intro prev r l l' best
      rw [scanLoop]
      simp only [List.getElem?_cons_zero, Nat.zero_add, List.getElem?_cons_succ]
      have hm : (r.takeWhile fun x => e.fo.gt (e.mid p.1 q.1) x.1) = [] := by
        cases r with
        | nil => rfl
        | cons x xs => rw [List.takeWhile_cons, hgt]; rfl
      cases prev with
      | none => simp only [Bool.false_eq_true, if_false, hm, List.length_nil]; exact ih _ _ _ _ _
      | some v => simp only [hne, Bool.false_eq_true, if_false, hm, List.length_nil]; exact ih _ _ _ _ _
  exact key _ _ _ _ _ _

end

/-- The whole claim: greatest gain for all training data with exact numbers. -/
def C50_full : Prop :=
  ∀ (K : Type) [Field K] [LinearOrder K] [IsStrictOrderedRing K] (e : RuleEnv K) (_ : e.Ok) (g : Grid) (n : Nat)
    (lab : Nat → String) (cls : Attr) (_ : TreeData e.fo g n lab cls) (val : U64 → K) (S : U64 → Prop)
    (_ : g.ExactCells e n val S),
    ChoosesBest e.fo val (fun key => gainOf e.lg lab key n) g n (g.features cls) (infoGain e g)

section Examples
private def fo0 : FloatOps := ⟨fun _ _ => "", fun u v => decide (v.toNat < u.toNat)⟩
private def aX : Attr := ⟨0, .float "x" 2⟩
private def aY : Attr := ⟨1, .cat "y" ["red", "green", "blue"]⟩
private def aC : Attr := ⟨2, .cat "c" ["a", "b"]⟩
private def opsT : List Op :=
  [.add aX, .add aY, .add aC, .addClass aC, .extend 4, .set 0 0 (packU64 2), .set 0 1 (packU64 4),
   .set 0 2 (packU64 8), .set 0 3 (packU64 16), .set 1 1 (packU64 1), .set 2 2 (packU64 1)]

/-- The hypotheses hold for four rows with a float and a categorical attribute, with logarithms to the base two. -/
example : ∃ tr, run 4096 opsT = Res.ok tr ∧ (exEnv (Real.logb 2)).Ok ∧
    TreeData fo0 (.dense tr.d) 4 (fun r => ["a", "a", "b", "a"].getD r "") aC ∧
    (Grid.dense tr.d).ExactCells (exEnv (Real.logb 2)) 4 natVal (fun u => u.toNat % 2 = 0) ∧
    (Grid.dense tr.d).NoRepeats 4 (natVal (K := ℝ)) := by
  have e : ((run 4096 opsT).map fun tr =>
      (treeCheck fo0 tr.d 4 ["a", "a", "b", "a"] aC, evenCheck tr.d 4, repeatCheck tr.d 4)) =
      Res.ok (true, true, true) := by decide +kernel
  obtain ⟨tr, htr, e⟩ := Res.map_eq_ok.1 e
  simp only [Prod.mk.injEq] at e
  have Dt := denseOK_run (pg := 4096) (ops := opsT) (by decide) htr (by decide)
  exact ⟨tr, htr, exEnv_ok logb_logarithm, treeData_dense Dt e.1, ⟨exEnv_exact _, floatsIn_even e.2.1⟩,
    noRepeats_check (floatsIn_even e.2.1) e.2.2⟩

private def aZ : Attr := ⟨3, .cat "z" ["p", "q"]⟩
private def opsC : List Op :=
  [.add aY, .add aZ, .add aC, .addClass aC, .extend 3, .set 0 1 (packU64 1), .set 1 2 (packU64 1), .set 2 2 (packU64 1)]
/-- The hypotheses of the categorical case hold for three rows. -/
example : ∃ tr, run 4096 opsC = Res.ok tr ∧
    TreeData fo0 (.dense tr.d) 3 (fun r => ["a", "a", "b"].getD r "") aC ∧
    ∀ a ∈ (Grid.dense tr.d).allAttributes, a.isFloat = false := by
  have e : ((run 4096 opsC).map fun tr =>
      (treeCheck fo0 tr.d 3 ["a", "a", "b"] aC, tr.d.allAttributes.all fun a => !a.isFloat)) =
      Res.ok (true, true) := by decide +kernel
  obtain ⟨tr, htr, e⟩ := Res.map_eq_ok.1 e
  simp only [Prod.mk.injEq] at e
  have Dt := denseOK_run (pg := 4096) (ops := opsC) (by decide) htr (by decide)
  refine ⟨tr, htr, treeData_dense Dt e.1, ?_⟩
  intro a ha
  have := List.all_eq_true.1 e.2 a ha
  simpa using this

/-- What the generator answers when there is one attribute besides the class attribute. -/
private theorem one_attr {K : Type} [Field K] [LinearOrder K] [IsStrictOrderedRing K] {e : RuleEnv K} {g : Grid} {n : Nat}
    {lab : Nat → String} (D : TreeData e.fo g n lab aC) (hc : e.cands g.normalAttrs = [aX]) {s : K} {t : U64}
    (h : numericEntropy e g aX = Res.ok (some (s, t))) : infoGain e g = Res.ok (some ⟨aX, t⟩) := by
  obtain ⟨d, d1, d2⟩ := baseEntropy_data (K := K) D
  unfold infoGain infoGainFrom
  rw [hc]
  simp only [d1, Res.bind_ok, mapRes, localEntropy, h, Res.map_ok, d2]
  rfl

/-- Whether a row is above a threshold, from the bits of its cell. -/
private theorem above_bits {g : Grid} {n : Nat} {S : U64 → Prop} (hS : g.FloatsIn n S) (ha : aX ∈ g.allAttributes) (t : Nat)
    {q : Nat} (hq : q < n) :
    g.above (natVal (K := ℝ)) aX t q = if t < (g.bitsAt aX q).toNat then "1" else "0" := by
  obtain ⟨u, hu, _⟩ := hS aX ha rfl q hq
  simp only [Grid.above, Grid.number, hu, natVal, Nat.cast_lt, Grid.bitsAt]

private theorem branch_bits {lg : ℝ → ℝ} {g : Grid} {n : Nat} {S : U64 → Prop} (hS : g.FloatsIn n S)
    (ha : aX ∈ g.allAttributes) (t : U64) {q : Nat} (hq : q < n) :
    g.branch (exEnv lg).fo ⟨aX, t⟩ q = if t.toNat < (g.bitsAt aX q).toNat then "1" else "0" := by
  obtain ⟨u, hu, _⟩ := hS aX ha rfl q hq
  have hf : aX.isFloat = true := rfl
  simp only [Grid.branch, hf, if_true, hu, Grid.bitsAt, exEnv, decide_eq_true_eq]

/-! The witness against the whole claim: the values 2, 2, 4, 6 with the classes a, a, a, b. The scan looks at 3 and stops;
it never looks at 5, which separates the classes. -/
private def opsR : List Op :=
  [.add aX, .add aC, .addClass aC, .extend 4, .set 0 0 (packU64 2), .set 0 1 (packU64 2),
   .set 0 2 (packU64 4), .set 0 3 (packU64 6), .set 1 3 (packU64 1)]

private theorem scanR (lg : ℝ → ℝ) : ∃ s, scanLoop (exEnv lg) ["a", "b"] [(2, "a"), (2, "a"), (4, "a"), (6, "b")] 9 0 none
    [(2, "a"), (2, "a"), (4, "a"), (6, "b")] (fun _ => 0)
    ([((2 : U64), "a"), (2, "a"), (4, "a"), (6, "b")].foldl (fun s x => bump s x.2) fun _ => 0) none =
    Res.ok (some (s, 3)) := ⟨_, rfl⟩

/-- With repeated numbers the claim fails. -/
theorem C50_repeats_break : ¬ C50_full := by
  intro hfull
  have e : ((run 4096 opsR).bind fun tr =>
      (numericRefs fo0 (fun l => l.insertionSort fun p q => p.1.toNat ≤ q.1.toNat) (someOrder (.dense tr.d)) (.dense tr.d)
        aX).map fun x =>
      [treeCheck fo0 tr.d 4 ["a", "a", "a", "b"] aC, evenCheck tr.d 4,
        decide (x = ([(2, "a"), (2, "a"), (4, "a"), (6, "b")], ["a", "b"])), decide ((Grid.dense tr.d).normalAttrs = [aX]),
        decide (((List.range 4).map fun r => ((Grid.dense tr.d).bitsAt aX r).toNat) = [2, 2, 4, 6])]) =
      Res.ok [true, true, true, true, true] := by
    decide +kernel
  obtain ⟨tr, htr, e⟩ := Res.bind_eq_ok.1 e
  obtain ⟨x, e3, e⟩ := Res.map_eq_ok.1 e
  simp only [List.cons.injEq, decide_eq_true_eq, and_true] at e
  obtain ⟨e1, e2, rfl, e4, e5⟩ := e
  have Dt := denseOK_run (pg := 4096) (ops := opsR) (by decide) htr (by decide)
  have D := treeData_dense Dt e1
  have E := exEnv_ok logb_logarithm
  have hS := floatsIn_even e2
  obtain ⟨s, hs⟩ := scanR (Real.logb 2)
  have hnum : numericEntropy (exEnv (Real.logb 2)) (.dense tr.d) aX = Res.ok (some (s, 3)) := by
    have : numericRefs (exEnv (Real.logb 2)).fo (exEnv (Real.logb 2)).sortRefs ((exEnv (Real.logb 2)).order (.dense tr.d))
        (.dense tr.d) aX = _ := e3
    unfold numericEntropy
    rw [this, Res.bind_ok]
    exact hs
  have hans := one_attr (e := exEnv (Real.logb 2)) D e4 hnum
  obtain ⟨r, h1, _, h3⟩ := hfull ℝ _ E (.dense tr.d) 4 _ aC D natVal _ ⟨exEnv_exact _, hS⟩
  rw [hans] at h1
  cases h1
  obtain ⟨hX, _, h4⟩ := h3 _ rfl
  have haX := (List.mem_filter.1 hX).1
  have bits : ∀ q, q < 4 → ((Grid.dense tr.d).bitsAt aX q).toNat = [2, 2, 4, 6].getD q 0 := by
    intro q hq
    rw [← e5]
    simp [List.getD, hq]
  have hab : ∀ q, q < 4 → (Grid.dense tr.d).above (natVal (K := ℝ)) aX ((5 : Nat) : ℝ) q =
      if 5 < [2, 2, 4, 6].getD q 0 then "1" else "0" := by
    intro q hq
    rw [above_bits hS haX 5 hq, bits q hq]
  have hbr : ∀ q, q < 4 → (Grid.dense tr.d).branch (exEnv (Real.logb 2)).fo ⟨aX, 3⟩ q =
      if 3 < [2, 2, 4, 6].getD q 0 then "1" else "0" := by
    intro q hq
    rw [branch_bits hS haX 3 hq, bits q hq]
    rfl
  have h5 := h4 _ ⟨aX, hX, Or.inr ⟨rfl, ((5 : Nat) : ℝ), fun _ _ => rfl, ⟨0, by decide, by rw [hab 0 (by decide)]; rfl⟩,
    3, by decide, by rw [hab 3 (by decide)]; rfl⟩⟩
  have z : condEntropy (Real.logb 2) (fun r => ["a", "a", "a", "b"].getD r "")
      ((Grid.dense tr.d).above (natVal (K := ℝ)) aX ((5 : Nat) : ℝ)) 4 = 0 := by
    rw [condEntropy_congr _ hab]
    have : ∀ p, p < 4 → ∀ q, q < 4 →
        ((if 5 < [2, 2, 4, 6].getD p 0 then "1" else "0") = if 5 < [2, 2, 4, 6].getD q 0 then "1" else "0") →
          ["a", "a", "a", "b"].getD p "" = ["a", "a", "a", "b"].getD q "" := by decide
    exact condEntropy_zero logb_logarithm fun p q hp hq => this p hp q hq
  have pz : 0 < condEntropy (Real.logb 2) (fun r => ["a", "a", "a", "b"].getD r "")
      ((Grid.dense tr.d).branch (exEnv (Real.logb 2)).fo ⟨aX, 3⟩) 4 := by
    rw [condEntropy_congr _ hbr]
    exact condEntropy_pos logb_logarithm (p := 2) (q := 3) (by decide) (by decide) (by decide) (by decide)
  simp only [gainOf] at h5
  have : (exEnv (Real.logb 2)).lg = Real.logb 2 := rfl
  rw [this] at h5
  linarith

/-! The second witness: the values 2, 2, 4, 6, 6 with the classes a, a, a, b, b. The scan compares values with the midpoint
by `<`, so the midpoint 6 of 6 and 6 seems to separate the classes; but the tree sends a row to the second branch only if its
value is above the threshold, and no value is above 6. -/
private def opsS : List Op :=
  [.add aX, .add aC, .addClass aC, .extend 5, .set 0 0 (packU64 2), .set 0 1 (packU64 2),
   .set 0 2 (packU64 4), .set 0 3 (packU64 6), .set 0 4 (packU64 6), .set 1 3 (packU64 1), .set 1 4 (packU64 1)]

private theorem scanS {lg : ℝ → ℝ} (hlg : Logarithm lg) :
    scanLoop (exEnv lg) ["a", "b"] [(2, "a"), (2, "a"), (4, "a"), (6, "b"), (6, "b")] 11 0 none
      [(2, "a"), (2, "a"), (4, "a"), (6, "b"), (6, "b")] (fun _ => 0)
      ([((2 : U64), "a"), (2, "a"), (4, "a"), (6, "b"), (6, "b")].foldl (fun s x => bump s x.2) fun _ => 0) none =
    Res.ok (some (twoEntropy lg ["a", "a", "a"] ["b", "b"] 5, 6)) := by
  have hcs : ["a", "b"].Nodup := by decide
  have first : scanLoop (exEnv lg) ["a", "b"] [(2, "a"), (2, "a"), (4, "a"), (6, "b"), (6, "b")] 11 0 none
      [(2, "a"), (2, "a"), (4, "a"), (6, "b"), (6, "b")] (fun _ => 0)
      ([((2 : U64), "a"), (2, "a"), (4, "a"), (6, "b"), (6, "b")].foldl (fun s x => bump s x.2) fun _ => 0) none =
      scanLoop (exEnv lg) ["a", "b"] [(2, "a"), (2, "a"), (4, "a"), (6, "b"), (6, "b")] 9 1 (some 2)
      [(2, "a"), (2, "a"), (4, "a"), (6, "b"), (6, "b")] (fun _ => 0)
      ([((2 : U64), "a"), (2, "a"), (4, "a"), (6, "b"), (6, "b")].foldl (fun s x => bump s x.2) fun _ => 0) none := rfl
  rw [first]
  have s1 : splitEntropyFast lg ["a", "b"] (bump (bump (fun _ => 0) "a") "a")
      (drop1 (drop1 ([((2 : U64), "a"), (2, "a"), (4, "a"), (6, "b"), (6, "b")].foldl (fun s x => bump s x.2) fun _ => 0) "a") "a") =
      some (twoEntropy lg ["a", "a"] ["a", "b", "b"] 5) := by
    refine splitEntropyFast_spec hlg hcs (a := ["a", "a"]) (b := ["a", "b", "b"]) (by decide) (by decide) ?_ ?_ (by decide)
    · intro c
      by_cases h : c = "a"
      · subst h; rfl
      · simp [bump, h, List.count_cons, Ne.symm h]
    · intro c
      by_cases h : c = "a"
      · subst h; rfl
      · by_cases h' : c = "b"
        · subst h'; rfl
        · simp [drop1, bump, h, h', List.count_cons, Ne.symm h, Ne.symm h']
  have s2 : splitEntropyFast lg ["a", "b"] (bump (bump (bump (fun _ => 0) "a") "a") "a")
      (drop1 (drop1 (drop1 ([((2 : U64), "a"), (2, "a"), (4, "a"), (6, "b"), (6, "b")].foldl (fun s x => bump s x.2) fun _ => 0)
        "a") "a") "a") =
      some (twoEntropy lg ["a", "a", "a"] ["b", "b"] 5) := by
    refine splitEntropyFast_spec hlg hcs (a := ["a", "a", "a"]) (b := ["b", "b"]) (by decide) (by decide) ?_ ?_ (by decide)
    · intro c
      by_cases h : c = "a"
      · subst h; rfl
      · simp [bump, h, List.count_cons, Ne.symm h]
    · intro c
      by_cases h : c = "a"
      · subst h; rfl
      · by_cases h' : c = "b"
        · subst h'; rfl
        · simp [drop1, bump, h, h', List.count_cons, Ne.symm h, Ne.symm h']
  have hlt : twoEntropy lg ["a", "a", "a"] ["b", "b"] 5 < twoEntropy lg ["a", "a"] ["a", "b", "b"] 5 := by
    have z1 : entropyOf lg ["a", "a", "a"] = 0 := entropyOf_pure hlg (c := "a") (by decide)
    have z2 : entropyOf lg ["b", "b"] = 0 := entropyOf_pure hlg (c := "b") (by decide)
    have z3 : entropyOf lg ["a", "a"] = 0 := entropyOf_pure hlg (c := "a") (by decide)
    have z4 : 0 < entropyOf lg ["a", "b", "b"] := entropyOf_pos hlg (c := "a") (d := "b") (by decide) (by decide) (by decide)
    simp only [twoEntropy, z1, z2, z3, mul_zero, add_zero, zero_add]
    exact mul_pos (by norm_num) z4
  have m1 : ([((2 : U64), "a"), (2, "a"), (4, "a"), (6, "b"), (6, "b")].takeWhile fun x =>
      (exEnv lg).fo.gt ((exEnv lg).mid 2 4) x.1) = [(2, "a"), (2, "a")] := rfl
  have m2 : ([((4 : U64), "a"), (6, "b"), (6, "b")].takeWhile fun x =>
      (exEnv lg).fo.gt ((exEnv lg).mid 6 6) x.1) = [(4, "a")] := rfl
  have f1 : (exEnv lg).feq ((exEnv lg).mid 2 4) 2 = false := rfl
  have f2 : (exEnv lg).feq ((exEnv lg).mid 6 6) ((exEnv lg).mid 2 4) = false := rfl
  have l1 : (exEnv lg).lg = lg := rfl
  generalize ([((2 : U64), "a"), (2, "a"), (4, "a"), (6, "b"), (6, "b")].foldl (fun s x => bump s x.2) fun _ => 0) = R0 at *
  have next : scanLoop (exEnv lg) ["a", "b"] [(2, "a"), (2, "a"), (4, "a"), (6, "b"), (6, "b")] 9 1 (some 2)
      [(2, "a"), (2, "a"), (4, "a"), (6, "b"), (6, "b")] (fun _ => 0) R0 none =
      scanLoop (exEnv lg) ["a", "b"] [(2, "a"), (2, "a"), (4, "a"), (6, "b"), (6, "b")] 8 3 (some ((exEnv lg).mid 2 4))
      [(4, "a"), (6, "b"), (6, "b")] (bump (bump (fun _ => 0) "a") "a") (drop1 (drop1 R0 "a") "a")
      (some (twoEntropy lg ["a", "a"] ["a", "b", "b"] 5, (exEnv lg).mid 2 4)) := by
    rw [scanLoop]
    simp only [List.getElem?_cons_succ, List.getElem?_cons_zero, f1, Bool.false_eq_true, if_false, m1, List.foldl_cons,
      List.foldl_nil, l1, s1, List.length_cons, List.length_nil, List.drop_succ_cons, List.drop_zero, Nat.reduceAdd]
  rw [next, scanLoop]
  simp only [List.getElem?_cons_succ, List.getElem?_cons_zero, f2, Bool.false_eq_true, if_false, m2, List.foldl_cons,
    List.foldl_nil, l1, s2, List.length_cons, List.length_nil, List.drop_succ_cons, List.drop_zero, Nat.reduceAdd, hlt,
    if_true]
  rfl

/-- The generator can pick a rule that sends every row down the same branch, although another threshold separates the
classes. -/
theorem C50_threshold_on_value : ∃ (g : Grid) (n : Nat) (lab : Nat → String) (cls : Attr) (rule : Rule) (x : ℝ),
    TreeData (exEnv (Real.logb 2)).fo g n lab cls ∧
    g.ExactCells (exEnv (Real.logb 2)) n natVal (fun u => u.toNat % 2 = 0) ∧
    infoGain (exEnv (Real.logb 2)) g = Res.ok (some rule) ∧
    (∀ q, q < n → g.branch (exEnv (Real.logb 2)).fo rule q = "0") ∧
    ∀ p q, p < n → q < n → (g.above natVal rule.attr x p = g.above natVal rule.attr x q ↔ lab p = lab q) := by
  have e : ((run 4096 opsS).bind fun tr =>
      (numericRefs fo0 (fun l => l.insertionSort fun p q => p.1.toNat ≤ q.1.toNat) (someOrder (.dense tr.d)) (.dense tr.d)
        aX).map fun x =>
      [treeCheck fo0 tr.d 5 ["a", "a", "a", "b", "b"] aC, evenCheck tr.d 5,
        decide (x = ([(2, "a"), (2, "a"), (4, "a"), (6, "b"), (6, "b")], ["a", "b"])),
        decide ((Grid.dense tr.d).normalAttrs = [aX]), decide (aX ∈ tr.d.allAttributes),
        decide (((List.range 5).map fun r => ((Grid.dense tr.d).bitsAt aX r).toNat) = [2, 2, 4, 6, 6])]) =
      Res.ok [true, true, true, true, true, true] := by
    decide +kernel
  obtain ⟨tr, htr, e⟩ := Res.bind_eq_ok.1 e
  obtain ⟨x, e3, e⟩ := Res.map_eq_ok.1 e
  simp only [List.cons.injEq, decide_eq_true_eq, and_true] at e
  obtain ⟨e1, e2, rfl, e4, haX, e5⟩ := e
  have Dt := denseOK_run (pg := 4096) (ops := opsS) (by decide) htr (by decide)
  have D := treeData_dense Dt e1
  have hS := floatsIn_even e2
  have hnum : numericEntropy (exEnv (Real.logb 2)) (.dense tr.d) aX =
      Res.ok (some (twoEntropy (Real.logb 2) ["a", "a", "a"] ["b", "b"] 5, 6)) := by
    have : numericRefs (exEnv (Real.logb 2)).fo (exEnv (Real.logb 2)).sortRefs ((exEnv (Real.logb 2)).order (.dense tr.d))
        (.dense tr.d) aX = _ := e3
    unfold numericEntropy
    rw [this, Res.bind_ok]
    exact scanS logb_logarithm
  have bits : ∀ q, q < 5 → ((Grid.dense tr.d).bitsAt aX q).toNat = [2, 2, 4, 6, 6].getD q 0 := by
    intro q hq
    rw [← e5]
    simp [List.getD, hq]
  refine ⟨.dense tr.d, 5, _, aC, ⟨aX, 6⟩, ((5 : Nat) : ℝ), D, ⟨exEnv_exact _, hS⟩,
    one_attr (e := exEnv (Real.logb 2)) D e4 hnum, ?_, ?_⟩
  · intro q hq
    rw [branch_bits hS haX 6 hq, bits q hq]
    have : ∀ q, q < 5 → (if (6 : U64).toNat < [2, 2, 4, 6, 6].getD q 0 then "1" else "0") = "0" := by decide
    exact this q hq
  · intro p q hp hq
    rw [above_bits hS haX 5 hp, above_bits hS haX 5 hq, bits p hp, bits q hq]
    have : ∀ p, p < 5 → ∀ q, q < 5 →
        (((if 5 < [2, 2, 4, 6, 6].getD p 0 then "1" else "0") = if 5 < [2, 2, 4, 6, 6].getD q 0 then "1" else "0") ↔
          ["a", "a", "a", "b", "b"].getD p "" = ["a", "a", "a", "b", "b"].getD q "") := by decide
    exact this p hp q hq

end Examples

end Golearn
