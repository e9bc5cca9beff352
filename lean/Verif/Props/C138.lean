import Verif.Proofs.EntropyExact
import Verif.Props.C136

/-! # C138: rounding in entropies does not break trees -/

namespace Golearn

/-! ## Whatever the arithmetic -/

/-- For every arithmetic on entropies, rounded or not, with any results for sums, quotients, logarithms and comparisons, and for
every order of iteration: for training data with numbers whose midpoints equal themselves, the generators of information gain,
gain ratio and Gini answer, and the rule tests an attribute other than the class attribute. -/
theorem C138_chooses {F : Type} (e : RuleEnvF F) (E : e.Ok) (S : U64 → Prop)
    (hmid : ∀ u v, S u → S v → e.feq (e.mid u v) (e.mid u v) = true) :
    ChoosesAttribute e.fo S (infoGainF e) ∧ ChoosesAttribute e.fo S (gainRatioRuleF e) ∧ ChoosesAttribute e.fo S (giniRuleF e) := by
  refine ⟨?_, ?_, ?_⟩ <;> intro g n lab cls D hS <;> have hsub := candsF_sub E D.classAttr <;> have hne := candsF_ne E D
  · obtain ⟨r, h1, h2⟩ := infoGainFromF_chooses E hmid D hS _ (fun a ha => (hsub a ha).1) hne
    exact ⟨r, h1, fun rule hr => hsub _ (h2 rule hr)⟩
  · obtain ⟨r, h1, h2⟩ := gainRatioFromF_chooses E hmid D hS _ (fun a ha => (hsub a ha).1) hne
    exact ⟨r, h1, fun rule hr => hsub _ (h2 rule hr)⟩
  · obtain ⟨r, h1, h2⟩ := giniFromF_chooses E hmid D hS _ (fun a ha => (hsub a ha).1) hne
    exact ⟨r, h1, fun rule hr => hsub _ (h2 rule hr)⟩

/-- The same for the generator of random trees, at every node where enough attributes are drawn: its rule tests one of them. -/
theorem C138_random {F : Type} (e : RuleEnvF F) (E : e.Ok) (S : U64 → Prop)
    (hmid : ∀ u v, S u → S v → e.feq (e.mid u v) (e.mid u v) = true) (g : Grid) (n : Nat) (lab : Nat → String) (cls : Attr)
    (D : TreeData e.fo g n lab cls) (hS : g.FloatsIn n S) (want : Nat) (hpos : 0 < want) (draws : List Nat) (sel : List Attr)
    (h : randomAttrs (e.cands g.normalAttrs) want draws [] = Res.ok sel) :
    ∃ r, randomRuleF e want draws g = Res.ok r ∧
      ∀ rule, r = some rule → rule.attr ∈ sel ∧ rule.attr ∈ g.allAttributes ∧ rule.attr ≠ cls := by
  have hsub := candsF_sub E D.classAttr
  obtain ⟨h1, h2, _⟩ := randomAttrs_sound _ want draws [] sel (by simp) (by simp) (by simp) h
  obtain ⟨r, r1, r2⟩ := infoGainFromF_chooses E hmid D hS sel (fun a ha => (hsub a (h2 a ha)).1) (by rintro rfl; simp at h1; omega)
  refine ⟨r, by unfold randomRuleF; rw [h, Res.bind_ok, r1], fun rule hr => ?_⟩
  have := r2 rule hr
  exact ⟨this, hsub _ (h2 _ this)⟩

/-! ## Stored `float64` -/

theorem bits64_not_nan (x : ℚ) : isNaN64 (bits64 x) = false := by
  by_cases h : 2 ^ 1024 ≤ |round64 x|
  · have := (C136_numbers.2.2.2.2 x h).1
    have hm : mag64 (bits64 x) = infMag := by simpa [isInf64] using this
    simp [isNaN64, hm]
  · have := (C136_numbers.2.2.2.1 x (not_le.1 h)).1
    have hm : mag64 (bits64 x) < infMag := by simpa [finite64] using this
    simp only [isNaN64, decide_eq_false_iff_not]
    omega

theorem eq64_self {u : U64} (h : isNaN64 u = false) : eq64 u u = true := by
  unfold eq64 num64
  rw [h, if_neg (by simp)]
  cases isInf64 u <;> simp

/-- The midpoint of two finite numbers may be an infinity, but it is not NaN. -/
theorem C138_midpoint (u v : U64) (hu : finite64 u = true) (hv : finite64 v = true) :
    isNaN64 (mid64 u v) = false ∧ eq64 (mid64 u v) (mid64 u v) = true := by
  have h : isNaN64 (mid64 u v) = false := by
    unfold mid64 half64
    rw [add64_finite hu hv]
    split
    · exact bits64_not_nan _
    · exact bits64_not_nan _
  exact ⟨h, eq64_self h⟩

/-- Trees are built with information gain, gain ratio or Gini, with comparisons and thresholds of `float64` and any arithmetic on
entropies; the arithmetic, the orders of iteration and the sorting may differ from one node to the next. -/
structure MachineTree (fo : FloatOps) (e : TreeEnv) : Prop where
  floats : e.fo = fo
  gt : fo.gt = gt64
  sort : ∀ l, (e.srt l).Perm l
  rowOrder : ∀ p (g : Grid), g.RowOrder (e.order p g)
  classOrder : ∀ p l, (e.classes p l).Perm l
  rule : ∀ p, ∃ (F : Type) (r : RuleEnvF F), r.Ok ∧ r.fo = fo ∧ r.feq = eq64 ∧ r.mid = mid64 ∧
    (e.gen p = infoGainF r ∨ e.gen p = gainRatioRuleF r ∨ e.gen p = giniRuleF r)

theorem MachineTree.ok {fo : FloatOps} {e : TreeEnv} (E : MachineTree fo e) : e.Ok (fun u => finite64 u = true) ∧ e.fo = fo := by
  refine ⟨⟨E.sort, E.rowOrder, E.classOrder, fun p => ?_⟩, E.floats⟩
  obtain ⟨F, r, r1, r2, r3, r4, r5⟩ := E.rule p
  obtain ⟨h1, h2, h3⟩ := C138_chooses r r1 (fun u => finite64 u = true) (by
    intro u v hu hv
    rw [r3, r4]
    exact (C138_midpoint u v hu hv).2)
  rw [E.floats, ← r2]
  rcases r5 with h | h | h <;> rw [h] <;> assumption

/-- So for every table of finite `float64`, categories and labels, with rounded entropies, a tree is built. Each of its nodes
describes the rows that reach it, and its rules test attributes other than the class attribute. -/
theorem C138_fits (fo : FloatOps) (e : TreeEnv) (E : MachineTree fo e) (g : Grid) (n : Nat) (lab : Nat → String) (cls : Attr)
    (D : TreeData fo g n lab cls) (hS : g.FloatsIn n fun u => finite64 u = true) :
    ∃ t, inferID3 e g = Res.ok t ∧ t.Fits (g.branch fo) lab (List.range n) ∧
      t.AllRules fun r => r.attr ∈ g.allAttributes ∧ r.attr ≠ cls := by
  obtain ⟨h1, h2⟩ := E.ok
  subst h2
  exact C48_fits e _ h1 g n lab cls D hS

/-- The condition on the midpoints is needed: with NaN the scan for a threshold never ends, however many turns it is given. -/
theorem C138_nan_never_ends {F : Type} (e : RuleEnvF F) (hgt : e.fo.gt = gt64) (heq : e.feq = eq64) (hmid : e.mid = mid64)
    (cs : List String) (p q : U64 × String) (rest : List (U64 × String)) (hnan : isNaN64 p.1 = true) (best : F × U64) (fuel : Nat) :
    scanLoopF e cs (p :: q :: rest) fuel 0 none (p :: q :: rest) (fun _ => 0)
      ((p :: q :: rest).foldl (fun s x => bump s x.2) fun _ => 0) best = Res.panic := by
  have hm : isNaN64 (e.mid p.1 q.1) = true := by
    rw [hmid]
    unfold mid64 add64 half64
    rw [hnan, Bool.true_or, if_pos rfl]
    decide +kernel
  have hc : ∀ v, e.feq (e.mid p.1 q.1) v = false ∧ e.fo.gt (e.mid p.1 q.1) v = false := by
    intro v
    have := C136_comparisons.2.1 _ v hm
    rw [heq, hgt]
    exact ⟨this.2.2.1, this.1⟩
  have key : ∀ fuel prev r l l' best, scanLoopF e cs (p :: q :: rest) fuel 0 prev r l l' best = Res.panic := by
    intro fuel
    induction fuel with
    | zero => intros; rfl
    | succ fuel ih =>
      intro prev r l l' best
      rw [scanLoopF]
      simp only [List.getElem?_cons_zero, Nat.zero_add, List.getElem?_cons_succ]
      have hm : (r.takeWhile fun x => e.fo.gt (e.mid p.1 q.1) x.1) = [] := by
        cases r with
        | nil => rfl
        | cons x xs => rw [List.takeWhile_cons, (hc _).2]; rfl
      cases prev with
      | none => simp only [Bool.false_eq_true, if_false, hm, List.length_nil]; exact ih _ _ _ _ _
      | some v => simp only [(hc _).1, Bool.false_eq_true, if_false, hm, List.length_nil]; exact ih _ _ _ _ _
  exact key _ _ _ _ _ _

/-! ## Without rounding -/

section
variable {K : Type} [Field K] [LinearOrder K] [IsStrictOrderedRing K]

/-- With exact arithmetic, including the rules for infinities and NaN, and whatever the orders of iteration over maps, the
generators give the rules the theorems on greatest gain are about. -/
theorem C138_exact (e : RuleEnvF (ExtNum K)) (E : e.Ok) (lg ln : K → K) (ha : e.arith = exactArith ln)
    (hl : ∀ x, 0 < x → lg x = ln x / ln 2) (h2 : ln 2 ≠ 0) (g : Grid) :
    infoGainF e g = infoGain (e.exact lg) g ∧ gainRatioRuleF e g = gainRatioRule (e.exact lg) g ∧
    giniRuleF e g = giniRule (e.exact lg) g ∧
    ∀ want draws, randomRuleF e want draws g = randomRule (e.exact lg) want draws g := by
  refine ⟨infoGainFromF_exact E ha hl h2 _ g, gainRatioFromF_exact E ha hl h2 _ g, giniFromF_exact E ha hl h2 _ g, ?_⟩
  intro want draws
  unfold randomRuleF randomRule
  show (randomAttrs (e.cands g.normalAttrs) want draws []).bind _ = (randomAttrs (e.cands g.normalAttrs) want draws []).bind _
  cases randomAttrs (e.cands g.normalAttrs) want draws [] with
  | ok sel => exact infoGainFromF_exact E ha hl h2 sel g
  | err => rfl
  | panic => rfl

end

/-! ## Witnesses -/

section Examples

private def aX : Attr := ⟨0, .float "x" 2⟩
private def aY : Attr := ⟨1, .cat "y" ["red", "green"]⟩
private def aC : Attr := ⟨2, .cat "c" ["a", "b"]⟩
private def big : U64 := 0x7FEFFFFFFFFFFFFF#64
private def opsX : List Op :=
  [.add aX, .add aY, .add aC, .addClass aC, .extend 4, .set 0 0 (packU64 big), .set 0 1 (packU64 ex1),
   .set 0 2 (packU64 big), .set 0 3 (packU64 ex2), .set 1 1 (packU64 1), .set 2 0 (packU64 1), .set 2 2 (packU64 1)]

/-- Numbers so inexact that only whole thousandths are kept, and a logarithm that is far off. -/
def roughArith : Arith Int :=
  ⟨(· + ·), (· - ·), fun x y => x * y / 1000, fun x y => x * 1000 / y, fun x => x - 1000, fun n => 1000 * n,
    fun x y => decide (y < x), fun x => decide (x = 0), 10 ^ 9, -(10 ^ 9)⟩

/-- A generator with this arithmetic and the comparisons and thresholds of `float64`. -/
def roughEnv : RuleEnvF Int :=
  ⟨⟨fun _ _ => "", gt64⟩, eq64, mid64, roughArith, fun l => l, fun g => someOrder g, fun l => l, fun l => l, fun l => l.reverse⟩

theorem roughEnv_ok : roughEnv.Ok :=
  ⟨fun _ => List.Perm.refl _, someOrder_rowOrder, fun _ => List.Perm.refl _, fun _ => List.Perm.refl _, fun _ => List.reverse_perm _⟩

/-- Trees with this generator. -/
def roughTree : TreeEnv := ⟨roughEnv.fo, id, fun _ g => someOrder g, fun _ l => l, fun _ => gainRatioRuleF roughEnv⟩

theorem roughTree_machine : MachineTree roughEnv.fo roughTree :=
  ⟨rfl, rfl, fun _ => List.Perm.refl _, fun _ => someOrder_rowOrder, fun _ _ => List.Perm.refl _,
    fun _ => ⟨Int, roughEnv, roughEnv_ok, rfl, rfl, rfl, Or.inr (Or.inl rfl)⟩⟩

/-- The hypotheses of `C138_chooses` and `C138_fits` hold for four rows with the greatest `float64`, twice, so that a midpoint is
an infinity, and for entropies rounded to thousandths with a crude logarithm. -/
theorem C138_witness : ∃ tr, run 4096 opsX = Res.ok tr ∧ MachineTree roughEnv.fo roughTree ∧
    TreeData roughEnv.fo (.dense tr.d) 4 (fun r => ["b", "a", "b", "a"].getD r "") aC ∧
    (Grid.dense tr.d).FloatsIn 4 (fun u => finite64 u = true) ∧
    ∀ u v, finite64 u = true → finite64 v = true → roughEnv.feq (roughEnv.mid u v) (roughEnv.mid u v) = true := by
  have e : ((run 4096 opsX).map fun tr => (treeCheck roughEnv.fo tr.d 4 ["b", "a", "b", "a"] aC,
      tr.d.allAttributes.all fun a => !a.isFloat || (List.range 4).all fun r =>
        match unpackFloatBits ((Grid.dense tr.d).cell a r) with | .ok u => finite64 u | _ => false)) =
      Res.ok (true, true) := by decide +kernel
  obtain ⟨tr, htr, e⟩ := Res.map_eq_ok.1 e
  simp only [Prod.mk.injEq] at e
  have Dt := denseOK_run (pg := 4096) (ops := opsX) (by decide) htr (by decide)
  refine ⟨tr, htr, roughTree_machine, treeData_dense Dt e.1, ?_, fun u v hu hv => (C138_midpoint u v hu hv).2⟩
  intro a ha hf r hr
  have h := List.all_eq_true.1 e.2 a ha
  rw [hf, Bool.not_true, Bool.false_or] at h
  have h := List.all_eq_true.1 h r (List.mem_range.2 hr)
  split at h
  · next u hu => exact ⟨u, hu, h⟩
  · cases h

private noncomputable def exactEnv : RuleEnvF (ExtNum ℝ) :=
  ⟨(exEnv Real.log).fo, (exEnv Real.log).feq, (exEnv Real.log).mid, exactArith Real.log, (exEnv Real.log).sortRefs,
    (exEnv Real.log).order, (exEnv Real.log).cands, fun l => l, fun l => l.reverse⟩

/-- The hypotheses of `C138_exact` hold for real numbers and the natural logarithm. -/
example : exactEnv.Ok ∧ exactEnv.arith = exactArith Real.log ∧ (∀ x, 0 < x → Real.logb 2 x = Real.log x / Real.log 2) ∧
    Real.log 2 ≠ 0 := by
  have h := exEnv_ok logb_logarithm
  exact ⟨⟨fun l => (h.sort l).1, h.rowOrder, h.cands, fun _ => List.Perm.refl _, fun _ => List.reverse_perm _⟩, rfl, fun _ _ => rfl,
    (Real.log_pos (by norm_num)).ne'⟩

end Examples

end Golearn
