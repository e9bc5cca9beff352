import Verif.Proofs.RuleGen
import Mathlib.Tactic.FieldSimp
import Mathlib.Algebra.Order.BigOperators.Group.List

/-! # Lemmas about the choice among attributes -/

namespace Golearn

variable {K : Type} [Field K] [LinearOrder K] [IsStrictOrderedRing K]

theorem Logarithm.one {lg : K → K} (h : Logarithm lg) : lg 1 = 0 := by
  have := h.mul 1 1 one_pos one_pos
  rw [mul_one] at this
  linarith

theorem Logarithm.nonpos {lg : K → K} (h : Logarithm lg) {x : K} (h0 : 0 < x) (h1 : x ≤ 1) : lg x ≤ 0 := by
  rcases h1.lt_or_eq with h1 | rfl
  · exact (h.neg x h0 h1).le
  · rw [h.one]

theorem sum_nonpos_list {α : Type} (l : List α) (f : α → K) (h : ∀ a ∈ l, f a ≤ 0) : (l.map f).sum ≤ 0 := by
  induction l with
  | nil => simp
  | cons a as ih =>
    rw [List.map_cons, List.sum_cons]
    have := ih fun b hb => h b (by simp [hb])
    have := h a (by simp)
    linarith

theorem sum_neg_list {α : Type} (l : List α) (f : α → K) (h : ∀ a ∈ l, f a ≤ 0) (hs : ∃ a ∈ l, f a < 0) :
    (l.map f).sum < 0 := by
  induction l with
  | nil => simp at hs
  | cons a as ih =>
    rw [List.map_cons, List.sum_cons]
    have h1 := sum_nonpos_list as f fun b hb => h b (by simp [hb])
    have h2 := h a (by simp)
    obtain ⟨b, hb, hlt⟩ := hs
    rcases List.mem_cons.1 hb with rfl | hb
    · linarith
    · have := ih (fun b hb => h b (by simp [hb])) ⟨b, hb, hlt⟩
      linarith

theorem prop_pos {ls : List String} {c : String} (hc : c ∈ ls) : (0 : K) < (ls.count c : K) / ls.length := by
  have h1 : (0 : K) < ls.count c := by exact_mod_cast List.count_pos_iff.2 hc
  have h2 : (0 : K) < ls.length := by exact_mod_cast List.length_pos_of_mem hc
  exact div_pos h1 h2

theorem prop_le {ls : List String} {c : String} (hc : c ∈ ls) : (ls.count c : K) / ls.length ≤ 1 := by
  have h2 : (0 : K) < ls.length := by exact_mod_cast List.length_pos_of_mem hc
  rw [div_le_one h2]
  exact_mod_cast List.count_le_length

theorem entropyOf_nonneg {lg : K → K} (hlg : Logarithm lg) (ls : List String) : 0 ≤ entropyOf lg ls := by
  unfold entropyOf
  rw [Left.nonneg_neg_iff]
  apply sum_nonpos_list
  intro c hc
  have hc := List.mem_dedup.1 hc
  exact mul_nonpos_of_nonneg_of_nonpos (prop_pos hc).le (hlg.nonpos (prop_pos hc) (prop_le hc))

theorem entropyOf_pos {lg : K → K} (hlg : Logarithm lg) {ls : List String} {c d : String} (hc : c ∈ ls) (hd : d ∈ ls)
    (hne : c ≠ d) : 0 < entropyOf lg ls := by
  unfold entropyOf
  rw [Left.neg_pos_iff]
  apply sum_neg_list
  · intro c hc
    have hc := List.mem_dedup.1 hc
    exact mul_nonpos_of_nonneg_of_nonpos (prop_pos hc).le (hlg.nonpos (prop_pos hc) (prop_le hc))
  · refine ⟨c, List.mem_dedup.2 hc, ?_⟩
    refine mul_neg_of_pos_of_neg (prop_pos hc) (hlg.neg _ (prop_pos hc) ?_)
    have h2 : (0 : K) < ls.length := by exact_mod_cast List.length_pos_of_mem hc
    rw [div_lt_one h2]
    have : ls.count c < ls.length := by
      refine lt_of_le_of_ne List.count_le_length ?_
      intro h
      exact hne (List.count_eq_length.1 h d hd)
    exact_mod_cast this

theorem entropyOf_pure {lg : K → K} (hlg : Logarithm lg) {ls : List String} {c : String} (h : ∀ d ∈ ls, d = c) :
    entropyOf lg ls = 0 := by
  unfold entropyOf
  rw [neg_eq_zero]
  apply List.sum_eq_zero
  intro x hx
  obtain ⟨d, hd, rfl⟩ := List.mem_map.1 hx
  have hd := List.mem_dedup.1 hd
  have : ls.count d = ls.length := List.count_eq_length.2 fun b hb => by rw [h b hb, h d hd]
  have h2 : (ls.length : K) ≠ 0 := by
    have := List.length_pos_of_mem hd
    exact_mod_cast this.ne'
  rw [this, div_self h2, hlg.one, mul_zero]

theorem condEntropy_nonneg {lg : K → K} (hlg : Logarithm lg) (lab key : Nat → String) (n : Nat) :
    0 ≤ condEntropy lg lab key n := by
  unfold condEntropy
  apply List.sum_nonneg
  intro x hx
  obtain ⟨v, _, rfl⟩ := List.mem_map.1 hx
  exact mul_nonneg (div_nonneg (Nat.cast_nonneg _) (Nat.cast_nonneg _)) (entropyOf_nonneg hlg _)

/-- Nothing is left if rows with the same key have the same label. -/
theorem condEntropy_zero {lg : K → K} (hlg : Logarithm lg) {lab key : Nat → String} {n : Nat}
    (h : ∀ p q, p < n → q < n → key p = key q → lab p = lab q) : condEntropy lg lab key n = 0 := by
  unfold condEntropy
  apply List.sum_eq_zero
  intro x hx
  obtain ⟨v, hv, rfl⟩ := List.mem_map.1 hx
  obtain ⟨p, hp, rfl⟩ := List.mem_map.1 (List.mem_dedup.1 hv)
  rw [entropyOf_pure hlg (c := lab p), mul_zero]
  intro d hd
  obtain ⟨q, hq, rfl⟩ := List.mem_map.1 hd
  rw [List.mem_filter, List.mem_range, beq_iff_eq] at hq
  exact h q p hq.1 (List.mem_range.1 hp) hq.2

/-- Something is left if rows with the same key have different labels. -/
theorem condEntropy_pos {lg : K → K} (hlg : Logarithm lg) {lab key : Nat → String} {n : Nat} {p q : Nat} (hp : p < n)
    (hq : q < n) (hk : key p = key q) (hl : lab p ≠ lab q) : 0 < condEntropy lg lab key n := by
  unfold condEntropy
  have hmem : ∀ r, r < n → key r = key p → lab r ∈ labelsAt lab key n (key p) := by
    intro r hr hrk
    exact List.mem_map_of_mem (List.mem_filter.2 ⟨List.mem_range.2 hr, by simp [hrk]⟩)
  have h1 := hmem p hp rfl
  have hpos : 0 < ((labelsAt lab key n (key p)).length : K) / n * entropyOf lg (labelsAt lab key n (key p)) := by
    refine mul_pos (div_pos ?_ ?_) (entropyOf_pos hlg h1 (hmem q hq hk.symm) hl)
    · exact_mod_cast List.length_pos_of_mem h1
    · exact_mod_cast (by omega : 0 < n)
  refine lt_of_lt_of_le hpos ?_
  refine List.single_le_sum ?_ _ (List.mem_map_of_mem (List.mem_dedup.2 (List.mem_map_of_mem (List.mem_range.2 hp))))
  intro x hx
  obtain ⟨v, _, rfl⟩ := List.mem_map.1 hx
  exact mul_nonneg (div_nonneg (Nat.cast_nonneg _) (Nat.cast_nonneg _)) (entropyOf_nonneg hlg _)

omit [IsStrictOrderedRing K] in
theorem gainOf_congr (lg : K → K) {lab key key' : Nat → String} {n : Nat} (h : ∀ q, q < n → key q = key' q) :
    gainOf lg lab key n = gainOf lg lab key' n := by
  unfold gainOf
  rw [condEntropy_congr lg h]

omit [IsStrictOrderedRing K] in
theorem ratioOf_congr (lg : K → K) {lab key key' : Nat → String} {n : Nat} (h : ∀ q, q < n → key q = key' q) :
    ratioOf lg lab key n = ratioOf lg lab key' n := by
  unfold ratioOf
  rw [condEntropy_congr lg h, gainOf_congr lg h]

/-- The smaller the entropy left, the greater the ratio. -/
theorem ratioOf_le {lg : K → K} (hlg : Logarithm lg) {lab key key' : Nat → String} {n : Nat}
    (hb : 0 < entropyOf lg ((List.range n).map lab)) (h : condEntropy lg lab key n ≤ condEntropy lg lab key' n) :
    ratioOf lg lab key' n ≤ ratioOf lg lab key n := by
  have n1 := condEntropy_nonneg hlg lab key n
  have n2 := condEntropy_nonneg hlg lab key' n
  unfold ratioOf
  by_cases h0 : condEntropy lg lab key n = 0
  · rw [if_pos h0]; exact le_top
  · have hp : 0 < condEntropy lg lab key n := lt_of_le_of_ne n1 (Ne.symm h0)
    have hp' := lt_of_lt_of_le hp h
    rw [if_neg h0, if_neg hp'.ne', WithTop.coe_le_coe]
    unfold gainOf
    rw [sub_div, sub_div, div_self hp.ne', div_self hp'.ne']
    have := div_le_div_of_nonneg_left hb.le hp h
    linarith

/-- The attribute cannot be read as a string in a different way from its branch. -/
theorem localEntropy_cat {e : RuleEnv K} (E : e.Ok) {g : Grid} {n : Nat} {lab : Nat → String} {cls : Attr}
    (D : TreeData e.fo g n lab cls) {a : Attr} (ha : a ∈ g.allAttributes) (hf : a.isFloat = false) :
    localEntropy e g a = Res.ok (some (condEntropy e.lg lab (g.branch e.fo ⟨a, 0⟩) n), 0) := by
  obtain ⟨s, s1, s2, s3⟩ := D.rows.read a ha
  obtain ⟨m, m1, m2⟩ := splitLoop_counts (fo := e.fo) (g := g) (s := s) (key := a.getString e.fo)
    (sv := g.branch e.fo ⟨a, 0⟩) (cv := lab) (List.range n) [] [] (countsBy_nil _ _) (by
      intro r hr
      have hr := List.mem_range.1 hr
      have := branch_key D.typed D.readable (r := ⟨a, 0⟩) ha hr
      simp only [hf, Bool.false_eq_true, if_false] at this
      exact ⟨_, s3 r hr, this, getClass_ok D.rows D.classAttr D.classIn D.label hr⟩)
  rw [List.nil_append] at m2
  unfold localEntropy distAfterSplit
  simp only [hf, Bool.false_eq_true, if_false, s1, Res.orPanic, Res.bind_ok, D.rows.rows, m1, Res.map_ok,
    splitEntropy_spec E.log D.nonempty m2]

/-- What the selection needs to know about an attribute. -/
theorem localEntropy_spec {e : RuleEnv K} (E : e.Ok) {g : Grid} {n : Nat} {lab : Nat → String} {cls : Attr}
    (D : TreeData e.fo g n lab cls) {val : U64 → K} {S : U64 → Prop} (X : g.ExactCells e n val S) (N : g.NoRepeats n val)
    {a : Attr} (ha : a ∈ g.allAttributes) :
    ∃ o t, localEntropy e g a = Res.ok (o, t) ∧ (o = none → ∀ key, ¬ g.IsTest e.fo val n [a] key) ∧
      ∀ s, o = some s → s = condEntropy e.lg lab (g.branch e.fo ⟨a, t⟩) n ∧
        g.IsTest e.fo val n [a] (g.branch e.fo ⟨a, t⟩) ∧
        ∀ key, g.IsTest e.fo val n [a] key → s ≤ condEntropy e.lg lab key n := by
  by_cases hf : a.isFloat = true
  · obtain ⟨o, o1, o2, o3⟩ := numericEntropy_best E D X N ha hf
    cases o with
    | none =>
      refine ⟨none, posInf, by simp only [localEntropy, hf, if_true, o1, Res.map_ok], ?_, by simp⟩
      rintro _ key ⟨b, hb, h⟩
      rw [List.mem_singleton] at hb
      subst hb
      rcases h with ⟨h, _⟩ | ⟨_, x, _, ⟨p, hp, hp'⟩, q, hq, hq'⟩
      · rw [hf] at h; cases h
      · have := o2 rfl
        have : p = q := by omega
        subst this
        rw [hp'] at hq'
        exact absurd hq' (by decide)
    | some st =>
      obtain ⟨s, t⟩ := st
      obtain ⟨h1, h2, h3, h4, h5⟩ := o3 s t rfl
      refine ⟨some s, t, by simp only [localEntropy, hf, if_true, o1, Res.map_ok], by simp, ?_⟩
      rintro s' h
      cases h
      refine ⟨h1, ⟨a, by simp, Or.inr ⟨hf, val t, h2, h3, h4⟩⟩, ?_⟩
      rintro key ⟨b, hb, h⟩
      rw [List.mem_singleton] at hb
      subst hb
      rcases h with ⟨h, _⟩ | ⟨_, x, hx, ⟨p, hp, hp'⟩, q, hq, hq'⟩
      · rw [hf] at h; cases h
      · rw [condEntropy_congr e.lg hx]
        exact h5 x ⟨p, hp, (hx p hp) ▸ hp'⟩ ⟨q, hq, (hx q hq) ▸ hq'⟩
  · have hf : a.isFloat = false := by simpa using hf
    refine ⟨_, _, localEntropy_cat E D ha hf, by simp, ?_⟩
    rintro s h
    cases h
    refine ⟨rfl, ⟨a, by simp, Or.inl ⟨hf, fun _ _ => rfl⟩⟩, ?_⟩
    rintro key ⟨b, hb, h⟩
    rw [List.mem_singleton] at hb
    subst hb
    rcases h with ⟨_, h⟩ | ⟨h, _⟩
    · rw [condEntropy_congr e.lg h]
    · rw [hf] at h; cases h

theorem isTest_mono {fo : FloatOps} {val : U64 → K} {g : Grid} {n : Nat} {as : List Attr} {key : Nat → String} :
    g.IsTest fo val n as key ↔ ∃ a ∈ as, g.IsTest fo val n [a] key := by
  constructor
  · rintro ⟨a, ha, h⟩
    exact ⟨a, ha, a, by simp, h⟩
  · rintro ⟨a, ha, b, hb, h⟩
    rw [List.mem_singleton] at hb
    subst hb
    exact ⟨_, ha, h⟩

/-- The loop over the attributes, for any score that is greater where the entropy left is smaller. -/
theorem select_spec {e : RuleEnv K} (E : e.Ok) {g : Grid} {n : Nat} {lab : Nat → String} {cls : Attr}
    (D : TreeData e.fo g n lab cls) {val : U64 → K} {S : U64 → Prop} (X : g.ExactCells e n val S) (N : g.NoRepeats n val)
    {V : Type} [LinearOrder V] (score : (Nat → String) → V) (f : Option K → Option V) (hf0 : f none = none)
    (hf1 : ∀ key, f (some (condEntropy e.lg lab key n)) = some (score key))
    (hmono : ∀ key key', condEntropy e.lg lab key n ≤ condEntropy e.lg lab key' n → score key' ≤ score key)
    (as : List Attr) (has : ∀ a ∈ as, a ∈ g.allAttributes) :
    ∃ l, mapRes (fun a => (localEntropy e g a).map fun p => (a, f p.1, p.2)) as = Res.ok l ∧
      (pickMax l none = none → ∀ key, ¬ g.IsTest e.fo val n as key) ∧
      ∀ v rule, pickMax l none = some (v, rule) → rule.attr ∈ as ∧ g.IsTest e.fo val n as (g.branch e.fo rule) ∧
        ∀ key, g.IsTest e.fo val n as key → score key ≤ score (g.branch e.fo rule) := by
  have hex : ∀ a, ∃ o t, a ∈ as → localEntropy e g a = Res.ok (o, t) ∧
      (o = none → ∀ key, ¬ g.IsTest e.fo val n [a] key) ∧
      ∀ s, o = some s → s = condEntropy e.lg lab (g.branch e.fo ⟨a, t⟩) n ∧
        g.IsTest e.fo val n [a] (g.branch e.fo ⟨a, t⟩) ∧
        ∀ key, g.IsTest e.fo val n [a] key → s ≤ condEntropy e.lg lab key n := by
    intro a
    by_cases ha : a ∈ as
    · obtain ⟨o, t, h⟩ := localEntropy_spec E D X N (has a ha)
      exact ⟨o, t, fun _ => h⟩
    · exact ⟨none, 0, fun h => absurd h ha⟩
  choose o t h using hex
  refine ⟨as.map fun a => (a, f (o a), t a), ?_, ?_, ?_⟩
  · apply mapRes_of_ok
    intro a ha
    rw [(h a ha).1, Res.map_ok]
  · intro hn key hk
    obtain ⟨a, ha, hk⟩ := isTest_mono.1 hk
    have := ((pickMax_spec _ none).1 hn).2 (a, f (o a), t a) (List.mem_map_of_mem ha)
    simp only at this
    cases ho : o a with
    | none => exact (h a ha).2.1 ho key hk
    | some s =>
      rw [ho, ((h a ha).2.2 s ho).1, hf1] at this
      cases this
  · intro v rule hp
    obtain ⟨p1, _, p3⟩ := (pickMax_spec _ none).2 v rule hp
    rcases p1 with p1 | ⟨x, hx, p1, p2⟩
    · cases p1
    · obtain ⟨a, ha, rfl⟩ := List.mem_map.1 hx
      simp only at p1 p2
      subst p2
      cases ho : o a with
      | none => rw [ho, hf0] at p1; cases p1
      | some s =>
        obtain ⟨h1, h2, h3⟩ := (h a ha).2.2 s ho
        rw [ho, h1, hf1] at p1
        cases p1
        refine ⟨ha, isTest_mono.2 ⟨a, ha, h2⟩, ?_⟩
        intro key hk
        obtain ⟨b, hb, hk⟩ := isTest_mono.1 hk
        cases hob : o b with
        | none => exact absurd hk ((h b hb).2.1 hob key)
        | some s' =>
          obtain ⟨i1, _, i3⟩ := (h b hb).2.2 s' hob
          have hle := hmono (g.branch e.fo ⟨b, t b⟩) key (by rw [← i1]; exact i3 key hk)
          refine hle.trans ?_
          refine p3 (b, f (o b), t b) (List.mem_map_of_mem hb) _ ?_
          simp only
          rw [hob, i1, hf1]

/-- The entropy of the labels. -/
theorem baseEntropy_data {e : RuleEnv K} {g : Grid} {n : Nat} {lab : Nat → String} {cls : Attr}
    (D : TreeData e.fo g n lab cls) :
    ∃ d, getClassDistribution e.fo g = Res.ok d ∧ baseEntropy e.lg d = some (entropyOf e.lg ((List.range n).map lab)) := by
  obtain ⟨m, m1, m2, _, m4, m5⟩ := treeDist D
  refine ⟨m, m1, baseEntropy_spec e.lg (countsL_of m2 m4 m5) ?_⟩
  intro h
  have := congrArg List.length h
  simp only [List.length_map, List.length_range, List.length_nil] at this
  have := D.nonempty
  omega

theorem infoGainFrom_spec {e : RuleEnv K} (E : e.Ok) {g : Grid} {n : Nat} {lab : Nat → String} {cls : Attr}
    (D : TreeData e.fo g n lab cls) {val : U64 → K} {S : U64 → Prop} (X : g.ExactCells e n val S) (N : g.NoRepeats n val)
    (as : List Attr) (has : ∀ a ∈ as, a ∈ g.allAttributes) (hne : as ≠ []) :
    ∃ r, infoGainFrom e as g = Res.ok r ∧ (r = none → ∀ key, ¬ g.IsTest e.fo val n as key) ∧
      ∀ rule, r = some rule → rule.attr ∈ as ∧ g.IsTest e.fo val n as (g.branch e.fo rule) ∧
        ∀ key, g.IsTest e.fo val n as key → gainOf e.lg lab key n ≤ gainOf e.lg lab (g.branch e.fo rule) n := by
  obtain ⟨d, d1, d2⟩ := baseEntropy_data (K := K) D
  obtain ⟨l, l1, l2, l3⟩ := select_spec E D X N (fun key => gainOf e.lg lab key n)
    (fun o => subO (baseEntropy e.lg d) o) (by rw [d2]; rfl) (by intro key; rw [d2]; rfl)
    (by intro key key' h; unfold gainOf; linarith) as has
  refine ⟨(pickMax l none).map Prod.snd, ?_, ?_, ?_⟩
  · cases as with
    | nil => exact absurd rfl hne
    | cons a as =>
      unfold infoGainFrom
      simp only [d1, Res.bind_ok]
      rw [l1, Res.map_ok]
  · intro h
    rw [Option.map_eq_none_iff] at h
    exact l2 h
  · intro rule h
    rw [Option.map_eq_some_iff] at h
    obtain ⟨⟨v, r⟩, h1, rfl⟩ := h
    exact l3 v r h1

theorem gainRatioFrom_spec {e : RuleEnv K} (E : e.Ok) {g : Grid} {n : Nat} {lab : Nat → String} {cls : Attr}
    (D : TreeData e.fo g n lab cls) {val : U64 → K} {S : U64 → Prop} (X : g.ExactCells e n val S) (N : g.NoRepeats n val)
    (hmix : ∃ p q, p < n ∧ q < n ∧ lab p ≠ lab q)
    (as : List Attr) (has : ∀ a ∈ as, a ∈ g.allAttributes) (hne : as ≠ []) :
    ∃ r, gainRatioFrom e as g = Res.ok r ∧ (r = none → ∀ key, ¬ g.IsTest e.fo val n as key) ∧
      ∀ rule, r = some rule → rule.attr ∈ as ∧ g.IsTest e.fo val n as (g.branch e.fo rule) ∧
        ∀ key, g.IsTest e.fo val n as key → ratioOf e.lg lab key n ≤ ratioOf e.lg lab (g.branch e.fo rule) n := by
  obtain ⟨d, d1, d2⟩ := baseEntropy_data (K := K) D
  obtain ⟨p, q, hp, hq, hpq⟩ := hmix
  have hb : 0 < entropyOf e.lg ((List.range n).map lab) :=
    entropyOf_pos E.log (List.mem_map_of_mem (List.mem_range.2 hp)) (List.mem_map_of_mem (List.mem_range.2 hq)) hpq
  obtain ⟨l, l1, l2, l3⟩ := select_spec E D X N (fun key => ratioOf e.lg lab key n)
    (fun o => gainRatio (baseEntropy e.lg d) o) (by rw [d2]; rfl) (by
      intro key
      rw [d2]
      simp only [gainRatio, subO, Option.bind_some, Option.map_some, ratioOf]
      by_cases h0 : condEntropy e.lg lab key n = 0
      · rw [if_pos h0, if_pos h0, h0, sub_zero, if_pos hb]
      · rw [if_neg h0, if_neg h0]
        rfl) (fun key key' h => ratioOf_le E.log hb h) as has
  refine ⟨(pickMax l none).map Prod.snd, ?_, ?_, ?_⟩
  · cases as with
    | nil => exact absurd rfl hne
    | cons a as =>
      unfold gainRatioFrom
      simp only [d1, Res.bind_ok]
      rw [l1, Res.map_ok]
  · intro h
    rw [Option.map_eq_none_iff] at h
    exact l2 h
  · intro rule h
    rw [Option.map_eq_some_iff] at h
    obtain ⟨⟨v, r⟩, h1, rfl⟩ := h
    exact l3 v r h1

end Golearn
