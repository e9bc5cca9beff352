import Verif.Spec.EntropyF
import Verif.Proofs.RuleSelect
import Verif.Props.C52

/-! # Rule generators with any arithmetic -/

namespace Golearn

section
variable {F : Type}

/-! ## They answer -/

theorem scanLoopF_total {e : RuleEnvF F} {cs : List String} {refs : List (U64 × String)}
    (hr : ∀ (i : Nat) p q, refs[i]? = some p → refs[i + 1]? = some q → e.feq (e.mid p.1 q.1) (e.mid p.1 q.1) = true) :
    ∀ fuel i prev rest l r best,
      (refs.length ≤ i + 1 ∨ 2 * (refs.length - 1 - i) + 1 ≤ fuel ∨ 2 * (refs.length - 1 - i) ≤ fuel ∧ ∃ p q v, refs[i]? = some p ∧
        refs[i + 1]? = some q ∧ prev = some v ∧ e.feq (e.mid p.1 q.1) v = true) →
      ∃ out, scanLoopF e cs refs (fuel + 1) i prev rest l r best = Res.ok out := by
  intro fuel
  induction fuel with
  | zero =>
    intro i prev rest l r best h
    have h1 : refs.length ≤ i + 1 := by
      rcases h with h | h | h <;> omega
    rw [scanLoopF, List.getElem?_eq_none h1]
    exact ⟨best, by cases refs[i]? <;> rfl⟩
  | succ fuel ih =>
    intro i prev rest l r best h
    rw [scanLoopF]
    cases hp : refs[i]? with
    | none => exact ⟨best, rfl⟩
    | some p =>
      cases hq : refs[i + 1]? with
      | none => exact ⟨best, rfl⟩
      | some q =>
        have hi : i + 1 < refs.length := by
          by_contra hc
          rw [List.getElem?_eq_none (by omega)] at hq
          cases hq
        have other : ∀ rest' l' r' best',
            2 * (refs.length - 1 - i) + 1 ≤ fuel + 1 →
            ∃ out, scanLoopF e cs refs (fuel + 1) (i + (rest.takeWhile fun x => e.fo.gt (e.mid p.1 q.1) x.1).length)
              (some (e.mid p.1 q.1)) rest' l' r' best' = Res.ok out := by
          intro rest' l' r' best' h
          apply ih
          by_cases hm : (rest.takeWhile fun x => e.fo.gt (e.mid p.1 q.1) x.1).length = 0
          · rw [hm]
            exact Or.inr (Or.inr ⟨by omega, p, q, _, hp, hq, rfl, hr i p q hp hq⟩)
          · omega
        simp only
        cases hprev : prev with
        | none =>
          simp only [Bool.false_eq_true, if_false]
          apply other
          rcases h with h | h | ⟨_, p', q', v, _, _, h3, _⟩
          · omega
          · exact h
          · rw [hprev] at h3; cases h3
        | some v =>
          by_cases hc : e.feq (e.mid p.1 q.1) v = true
          · simp only [hc, if_true]
            apply ih
            rcases h with h | h | h <;> omega
          · simp only [hc, if_false]
            apply other
            rcases h with h | h | ⟨_, p', q', v', h1, h2, h3, h4⟩
            · omega
            · exact h
            · rw [hp] at h1; rw [hq] at h2; rw [hprev] at h3
              cases h1; cases h2; cases h3
              exact absurd h4 hc

theorem numericEntropyF_total {e : RuleEnvF F} (E : e.Ok) {S : U64 → Prop}
    (hmid : ∀ u v, S u → S v → e.feq (e.mid u v) (e.mid u v) = true) {g : Grid} {n : Nat} {lab : Nat → String} {cls : Attr}
    (D : TreeData e.fo g n lab cls) (hS : g.FloatsIn n S) {a : Attr} (ha : a ∈ g.allAttributes) (hf : a.isFloat = true) :
    ∃ p, numericEntropyF e g a = Res.ok p := by
  obtain ⟨cs, h1, _, _⟩ := numericRefs_ok e.sortRefs (E.rowOrder g) D ha hf
  unfold numericEntropyF
  rw [h1, Res.bind_ok]
  set refs := e.sortRefs ((List.range n).map fun r => (g.bitsAt a r, lab r)) with hrefs
  have hS' : ∀ p ∈ refs, S p.1 := by
    intro p hp
    obtain ⟨r, hr, rfl⟩ := List.mem_map.1 ((E.sort _).mem_iff.1 hp)
    obtain ⟨u, hu, hs⟩ := hS a ha hf r (List.mem_range.1 hr)
    simpa only [Grid.bitsAt, hu] using hs
  apply scanLoopF_total
  · intro i p q hp hq
    exact hmid _ _ (hS' p (List.mem_of_getElem? hp)) (hS' q (List.mem_of_getElem? hq))
  · omega

/-- Splitting on an attribute that is not numeric. -/
theorem distAfterSplit_total {fo : FloatOps} {g : Grid} {n : Nat} {lab : Nat → String} {cls : Attr}
    (D : TreeData fo g n lab cls) {a : Attr} (ha : a ∈ g.allAttributes) (hf : a.isFloat = false) :
    ∃ m, distAfterSplit fo g a = Res.ok m := by
  obtain ⟨s, s1, s2, s3⟩ := D.rows.read a ha
  obtain ⟨m, m1, _⟩ := splitLoop_counts (fo := fo) (g := g) (s := s) (key := a.getString fo)
    (sv := g.branch fo ⟨a, 0⟩) (cv := lab) (List.range n) [] [] (countsBy_nil _ _) (by
      intro r hr
      have hr := List.mem_range.1 hr
      have := branch_key D.typed D.readable (r := ⟨a, 0⟩) ha hr
      simp only [hf, Bool.false_eq_true, if_false] at this
      exact ⟨_, s3 r hr, this, getClass_ok D.rows D.classAttr D.classIn D.label hr⟩)
  refine ⟨m, ?_⟩
  unfold distAfterSplit
  simp only [s1, Res.orPanic, Res.bind_ok, D.rows.rows, m1]

/-- Splitting at a threshold. -/
theorem distAfterThreshold_total {fo : FloatOps} {g : Grid} {n : Nat} {lab : Nat → String} {cls : Attr}
    (D : TreeData fo g n lab cls) {a : Attr} (ha : a ∈ g.allAttributes) (hf : a.isFloat = true) (t : U64) :
    ∃ m, distAfterThreshold fo g a t = Res.ok m := by
  obtain ⟨s, s1, s2, s3⟩ := D.rows.read a ha
  obtain ⟨m, m1, _⟩ := splitLoop_counts (fo := fo) (g := g) (s := s) (key := thresholdKey fo t)
    (sv := g.branch fo ⟨a, t⟩) (cv := lab) (List.range n) [] [] (countsBy_nil _ _) (by
      intro r hr
      have hr := List.mem_range.1 hr
      have := branch_key D.typed D.readable (r := ⟨a, t⟩) ha hr
      simp only [hf, if_true] at this
      exact ⟨_, s3 r hr, this, getClass_ok D.rows D.classAttr D.classIn D.label hr⟩)
  refine ⟨m, ?_⟩
  unfold distAfterThreshold
  simp only [s1, Res.orPanic, Res.bind_ok, hf, if_true, D.rows.rows, m1]

theorem localEntropyF_total {e : RuleEnvF F} (E : e.Ok) {S : U64 → Prop}
    (hmid : ∀ u v, S u → S v → e.feq (e.mid u v) (e.mid u v) = true) {g : Grid} {n : Nat} {lab : Nat → String} {cls : Attr}
    (D : TreeData e.fo g n lab cls) (hS : g.FloatsIn n S) {a : Attr} (ha : a ∈ g.allAttributes) :
    ∃ p, localEntropyF e g a = Res.ok p := by
  unfold localEntropyF
  by_cases hf : a.isFloat = true
  · rw [if_pos hf]
    exact numericEntropyF_total E hmid D hS ha hf
  · rw [if_neg hf]
    obtain ⟨m, hm⟩ := distAfterSplit_total D ha (by simpa using hf)
    exact ⟨_, by rw [hm, Res.map_ok]⟩

theorem localGiniF_total {e : RuleEnvF F} (E : e.Ok) {S : U64 → Prop}
    (hmid : ∀ u v, S u → S v → e.feq (e.mid u v) (e.mid u v) = true) {g : Grid} {n : Nat} {lab : Nat → String} {cls : Attr}
    (D : TreeData e.fo g n lab cls) (hS : g.FloatsIn n S) {a : Attr} (ha : a ∈ g.allAttributes) :
    ∃ p, localGiniF e g a = Res.ok p := by
  unfold localGiniF
  by_cases hf : a.isFloat = true
  · rw [if_pos hf]
    obtain ⟨p, hp⟩ := numericEntropyF_total E hmid D hS ha hf
    obtain ⟨m, hm⟩ := distAfterThreshold_total D ha hf p.2
    exact ⟨_, by rw [hp, Res.bind_ok, hm, Res.map_ok]⟩
  · rw [if_neg hf]
    obtain ⟨m, hm⟩ := distAfterSplit_total D ha (by simpa using hf)
    exact ⟨_, by rw [hm, Res.map_ok]⟩

/-! ## They choose a candidate -/

theorem pickF_mem (better : F → F → Bool) (l : List (Attr × F × U64)) (start : F) (rule : Rule)
    (h : pickF better l start = some rule) : ∃ t ∈ l, rule = ⟨t.1, t.2.2⟩ := by
  unfold pickF at h
  suffices key : ∀ (l : List (Attr × F × U64)) (best : F × Option Rule),
      (l.foldl (fun best t => if better t.2.1 best.1 then (t.2.1, some ⟨t.1, t.2.2⟩) else best) best).2 = some rule →
      best.2 = some rule ∨ ∃ t ∈ l, rule = ⟨t.1, t.2.2⟩ by
    rcases key l _ h with h | h
    · cases h
    · exact h
  intro l
  induction l with
  | nil => intro best h; exact Or.inl h
  | cons t l ih =>
    intro best h
    rw [List.foldl_cons] at h
    rcases ih _ h with h | ⟨t', ht', he⟩
    · split at h
      · cases h
        exact Or.inr ⟨t, by simp, rfl⟩
      · exact Or.inl h
    · exact Or.inr ⟨t', by simp [ht'], he⟩

theorem pickF_attr (better : F → F → Bool) (start : F) {f : Attr → Res (F × U64)} {as : List Attr}
    (h : ∀ a ∈ as, ∃ p, f a = Res.ok p) :
    ∃ l, mapRes (fun a => (f a).map fun p => (a, p.1, p.2)) as = Res.ok l ∧
      ∀ rule, pickF better l start = some rule → rule.attr ∈ as := by
  obtain ⟨l, l1, l2⟩ := mapRes_forall₂ (f := fun a => (f a).map fun p => (a, p.1, p.2)) (R := fun a p => p.1 = a) as (by
    intro a ha
    obtain ⟨p, hp⟩ := h a ha
    exact ⟨(a, p.1, p.2), by rw [hp, Res.map_ok], rfl⟩)
  refine ⟨l, l1, ?_⟩
  intro rule hr
  obtain ⟨t, ht, rfl⟩ := pickF_mem better l start rule hr
  obtain ⟨a, ha, he⟩ := forall₂_mem_right l2 t ht
  simpa only [he] using ha

theorem candsF_mem {e : RuleEnvF F} (E : e.Ok) {g : Grid} {cls : Attr} (hc : g.allClassAttributes = [cls]) (a : Attr) :
    a ∈ e.cands g.normalAttrs ↔ a ∈ g.features cls := by
  have := (C27_references g.allAttributes g.allClassAttributes _ _ (List.Perm.refl _) (List.Perm.refl _)).2.2.2 a
  rw [hc, List.mem_singleton] at this
  rw [(E.cands _).mem_iff, Grid.normalAttrs, hc, this, Grid.features, List.mem_filter, decide_eq_true_eq]

theorem candsF_sub {e : RuleEnvF F} (E : e.Ok) {g : Grid} {cls : Attr} (hc : g.allClassAttributes = [cls]) :
    ∀ a ∈ e.cands g.normalAttrs, a ∈ g.allAttributes ∧ a ≠ cls := by
  intro a ha
  have := List.mem_filter.1 ((candsF_mem E hc a).1 ha)
  exact ⟨this.1, by simpa using this.2⟩

theorem candsF_ne {e : RuleEnvF F} (E : e.Ok) {fo : FloatOps} {g : Grid} {n : Nat} {lab : Nat → String} {cls : Attr}
    (D : TreeData fo g n lab cls) : e.cands g.normalAttrs ≠ [] := by
  intro h
  have hall : ∀ a ∈ g.allAttributes, a = cls := by
    intro a ha
    by_contra hne
    have := (candsF_mem E D.classAttr a).2 (List.mem_filter.2 ⟨ha, by simpa using hne⟩)
    rw [h] at this; cases this
  have hn := distinct_nodup D.distinct
  have hw := D.wide
  match hl : g.allAttributes, hw with
  | x :: y :: rest, _ =>
    rw [hl] at hall hn
    have h1 := hall x (by simp)
    have h2 := hall y (by simp)
    subst h1
    simp [h2] at hn

/-- The choice by information gain among some attributes. -/
theorem infoGainFromF_chooses {e : RuleEnvF F} (E : e.Ok) {S : U64 → Prop}
    (hmid : ∀ u v, S u → S v → e.feq (e.mid u v) (e.mid u v) = true) {g : Grid} {n : Nat} {lab : Nat → String} {cls : Attr}
    (D : TreeData e.fo g n lab cls) (hS : g.FloatsIn n S) (as : List Attr) (has : ∀ a ∈ as, a ∈ g.allAttributes) (hne : as ≠ []) :
    ∃ r, infoGainFromF e as g = Res.ok r ∧ ∀ rule, r = some rule → rule.attr ∈ as := by
  obtain ⟨d, d1, _⟩ := treeDist D
  obtain ⟨l, l1, l2⟩ := pickF_attr e.arith.gt e.arith.negInf
    (f := fun a => (localEntropyF e g a).map fun p => (e.arith.sub (baseEntropyF e d) p.1, p.2)) (as := as) (by
      intro a ha
      obtain ⟨p, hp⟩ := localEntropyF_total E hmid D hS (has a ha)
      exact ⟨_, by rw [hp, Res.map_ok]⟩)
  refine ⟨_, ?_, l2⟩
  cases as with
  | nil => exact absurd rfl hne
  | cons a as =>
    unfold infoGainFromF
    simp only [d1, Res.bind_ok]
    have : (fun a => (localEntropyF e g a).map fun p => (a, e.arith.sub (baseEntropyF e d) p.1, p.2)) =
        fun a => ((localEntropyF e g a).map fun p => (e.arith.sub (baseEntropyF e d) p.1, p.2)).map fun p => (a, p.1, p.2) := by
      funext a
      cases localEntropyF e g a <;> rfl
    rw [this, l1, Res.map_ok]

theorem gainRatioFromF_chooses {e : RuleEnvF F} (E : e.Ok) {S : U64 → Prop}
    (hmid : ∀ u v, S u → S v → e.feq (e.mid u v) (e.mid u v) = true) {g : Grid} {n : Nat} {lab : Nat → String} {cls : Attr}
    (D : TreeData e.fo g n lab cls) (hS : g.FloatsIn n S) (as : List Attr) (has : ∀ a ∈ as, a ∈ g.allAttributes) (hne : as ≠ []) :
    ∃ r, gainRatioFromF e as g = Res.ok r ∧ ∀ rule, r = some rule → rule.attr ∈ as := by
  obtain ⟨d, d1, _⟩ := treeDist D
  obtain ⟨l, l1, l2⟩ := pickF_attr e.arith.gt e.arith.negInf
    (f := fun a => (localEntropyF e g a).map fun p => (e.arith.div (e.arith.sub (baseEntropyF e d) p.1) p.1, p.2)) (as := as) (by
      intro a ha
      obtain ⟨p, hp⟩ := localEntropyF_total E hmid D hS (has a ha)
      exact ⟨_, by rw [hp, Res.map_ok]⟩)
  refine ⟨_, ?_, l2⟩
  cases as with
  | nil => exact absurd rfl hne
  | cons a as =>
    unfold gainRatioFromF
    simp only [d1, Res.bind_ok]
    have : (fun a => (localEntropyF e g a).map fun p => (a, e.arith.div (e.arith.sub (baseEntropyF e d) p.1) p.1, p.2)) =
        fun a => ((localEntropyF e g a).map fun p =>
          (e.arith.div (e.arith.sub (baseEntropyF e d) p.1) p.1, p.2)).map fun p => (a, p.1, p.2) := by
      funext a
      cases localEntropyF e g a <;> rfl
    rw [this, l1, Res.map_ok]

theorem giniFromF_chooses {e : RuleEnvF F} (E : e.Ok) {S : U64 → Prop}
    (hmid : ∀ u v, S u → S v → e.feq (e.mid u v) (e.mid u v) = true) {g : Grid} {n : Nat} {lab : Nat → String} {cls : Attr}
    (D : TreeData e.fo g n lab cls) (hS : g.FloatsIn n S) (as : List Attr) (has : ∀ a ∈ as, a ∈ g.allAttributes) (hne : as ≠ []) :
    ∃ r, giniFromF e as g = Res.ok r ∧ ∀ rule, r = some rule → rule.attr ∈ as := by
  obtain ⟨l, l1, l2⟩ := pickF_attr (fun x y => e.arith.gt y x) e.arith.posInf (f := localGiniF e g) (as := as)
    fun a ha => localGiniF_total E hmid D hS (has a ha)
  refine ⟨_, ?_, l2⟩
  cases as with
  | nil => exact absurd rfl hne
  | cons a as =>
    unfold giniFromF
    simp only
    rw [l1, Res.map_ok]

end

end Golearn
