import Verif.Model.Bagging
import Verif.Props.C28
import Verif.Props.C27
import Verif.Proofs.Table
import Mathlib.Data.List.Dedup
import Mathlib.Data.List.Perm.Subperm

/-! # C66: bagging selects distinct features -/

namespace Golearn

/-- `sel` consists of `k` attributes of `attrs`, no two of them equal. -/
def SelectsFrom (attrs : List Attr) (k : Nat) (sel : List Attr) : Prop :=
  sel.length = k ∧ (∀ a ∈ sel, a ∈ attrs) ∧ sel.Pairwise fun a b => a.equals b = false

theorem selectLoop_spec {attrs : List Attr} {want : Nat} {draw : Nat → Nat} (fuel k : Nat) (ret l : List Attr)
    (h : selectLoop attrs want draw fuel k ret = some (Res.ok l)) (hl : ret.length ≤ want) (hs : ∀ a ∈ ret, a ∈ attrs)
    (hp : ret.Pairwise fun a b => a.equals b = false) : SelectsFrom attrs want l := by
  induction fuel generalizing k ret with
  | zero =>
    unfold selectLoop at h
    split at h
    · simp only [Option.some.injEq, Res.ok.injEq] at h
      subst h
      exact ⟨by omega, hs, hp⟩
    · split at h <;> simp at h
  | succ fuel ih =>
    unfold selectLoop at h
    split at h
    · simp only [Option.some.injEq, Res.ok.injEq] at h
      subst h
      exact ⟨by omega, hs, hp⟩
    · rename_i hw
      split at h
      · simp at h
      · cases ha : attrs[draw k]? with
        | none => rw [ha] at h; simp at h
        | some a =>
          rw [ha] at h
          simp only at h
          by_cases hm : (ret.any fun b => b.equals a) = true
          · rw [if_pos hm] at h
            exact ih (k + 1) ret h hl hs hp
          · rw [if_neg hm] at h
            refine ih (k + 1) (ret ++ [a]) h (by rw [List.length_append, List.length_singleton]; omega) ?_ ?_
            · intro x hx
              rcases List.mem_append.1 hx with hx | hx
              · exact hs x hx
              · rw [List.mem_singleton.1 hx]; exact List.mem_of_getElem? ha
            · rw [List.pairwise_append]
              refine ⟨hp, List.pairwise_singleton _ _, ?_⟩
              intro x hx y hy
              rw [List.mem_singleton.1 hy]
              cases he : x.equals a with
              | false => rfl
              | true => exact absurd (List.any_eq_true.2 ⟨x, hx, he⟩) hm

/-- For all random draws: once the selection ends, the model gets `k` distinct attributes that are not class attributes,
followed by the class attributes. -/
theorem C66_distinct {attrs cls : List Attr} {k : Nat} (hk : 0 < k) {draw : Nat → Nat} {fuel : Nat} {l : List Attr}
    (h : trainingAttrs attrs cls k draw fuel = some (Res.ok l)) : ∃ sel, l = sel ++ cls ∧ SelectsFrom attrs k sel := by
  unfold trainingAttrs at h
  rw [if_neg (by omega)] at h
  cases hs : selectLoop attrs k draw fuel 0 [] with
  | none => rw [hs] at h; cases h
  | some r =>
    rw [hs] at h
    cases r with
    | ok sel =>
      simp only [Option.map_some, Res.map_ok, Option.some.injEq, Res.ok.injEq] at h
      exact ⟨sel, h.symm, selectLoop_spec fuel 0 [] sel hs (by simp) (by simp) List.Pairwise.nil⟩
    | err => cases h
    | panic => cases h

/-- With `RandomFeatures` zero, every model gets all attributes. -/
theorem C66_all (attrs cls : List Attr) (draw : Nat → Nat) (fuel : Nat) :
    trainingAttrs attrs cls 0 draw fuel = some (Res.ok (attrs ++ cls)) := rfl

theorem selectLoop_ends {attrs : List Attr} (hd : attrs.Pairwise fun a b => a.equals b = false) (hne : attrs ≠ [])
    {want : Nat} {draw : Nat → Nat} (hdr : ∀ j, draw j < attrs.length) (fuel k : Nat) (ps : List Nat)
    (hps : ps.Nodup) (hpl : ∀ i ∈ ps, i < attrs.length)
    (hw : want ≤ (ps ++ (List.range' k fuel).map draw).dedup.length) :
    ∃ l, selectLoop attrs want draw fuel k (ps.filterMap fun i => attrs[i]?) = some (Res.ok l) := by
  have hlen : ∀ ps : List Nat, (∀ i ∈ ps, i < attrs.length) → (ps.filterMap fun i => attrs[i]?).length = ps.length := by
    intro ps
    induction ps with
    | nil => simp
    | cons x xs ih =>
      intro h
      rw [List.filterMap_cons, List.getElem?_eq_getElem (h x List.mem_cons_self)]
      simp only [List.length_cons, ih fun i hi => h i (List.mem_cons_of_mem _ hi)]
  have hemp : attrs.isEmpty = false := by
    cases attrs with
    | nil => exact absurd rfl hne
    | cons _ _ => rfl
  induction fuel generalizing k ps with
  | zero =>
    rw [List.range'_zero, List.map_nil, List.append_nil, List.Nodup.dedup hps] at hw
    refine ⟨ps.filterMap fun i => attrs[i]?, ?_⟩
    unfold selectLoop
    rw [if_pos (by rw [hlen ps hpl]; exact hw)]
  | succ fuel ih =>
    unfold selectLoop
    by_cases hx : want ≤ (ps.filterMap fun i => attrs[i]?).length
    · exact ⟨_, if_pos hx⟩
    · have hdk := hdr k
      rw [if_neg hx, hemp]
      simp only [Bool.false_eq_true, if_false]
      rw [List.getElem?_eq_getElem (hdr k)]
      simp only
      have heq : ∀ i, ∀ hi : i < attrs.length, attrs[i].equals attrs[draw k] = true ↔ i = draw k := by
        intro i hi
        constructor
        · intro he
          by_contra hn
          rcases Nat.lt_or_gt_of_ne hn with hlt | hlt
          · have := List.pairwise_iff_getElem.1 hd i (draw k) hi (hdr k) hlt
            rw [he] at this; cases this
          · have := List.pairwise_iff_getElem.1 hd (draw k) i (hdr k) hi hlt
            rw [C28_equals_symm _ _ he] at this; cases this
        · rintro rfl
          exact C28_equals_refl _
      have hany : ((ps.filterMap fun i => attrs[i]?).any fun b => b.equals attrs[draw k]) = true ↔ draw k ∈ ps := by
        rw [List.any_eq_true]
        constructor
        · rintro ⟨b, hb, he⟩
          obtain ⟨i, hi, e⟩ := List.mem_filterMap.1 hb
          rw [List.getElem?_eq_getElem (hpl i hi), Option.some.injEq] at e
          subst e
          rw [← (heq i (hpl i hi)).1 he]
          exact hi
        · intro hm
          exact ⟨attrs[draw k], List.mem_filterMap.2 ⟨draw k, hm, List.getElem?_eq_getElem (hdr k)⟩, C28_equals_refl _⟩
      have hset : ∀ qs : List Nat, (∀ x, x ∈ qs ↔ x ∈ ps ∨ x = draw k) →
          want ≤ (qs ++ (List.range' (k + 1) fuel).map draw).dedup.length := by
        intro qs hq
        have : ((qs ++ (List.range' (k + 1) fuel).map draw).dedup).Perm
            ((ps ++ (List.range' k (fuel + 1)).map draw).dedup) := by
          refine (List.perm_ext_iff_of_nodup (List.nodup_dedup _) (List.nodup_dedup _)).2 ?_
          intro x
          rw [List.mem_dedup, List.mem_dedup, List.range'_succ, List.map_cons]
          simp only [List.mem_append, List.mem_cons, hq]
          tauto
        rw [this.length_eq]
        exact hw
      by_cases hm : draw k ∈ ps
      · rw [if_pos (hany.2 hm)]
        exact ih (k + 1) ps hps hpl (hset ps (by intro x; constructor; exact Or.inl; rintro (h | rfl); exact h; exact hm))
      · rw [if_neg (fun h => hm (hany.1 h))]
        have := ih (k + 1) (ps ++ [draw k])
          (by
            rw [List.nodup_append]
            refine ⟨hps, by simp, ?_⟩
            intro x hx y hy
            rw [List.mem_singleton.1 hy]
            rintro rfl
            exact hm hx)
          (by
            intro i hi
            rcases List.mem_append.1 hi with hi | hi
            · exact hpl i hi
            · rw [List.mem_singleton.1 hi]; exact hdr k)
          (hset _ (by simp))
        rw [List.filterMap_append] at this
        simpa [List.getElem?_eq_getElem (hdr k)] using this

/-- The selection ends as soon as the draws have hit `k` different positions. -/
theorem C66_ends {attrs cls : List Attr} (hd : attrs.Pairwise fun a b => a.equals b = false) (hne : attrs ≠ []) {k : Nat}
    {draw : Nat → Nat} (hdr : ∀ j, draw j < attrs.length) {fuel : Nat}
    (hk : k ≤ ((List.range fuel).map draw).dedup.length) : ∃ l, trainingAttrs attrs cls k draw fuel = some (Res.ok l) := by
  unfold trainingAttrs
  by_cases h0 : k = 0
  · rw [if_pos h0]; exact ⟨_, rfl⟩
  · rw [if_neg h0]
    obtain ⟨l, hl⟩ := selectLoop_ends (want := k) hd hne hdr fuel 0 [] (by simp) (by simp)
      (by rw [List.nil_append, ← List.range_eq_range']; exact hk)
    simp only [List.filterMap_nil] at hl
    rw [hl]
    exact ⟨_, rfl⟩

/-- With more features wanted than there are attributes, the selection never ends. -/
theorem C66_endless {attrs cls : List Attr} (hne : attrs ≠ []) {k : Nat} (hk : attrs.length < k) {draw : Nat → Nat}
    (hdr : ∀ j, draw j < attrs.length) (fuel : Nat) : trainingAttrs attrs cls k draw fuel = none := by
  have hemp : attrs.isEmpty = false := by
    cases attrs with
    | nil => exact absurd rfl hne
    | cons _ _ => rfl
  have key : ∀ (fuel j : Nat) (ret : List Attr), (∀ a ∈ ret, a ∈ attrs) → (ret.Pairwise fun a b => a.equals b = false) →
      selectLoop attrs k draw fuel j ret = none := by
    intro fuel
    induction fuel with
    | zero =>
      intro j ret hs hp
      have hnd : ret.Nodup := hp.imp fun {a b} h e => by rw [e, C28_equals_refl] at h; cases h
      have := (List.subperm_of_subset hnd hs).length_le
      unfold selectLoop
      rw [if_neg (by omega), hemp]; rfl
    | succ fuel ih =>
      intro j ret hs hp
      have hnd : ret.Nodup := hp.imp fun {a b} h e => by rw [e, C28_equals_refl] at h; cases h
      have := (List.subperm_of_subset hnd hs).length_le
      have hdj := hdr j
      unfold selectLoop
      rw [if_neg (by omega), hemp]
      simp only [Bool.false_eq_true, if_false, List.getElem?_eq_getElem (hdr j)]
      by_cases hm : (ret.any fun b => b.equals attrs[draw j]) = true
      · rw [if_pos hm]
        exact ih _ _ hs hp
      · rw [if_neg hm]
        refine ih _ _ ?_ ?_
        · intro x hx
          rcases List.mem_append.1 hx with hx | hx
          · exact hs x hx
          · rw [List.mem_singleton.1 hx]; exact List.getElem_mem _
        · rw [List.pairwise_append]
          refine ⟨hp, List.pairwise_singleton _ _, ?_⟩
          intro x hx y hy
          rw [List.mem_singleton.1 hy]
          cases he : x.equals attrs[draw j] with
          | false => rfl
          | true => exact absurd (List.any_eq_true.2 ⟨x, hx, he⟩) hm
  unfold trainingAttrs
  rw [if_neg (by omega), key fuel 0 [] (by simp) List.Pairwise.nil]; rfl

/-- The full property: for all data and numbers of features, if the draws hit every attribute at some time, each model
is trained on `k` distinct attributes and the class attributes. -/
def SelectsFeatures : Prop :=
  ∀ (attrs cls : List Attr) (k : Nat) (draw : Nat → Nat), attrs ≠ [] → 0 < k →
    (attrs.Pairwise fun a b => a.equals b = false) → (∀ j, draw j < attrs.length) →
    (∀ i, i < attrs.length → ∃ j, draw j = i) →
    ∃ fuel sel, trainingAttrs attrs cls k draw fuel = some (Res.ok (sel ++ cls)) ∧ SelectsFrom attrs k sel

/-- It is false: two features of one attribute are looked for endlessly. -/
theorem C66_refuted : ¬ SelectsFeatures := by
  intro H
  obtain ⟨fuel, sel, h, _⟩ := H [⟨0, .float "a" 2⟩] [] 2 (fun _ => 0) (by simp) (by omega) (by simp) (by simp)
    (by simp)
  rw [C66_endless (by simp) (by simp) (by simp) fuel] at h
  cases h

/-- What holds: with at most as many features as attributes, selection ends with `k` distinct ones if the draws hit
every attribute at some time. Missing: more features than attributes, for which it is false. -/
theorem C66_selects_partial (attrs cls : List Attr) (k : Nat) (draw : Nat → Nat) (hne : attrs ≠ []) (hk : 0 < k)
    (hle : k ≤ attrs.length) (hd : attrs.Pairwise fun a b => a.equals b = false) (hdr : ∀ j, draw j < attrs.length)
    (hall : ∀ i, i < attrs.length → ∃ j, draw j = i) :
    ∃ fuel sel, trainingAttrs attrs cls k draw fuel = some (Res.ok (sel ++ cls)) ∧ SelectsFrom attrs k sel := by
  have hb : ∃ N, ∀ i, i < attrs.length → ∃ j, j < N ∧ draw j = i := by
    generalize attrs.length = m at hall
    clear hdr hle hd hne
    induction m with
    | zero => exact ⟨0, by omega⟩
    | succ m ih =>
      obtain ⟨N, hN⟩ := ih (fun i hi => hall i (by omega))
      obtain ⟨j, hj⟩ := hall m (by omega)
      refine ⟨max N (j + 1), ?_⟩
      intro i hi
      by_cases h : i < m
      · obtain ⟨j', h1, h2⟩ := hN i h
        exact ⟨j', by omega, h2⟩
      · have : i = m := by omega
        subst this
        exact ⟨j, by omega, hj⟩
  obtain ⟨N, hN⟩ := hb
  have hcard : k ≤ ((List.range N).map draw).dedup.length := by
    have hsub : List.range attrs.length ⊆ ((List.range N).map draw).dedup := by
      intro i hi
      obtain ⟨j, h1, h2⟩ := hN i (List.mem_range.1 hi)
      rw [List.mem_dedup, List.mem_map]
      exact ⟨j, List.mem_range.2 h1, h2⟩
    have := (List.subperm_of_subset List.nodup_range hsub).length_le
    rw [List.length_range] at this
    omega
  obtain ⟨l, hl⟩ := C66_ends (cls := cls) hd hne hdr hcard
  obtain ⟨sel, rfl, hs⟩ := C66_distinct hk hl
  exact ⟨N, sel, hl, hs⟩

/-- On a data grid whose attributes are pairwise different, in whatever order `NonClassAttributes` lists them: the
attributes of a model are `k` distinct attributes of the grid that are not class attributes (all of those for `k`
zero), and then the class attributes. -/
theorem C66_grid {g : Grid} (hd : g.distinct) {attrs : List Attr} (hattrs : attrs.Perm g.normalAttrs) {k : Nat}
    {draw : Nat → Nat} {fuel : Nat} {l : List Attr}
    (h : trainingAttrs attrs g.allClassAttributes k draw fuel = some (Res.ok l)) :
    ∃ sel, l = sel ++ g.allClassAttributes ∧ (sel.Pairwise fun a b => a.equals b = false) ∧
      (∀ a ∈ sel, a ∈ g.allAttributes ∧ a ∉ g.allClassAttributes) ∧
      (0 < k → sel.length = k) ∧ (k = 0 → ∀ a ∈ g.allAttributes, a ∉ g.allClassAttributes → a ∈ sel) := by
  obtain ⟨_, hnd', _, hmem'⟩ := C27_references g.allAttributes g.allClassAttributes _ attrs (List.Perm.refl _) hattrs
  by_cases hk : k = 0
  · subst hk
    rw [C66_all, Option.some.injEq, Res.ok.injEq] at h
    subst h
    refine ⟨attrs, rfl, ?_, fun a ha => (hmem' a).1 ha, by omega, fun _ a h1 h2 => (hmem' a).2 ⟨h1, h2⟩⟩
    refine List.Nodup.pairwise_of_forall_ne hnd' ?_
    intro a ha b hb hne
    cases he : a.equals b with
    | false => rfl
    | true => exact absurd (distinct_eq hd ((hmem' a).1 ha).1 ((hmem' b).1 hb).1 he) hne
  · obtain ⟨sel, rfl, h1, h2, h3⟩ := C66_distinct (by omega) h
    exact ⟨sel, rfl, h3, fun a ha => (hmem' a).1 (h2 a ha), fun _ => h1, fun h => absurd h hk⟩

/-- A random forest reports an error instead of looking endlessly: it passes on the number of features only if there are
enough attributes that are not class attributes. -/
theorem C66_forest (g : Grid) (features size : Nat) :
    (forestFit g features size = Res.ok (features, size) ∧ features ≤ g.normalAttrs.length) ∨
    (forestFit g features size = Res.err ∧ g.normalAttrs.length < features) := by
  unfold forestFit
  by_cases h : g.normalAttrs.length < features
  · rw [if_pos h]; exact Or.inr ⟨rfl, h⟩
  · rw [if_neg h]; exact Or.inl ⟨rfl, by omega⟩

/-! ## All schedules of `Fit` -/

/-- What holds in every state. -/
structure FitInv (attrs : Nat → List Attr) (m : Nat) (s : FitState) : Prop where
  width : s.fitters.length = m
  next : s.next ≤ m
  absent : ∀ i : Nat, s.fitters[i]? = some .absent ↔ s.next ≤ i ∧ i < m
  stored : ∀ i : Nat, s.selected.get? i =
    if s.fitters[i]? = some .stored ∨ s.fitters[i]? = some .quit then some (attrs i) else none
  over : s.over = true → s.next = m ∧ ∀ f ∈ s.fitters, f = .quit

def fitterLeft : Fitter → Nat
  | .absent => 3
  | .started => 2
  | .stored => 1
  | .quit => 0

def fitLeft (s : FitState) : Nat := (s.fitters.map fitterLeft).sum + if s.over then 0 else 1

theorem sum_set (l : List Fitter) (i : Nat) (a b : Fitter) (h : l[i]? = some a) :
    ((l.set i b).map fitterLeft).sum + fitterLeft a = (l.map fitterLeft).sum + fitterLeft b := by
  induction l generalizing i with
  | nil => simp at h
  | cons x xs ih =>
    cases i with
    | zero =>
      simp only [List.getElem?_cons_zero, Option.some.injEq] at h
      subst h
      simp only [List.set_cons_zero, List.map_cons, List.sum_cons]
      omega
    | succ i =>
      have := ih i (by simpa using h)
      simp only [List.set_cons_succ, List.map_cons, List.sum_cons]
      omega

theorem fitInv_start (attrs : Nat → List Attr) (m : Nat) : FitInv attrs m (FitState.start m) where
  width := by simp [FitState.start]
  next := by simp [FitState.start]
  absent := by
    intro i
    simp only [FitState.start, Nat.zero_le, true_and]
    rw [List.getElem?_replicate]
    by_cases h : i < m <;> simp [h]
  stored := by
    intro i
    rw [if_neg]
    · rfl
    · simp only [FitState.start]
      rw [List.getElem?_replicate]
      by_cases h : i < m <;> simp [h]
  over := by simp [FitState.start]

theorem fitInv_step {attrs : Nat → List Attr} {m : Nat} {s s' : FitState} {t : Option Nat} (I : FitInv attrs m s)
    (h : s.step attrs t = some s') : FitInv attrs m s' ∧ fitLeft s' + 1 = fitLeft s := by
  cases t with
  | none =>
    simp only [FitState.step] at h
    split at h
    · rename_i hn
      rw [Option.some.injEq] at h
      subst h
      have ha : s.fitters[s.next]? = some .absent := (I.absent s.next).2 ⟨le_refl _, by rw [← I.width]; exact hn⟩
      have hov : s.over = false := by
        cases ho : s.over with
        | false => rfl
        | true => have := (I.over ho).1; rw [← I.width] at this; omega
      refine ⟨⟨by simpa using I.width, by have := I.width; simp only; omega, ?_, ?_, ?_⟩, ?_⟩
      · intro i
        simp only
        by_cases hi : s.next = i
        · subst hi
          rw [List.getElem?_set_self hn]
          simp
        · rw [List.getElem?_set_ne hi, I.absent i]
          omega
      · intro i
        simp only
        rw [I.stored i]
        by_cases hi : s.next = i
        · subst hi
          rw [List.getElem?_set_self hn, ha]
          simp
        · rw [List.getElem?_set_ne hi]
      · intro ho
        simp only [hov] at ho
        cases ho
      · have := sum_set _ _ _ .started ha
        simp only [fitLeft, hov, fitterLeft] at this ⊢
        omega
    · rename_i hn
      split at h
      · cases h
      · rename_i hov
        split at h
        · rename_i hq
          rw [Option.some.injEq] at h
          subst h
          refine ⟨⟨I.width, I.next, I.absent, I.stored, ?_⟩, ?_⟩
          · intro _
            refine ⟨by have := I.width; have := I.next; simp only; omega, ?_⟩
            intro f hf
            have := List.all_eq_true.1 hq f hf
            simpa using this
          · simp only [fitLeft, if_true]
            rw [if_neg hov]
        · cases h
  | some i =>
    simp only [FitState.step] at h
    have hlt : ∀ {f : Fitter}, s.fitters[i]? = some f → i < s.fitters.length := by
      intro f hf
      by_contra hc
      rw [List.getElem?_eq_none (by omega)] at hf
      cases hf
    split at h
    · rename_i hf
      rw [Option.some.injEq] at h
      subst h
      have hi := hlt hf
      have hov : s.over = false := by
        cases ho : s.over with
        | false => rfl
        | true => cases (I.over ho).2 _ (List.mem_of_getElem? hf)
      refine ⟨⟨by simpa using I.width, I.next, ?_, ?_, ?_⟩, ?_⟩
      · intro j
        simp only
        by_cases hij : i = j
        · subst hij
          rw [List.getElem?_set_self hi, ← I.absent i, hf]
          simp
        · rw [List.getElem?_set_ne hij]; exact I.absent j
      · intro j
        simp only
        rw [GoMap.get?_set]
        by_cases hij : i = j
        · subst hij
          rw [if_pos rfl, List.getElem?_set_self hi]
          simp
        · rw [if_neg hij, List.getElem?_set_ne hij]; exact I.stored j
      · intro ho
        simp only [hov] at ho
        cases ho
      · have := sum_set _ _ _ .stored hf
        simp only [fitLeft, fitterLeft] at this ⊢
        omega
    · rename_i hf
      rw [Option.some.injEq] at h
      subst h
      have hi := hlt hf
      have hov : s.over = false := by
        cases ho : s.over with
        | false => rfl
        | true => cases (I.over ho).2 _ (List.mem_of_getElem? hf)
      refine ⟨⟨by simpa using I.width, I.next, ?_, ?_, ?_⟩, ?_⟩
      · intro j
        simp only
        by_cases hij : i = j
        · subst hij
          rw [List.getElem?_set_self hi, ← I.absent i, hf]
          simp
        · rw [List.getElem?_set_ne hij]; exact I.absent j
      · intro j
        simp only
        rw [I.stored j]
        by_cases hij : i = j
        · subst hij
          rw [List.getElem?_set_self hi, hf]
          simp
        · rw [List.getElem?_set_ne hij]
      · intro ho
        simp only [hov] at ho
        cases ho
      · have := sum_set _ _ _ .quit hf
        simp only [fitLeft, fitterLeft] at this ⊢
        omega
    · cases h

theorem fitInv_exec {attrs : Nat → List Attr} {m : Nat} (ts : List (Option Nat)) {s s' : FitState} (I : FitInv attrs m s)
    (h : s.exec attrs ts = some s') : FitInv attrs m s' ∧ fitLeft s' + ts.length = fitLeft s := by
  induction ts generalizing s with
  | nil =>
    simp only [FitState.exec, Option.some.injEq] at h
    subst h
    exact ⟨I, rfl⟩
  | cons t ts ih =>
    simp only [FitState.exec, Option.bind_eq_some_iff] at h
    obtain ⟨s1, h1, h2⟩ := h
    obtain ⟨I1, m1⟩ := fitInv_step I h1
    obtain ⟨I2, m2⟩ := ih I1 h2
    exact ⟨I2, by rw [List.length_cons]; omega⟩

/-- Under every schedule of the goroutines of `Fit`: as long as the wait is not over one of them can move, there are at
most `3 * m + 1` moves, and when the wait is over the attributes of each model, and of no other, have been stored. -/
theorem C66_fit_schedules (attrs : Nat → List Attr) (m : Nat) (sched : List (Option Nat)) (s : FitState)
    (h : (FitState.start m).exec attrs sched = some s) :
    sched.length ≤ 3 * m + 1 ∧ (s.over = false → ∃ t s', s.step attrs t = some s') ∧
      (s.over = true → ∀ i, s.selected.get? i = if i < m then some (attrs i) else none) := by
  obtain ⟨I, hm⟩ := fitInv_exec sched (fitInv_start attrs m) h
  refine ⟨?_, ?_, ?_⟩
  · have : fitLeft (FitState.start m) = 3 * m + 1 := by
      have : ∀ k, ((List.replicate k Fitter.absent).map fitterLeft).sum = 3 * k := by
        intro k
        induction k with
        | zero => rfl
        | succ k ih =>
          rw [List.replicate_succ, List.map_cons, List.sum_cons, ih]
          simp only [fitterLeft]; omega
      simp only [fitLeft, FitState.start, this]
      rfl
    omega
  · intro ho
    by_cases hn : s.next < s.fitters.length
    · refine ⟨none, ?_⟩
      simp only [FitState.step, if_pos hn]
      exact ⟨_, rfl⟩
    · by_cases hq : s.fitters.all (fun f => f == .quit) = true
      · refine ⟨none, ?_⟩
        simp only [FitState.step, if_neg hn, ho, Bool.false_eq_true, if_false, hq, if_true]
        exact ⟨_, rfl⟩
      · rw [List.all_eq_true] at hq
        push Not at hq
        obtain ⟨f, hf, hfq⟩ := hq
        obtain ⟨i, hi⟩ := List.getElem?_of_mem hf
        cases f with
        | absent =>
          have := (I.absent i).1 hi
          rw [← I.width] at this
          omega
        | started =>
          refine ⟨some i, ?_⟩
          simp only [FitState.step, hi]
          exact ⟨_, rfl⟩
        | stored =>
          refine ⟨some i, ?_⟩
          simp only [FitState.step, hi]
          exact ⟨_, rfl⟩
        | quit => exact absurd rfl hfq
  · intro ho i
    obtain ⟨_, hq⟩ := I.over ho
    rw [I.stored i]
    by_cases hi : i < m
    · have hi' : i < s.fitters.length := by rw [I.width]; exact hi
      rw [if_pos hi, if_pos]
      right
      rw [List.getElem?_eq_getElem hi', hq _ (List.getElem_mem hi')]
    · rw [if_neg hi, if_neg]
      rw [List.getElem?_eq_none (by rw [I.width]; omega)]
      simp

section Examples
private def a0 : Attr := ⟨0, .float "a" 2⟩
private def a1 : Attr := ⟨1, .float "b" 2⟩
private def a2 : Attr := ⟨2, .float "c" 2⟩
private def cl : Attr := ⟨3, .cat "y" ["p"]⟩
/-- Two of three attributes; the second draw repeats the first. -/
example : trainingAttrs [a0, a1, a2] [cl] 2 (fun k => if k < 2 then 2 else 0) 3 = some (Res.ok [a2, a0, cl]) := by
  decide +kernel
/-- The draws 0, 1, 2, 0, 1, 2, ... hit every attribute. -/
example : (∀ j, j % 3 < [a0, a1, a2].length) ∧ ∀ i, i < [a0, a1, a2].length → ∃ j, j % 3 = i :=
  ⟨fun j => Nat.mod_lt _ (by decide), fun i hi => ⟨i, Nat.mod_eq_of_lt hi⟩⟩
/-- Two models whose goroutines overlap. -/
example : ((FitState.start 2).exec (fun i => if i = 0 then [a0] else [a1])
    [none, none, some 1, some 0, some 1, some 0, none]).map (fun s => (s.over, s.selected)) =
    some (true, [(1, [a1]), (0, [a0])]) := by decide +kernel
end Examples

end Golearn
