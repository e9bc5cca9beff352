import Verif.Props.C121
import Verif.Props.C125
import Verif.Spec.ForestEval

/-! # Lemmas about training and asking a forest -/

namespace Golearn

theorem Pipeline.exec_app {V σ : Type} (p : Pipeline V σ) (x y : List Thread) (s : PipeState V σ) :
    p.exec s (x ++ y) = (p.exec s x).bind fun s1 => p.exec s1 y := by
  induction x generalizing s with
  | nil => rfl
  | cons z zs ih =>
    simp only [List.cons_append, Pipeline.exec]
    cases p.step s z with
    | none => rfl
    | some s1 => simp only [Option.bind_some, ih]

theorem Pipeline.runBy_exec {V σ : Type} (p : Pipeline V σ) (pick : Nat → PipeState V σ → Thread) (s0 : PipeState V σ)
    (hlive : ∀ sched s, p.exec s0 sched = some s → s.pos ≠ .done → ∀ k, ∃ s', p.step s (pick k s) = some s') :
    ∀ fuel k s sched, p.exec s0 sched = some s →
      ∃ more, p.exec s0 (sched ++ more) = some (p.runBy pick fuel k s) ∧
        ((p.runBy pick fuel k s).pos = .done ∨ more.length = fuel) := by
  intro fuel
  induction fuel with
  | zero => intro k s sched h; exact ⟨[], by simpa [Pipeline.runBy] using h, Or.inr rfl⟩
  | succ fuel ih =>
    intro k s sched h
    rw [Pipeline.runBy]
    by_cases hd : s.pos = .done
    · rw [if_pos hd]; exact ⟨[], by simpa using h, Or.inl hd⟩
    · rw [if_neg hd]
      obtain ⟨s', hs⟩ := hlive sched s h hd k
      rw [hs]
      obtain ⟨more, m1, m2⟩ := ih (k + 1) s' (sched ++ [pick k s]) (by
        rw [p.exec_app, h]
        simp only [Option.bind_some, Pipeline.exec, hs])
      refine ⟨pick k s :: more, by simpa using m1, m2.imp_right fun e => by simp [e]⟩

theorem FitState.exec_app (attrs : Nat → List Attr) (x y : List (Option Nat)) (s : FitState) :
    s.exec attrs (x ++ y) = (s.exec attrs x).bind fun s1 => s1.exec attrs y := by
  induction x generalizing s with
  | nil => rfl
  | cons z zs ih =>
    simp only [List.cons_append, FitState.exec]
    cases s.step attrs z with
    | none => rfl
    | some s1 => simp only [Option.bind_some, ih]

theorem FitState.runBy_exec {attrs : Nat → List Attr} {pick : Nat → FitState → Option Nat} {s0 : FitState}
    (hlive : ∀ sched s, s0.exec attrs sched = some s → s.over = false → ∀ k, ∃ s', s.step attrs (pick k s) = some s') :
    ∀ fuel k s sched, s0.exec attrs sched = some s →
      ∃ more, s0.exec attrs (sched ++ more) = some (s.runBy attrs pick fuel k) ∧
        ((s.runBy attrs pick fuel k).over = true ∨ more.length = fuel) := by
  intro fuel
  induction fuel with
  | zero => intro k s sched h; exact ⟨[], by simpa [FitState.runBy] using h, Or.inr rfl⟩
  | succ fuel ih =>
    intro k s sched h
    rw [FitState.runBy]
    by_cases hd : s.over = true
    · rw [if_pos hd]; exact ⟨[], by simpa using h, Or.inl hd⟩
    · rw [if_neg hd]
      obtain ⟨s', hs⟩ := hlive sched s h (by simpa using hd) k
      rw [hs]
      obtain ⟨more, m1, m2⟩ := ih (k + 1) s' (sched ++ [pick k s]) (by
        rw [exec_app, h]
        simp only [Option.bind_some, FitState.exec, hs])
      refine ⟨pick k s :: more, by simpa using m1, m2.imp_right fun e => by simp [e]⟩

/-- The goroutines of `Fit` get to the end. -/
theorem fit_runs {attrs : Nat → List Attr} {pick : Nat → FitState → Option Nat} (size : Nat)
    (hpick : ∀ k (s : FitState), (∃ t s', s.step attrs t = some s') → ∃ s', s.step attrs (pick k s) = some s') :
    ((FitState.start size).runBy attrs pick (3 * size + 1) 0).over = true ∧
      ∀ i, ((FitState.start size).runBy attrs pick (3 * size + 1) 0).selected.get? i = if i < size then some (attrs i) else none := by
  obtain ⟨more, m1, m2⟩ := FitState.runBy_exec (attrs := attrs) (pick := pick) (s0 := FitState.start size)
    (fun sched s h ho k => hpick k s ((C66_fit_schedules attrs size sched s h).2.1 ho)) (3 * size + 1) 0 (FitState.start size) [] rfl
  rw [List.nil_append] at m1
  have hov : ((FitState.start size).runBy attrs pick (3 * size + 1) 0).over = true := by
    rcases m2 with h | h
    · exact h
    · by_contra ho
      obtain ⟨t, s', hs⟩ := (C66_fit_schedules attrs size more _ m1).2.1 (by simpa using ho)
      have := (C66_fit_schedules attrs size (more ++ [t]) s' (by
        rw [FitState.exec_app, m1]
        simp only [Option.bind_some, FitState.exec, hs])).1
      rw [List.length_append, List.length_singleton] at this
      omega
  exact ⟨hov, (C66_fit_schedules attrs size more _ m1).2.2 hov⟩

theorem fitsSample_congr {key key' : Rule → Nat → String} {lab : Nat → String} {draw : Nat → Nat} {n : Nat}
    (hdraw : ∀ q, q < n → draw q < n) (t : Tree) (h : t.FitsSample key lab draw n)
    (hk : t.AllRules fun r => ∀ i, i < n → key r i = key' r i) : t.FitsSample key' lab draw n := by
  cases t with
  | leaf d c => exact h
  | split d c r keys child =>
    obtain ⟨h1, h2, h3, h4, h5⟩ := h
    have hr := hk.1
    refine ⟨h1, h2, h3, ?_, ?_⟩
    · intro k
      rw [h4 k]
      constructor
      · rintro ⟨q, hq, e⟩; exact ⟨q, hq, by rw [← hr q hq]; exact e⟩
      · rintro ⟨q, hq, e⟩; exact ⟨q, hq, by rw [hr q hq]; exact e⟩
    · intro k hkk
      have e : ((List.range n).filter fun q => key' r q == k) = (List.range n).filter fun q => key r q == k :=
        List.filter_congr fun q hq => by rw [hr q (List.mem_range.1 hq)]
      rw [e]
      have := fits_map (key := key') (lab := lab) (f := id) (child k)
        (allRules_imp (fun r' h' i hi => h' i (by
          obtain ⟨q, hq, rfl⟩ := List.mem_map.1 hi
          exact hdraw q (List.mem_range.1 (List.mem_filter.1 hq).1))) _ (hk.2 k hkk)) (fun i _ => rfl) (h5 k hkk)
      simpa using this

theorem treeClass_leads_sample {fo : FloatOps} {g : Grid} {n : Nat} (P : g.Presents n) (T : g.typed n) (R : g.Readable fo n)
    {ord : List String → List String} (ho : ∀ l, (ord l).Perm l) {row : Nat} (hr : row < n) {key : Rule → Nat → String} {r' : Nat}
    {lab : Nat → String} {key' : Rule → Nat → String} {draw : Nat → Nat} {m : Nat} (hm : 0 < m) (t : Tree)
    (h : t.FitsSample key' lab draw m) (ha : t.AllRules (fun r => r.attr ∈ g.allAttributes ∧ g.branch fo r row = key r r')) :
    ∃ c, treeClass fo g ord row t = Res.ok c ∧ t.Leads key r' c := by
  cases t with
  | leaf d c => exact ⟨c, rfl, rfl⟩
  | split d c r keys child =>
    obtain ⟨s, k1, k2, k3⟩ := P.read _ ha.1.1
    have k4 := branch_key (fo := fo) T R ha.1.1 hr
    obtain ⟨_, _, _, h4, h5⟩ := h
    have hne : keys ≠ [] := fun e => by
      have := (h4 (key' r 0)).2 ⟨0, hm, rfl⟩
      rw [e] at this
      cases this
    rw [treeClass]
    simp only [k1, Res.orPanic, Res.bind_ok, k3 row hr, k2, k4]
    rw [ha.1.2]
    by_cases hk : key r r' ∈ keys
    · rw [if_pos hk]
      obtain ⟨c, c1, c2⟩ := treeClass_leads P T R ho hr (child (key r r')) _ (h5 _ hk) (ha.2 _ hk)
      exact ⟨c, c1, by rw [Tree.Leads, if_pos hk]; exact c2⟩
    · rw [if_neg hk]
      have hb : bestChild (key r r') (ord keys) "" ∈ keys :=
        (ho keys).subset (bestChild_mem _ _ _ (fun e => hne (by have := ho keys; rw [e] at this; exact this.symm.eq_nil)))
      rw [if_pos hb]
      obtain ⟨c, c1, c2⟩ := treeClass_leads P T R ho hr (child _) _ (h5 _ hb) (ha.2 _ hb)
      exact ⟨c, c1, by rw [Tree.Leads, if_neg hk]; exact ⟨_, hb, c2⟩⟩

end Golearn
