import Verif.Spec.Parts
import Verif.Proofs.World
import Verif.Proofs.Instances

namespace Golearn

theorem swap_step (pg : Nat) (srt : List Spec → List Spec) {w : World} (I : w.Inv) {i : Nat} (hi : i < w.tables.length) (a b : Nat) :
    (w.step pg srt (.swap i a b)).map (·.table i) = (w.table i).swapRows srt a b := by
  have hti : w.tables[i]? = some w.tables[i] := List.getElem?_eq_getElem hi
  obtain ⟨t, ht⟩ : ∃ t, t = w.tables[i] := ⟨_, rfl⟩
  rw [← ht] at hti
  have hT : w.table i = t.at_ w.mem := by simp [World.table, tableAt_some hti]
  have ok := I.ok t (List.mem_of_getElem? hti)
  simp only [World.step, hti]
  rw [hT]
  have H := HTable.swapRows_sim srt ok a b
  revert H
  generalize t.swapRows srt w.mem a b = r
  generalize (t.at_ w.mem).swapRows srt a b = s
  intro H
  cases r <;> cases s <;> simp_all [Sim, Res.map, World.table, tableAt_some hti]

theorem swaps_run (pg : Nat) (srt : List Spec → List Spec) (i : Nat) (sws : List (Nat × Nat)) : ∀ {w : World}, w.Inv → i < w.tables.length →
    (World.runFrom pg srt w (sws.map fun p => .swap i p.1 p.2)).map (·.table i) = (w.table i).swapAll srt sws := by
  induction sws with
  | nil => intro w _ _; rfl
  | cons p ps ih =>
    intro w I hi
    rw [List.map_cons, worldRun_cons, Dense.swapAll, ← swap_step pg srt I hi]
    cases h : w.step pg srt (.swap i p.1 p.2) with
    | err => rfl
    | panic => rfl
    | ok w1 =>
      have E := step_effect pg srt I _ h
      exact ih E.inv (Nat.lt_of_lt_of_le hi E.count)

theorem runFrom_count (pg : Nat) (srt : List Spec → List Spec) (l : List MOp) : ∀ {u v : World}, u.Inv → World.runFrom pg srt u l = Res.ok v →
    u.tables.length ≤ v.tables.length := by
  induction l with
  | nil => intro u v _ e; cases e; exact Nat.le_refl _
  | cons o l ih =>
    intro u v J e
    rw [worldRun_cons, Res.bind_eq_ok] at e
    obtain ⟨x, e1, e2⟩ := e
    have E := step_effect pg srt J o e1
    exact Nat.le_trans E.count (ih E.inv e2)

/-- Steps that at most exchange rows of table `i`. -/
theorem swaps_only (pg : Nat) {srt : List Spec → List Spec} (hsrt : ∀ l, (srt l).Perm l) (i n : Nat) (held : List Held) (ops : List MOp) :
    ∀ {w w' : World}, w.Inv → i < w.tables.length → DenseOK n (w.table i) → World.runFrom pg srt w ops = Res.ok w' →
      (∃ new, held = w'.held ++ new) → (∀ op ∈ ops, op.atMostSwaps held i n) →
      ∃ sws : List (Nat × Nat), (∀ p ∈ sws, p.1 < n ∧ p.2 < n) ∧ (w.table i).swapAll srt sws = Res.ok (w'.table i) := by
  induction ops with
  | nil => intro w w' I hi D h _ _; cases h; exact ⟨[], by simp, rfl⟩
  | cons op ops ih =>
    intro w w' I hi D h hpre hop
    rw [worldRun_cons, Res.bind_eq_ok] at h
    obtain ⟨w1, h1, h2⟩ := h
    have E := step_effect pg srt I op h1
    obtain ⟨n1, e1⟩ := runFrom_held pg srt ops E.inv h2
    obtain ⟨n0, e0, _⟩ := E.held
    obtain ⟨n2, e2⟩ := hpre
    have hi1 := Nat.lt_of_lt_of_le hi E.count
    have hrest : ∀ o ∈ ops, o.atMostSwaps held i n := fun o ho => hop o (List.mem_cons_of_mem _ ho)
    rcases hop op (List.mem_cons_self ..) with hno | ⟨a, b, rfl, ha, hb⟩
    · have k := (step_other pg srt I op h1 hi held ⟨n0 ++ n1 ++ n2, by rw [e2, e1, e0]; simp⟩ hno).2
      obtain ⟨sws, s1, s2⟩ := ih E.inv hi1 (by rw [k]; exact D) h2 ⟨n2, e2⟩ hrest
      exact ⟨sws, s1, by rw [← k]; exact s2⟩
    · have k := swap_step pg srt I hi a b
      rw [h1, Res.map_ok] at k
      obtain ⟨d1, f1, D1, _⟩ := swapRows_spec hsrt D ha hb
      have hd1 : d1 = w1.table i := by rw [f1] at k; exact (Res.ok.inj k).symm
      obtain ⟨sws, s1, s2⟩ := ih E.inv hi1 (by rw [← hd1]; exact D1) h2 ⟨n2, e2⟩ hrest
      refine ⟨(a, b) :: sws, ?_, ?_⟩
      · intro p hp
        rcases List.mem_cons.1 hp with rfl | hp
        · exact ⟨ha, hb⟩
        · exact s1 p hp
      · rw [Dense.swapAll, ← k]; exact s2

theorem swapAll_append (srt : List Spec → List Spec) (s t : List (Nat × Nat)) : ∀ d : Dense,
    d.swapAll srt (s ++ t) = (d.swapAll srt s).bind fun d' => d'.swapAll srt t := by
  induction s with
  | nil => intro d; rfl
  | cons p ps ih =>
    intro d
    rw [List.cons_append, Dense.swapAll, Dense.swapAll]
    cases d.swapRows srt p.1 p.2 with
    | err => rfl
    | panic => rfl
    | ok d1 => exact ih d1

/-- A visible view whose class attributes were taken at another time when they were the same. -/
theorem grid_visible {w w' : World} (i : Nat) (rows : List Nat) (specs : List Spec)
    (h : (w'.grid (.table i)).allClassAttributes = (w.grid (.table i)).allClassAttributes) :
    w'.grid (w.visible (.table i) rows specs) = Grid.viewFromVisible (w'.grid (.table i)) rows specs := by
  simp only [World.visible, Grid.viewFromVisible, h]
  rfl

end Golearn
