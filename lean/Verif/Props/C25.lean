import Verif.Proofs.Instances

/-! # C25: InstancesAreEqual detects differences

The English claim is false: base/util_instances.go:516 and 526 look up and read the *first* grid
twice, so the second is never consulted. -/

namespace Golearn

theorem byteSeqEqual_self (b : Bytes) : byteSeqEqual b b = true := by
  have : ∀ b, byteSeqLoop b b = true := by
    intro b
    induction b with
    | nil => rfl
    | cons x xs ih => simp [byteSeqLoop, ih]
  simp [byteSeqEqual, this]

theorem equalRows_self {g : Grid} {s : Spec} {rows : List Nat}
    (h : ∀ r ∈ rows, ∃ v, g.get s r = Res.ok v) : equalRows g s s rows = Res.ok true := by
  induction rows with
  | nil => rfl
  | cons r rs ih =>
    obtain ⟨v, hv⟩ := h r (by simp)
    simp only [equalRows, hv, Res.bind_ok, byteSeqEqual_self, if_true]
    exact ih (fun q hq => h q (by simp [hq]))

/-- Whatever the second grid is, `InstancesAreEqual` answers true for every first grid that behaves
as a table. In particular equal grids are reported equal, which is the half of the claim that
holds. -/
theorem C25_equal_grids_partial (g : Grid) (n : Nat) (P : g.Presents n) (other : Grid) :
    instancesAreEqual g other = Res.ok true := by
  unfold instancesAreEqual
  have : ∀ as : List Attr, (∀ a ∈ as, a ∈ g.allAttributes) → equalAttrs g as = Res.ok true := by
    intro as
    induction as with
    | nil => intro _; rfl
    | cons a as ih =>
      intro h
      obtain ⟨s, h1, h2, h3⟩ := P.read a (h a (by simp))
      have hr : equalRows g s s (List.range n) = Res.ok true :=
        equalRows_self (fun r hr => ⟨_, h3 r (List.mem_range.1 hr)⟩)
      simp only [equalAttrs, h1, Res.orPanic, Res.bind_ok, C28_equals_refl, if_true, P.rows, hr]
      exact ih (fun b hb => h b (by simp [hb]))
  exact this _ (fun _ h => h)

section Witness
private def aF : Attr := ⟨0, .float "f" 2⟩
private def aG : Attr := ⟨1, .float "g" 2⟩

/-- The full property: grids reported equal have the same number of rows and the same value in
every cell. -/
def EqualMeansSame : Prop :=
  ∀ g h : Grid, instancesAreEqual g h = Res.ok true →
    g.size.2 = h.size.2 ∧ ∀ a ∈ g.allAttributes, ∀ r, r < g.size.2 → g.cell a r = h.cell a r

/-- It is false of the code: two one-row grids holding 1 and 2 are reported equal. -/
theorem C25_instances_equal_fails : ¬ EqualMeansSame := by
  intro H
  have e : ((run 4096 [.add aF, .extend 1, .set 0 0 (packU64 1)]).bind fun s1 =>
     (run 4096 [.add aF, .extend 1, .set 0 0 (packU64 2)]).map fun s2 =>
      decide (instancesAreEqual (.dense s1.d) (.dense s2.d) = Res.ok true ∧
        aF ∈ (Grid.dense s1.d).allAttributes ∧ 0 < (Grid.dense s1.d).size.2 ∧
        (Grid.dense s1.d).cell aF 0 ≠ (Grid.dense s2.d).cell aF 0)) = Res.ok true := by
    decide +kernel
  rw [Res.bind_eq_ok] at e
  obtain ⟨s1, _, e⟩ := e
  rw [Res.map_eq_ok] at e
  obtain ⟨s2, _, e⟩ := e
  rw [decide_eq_true_eq] at e
  exact e.2.2.2 ((H _ _ e.1).2 aF e.2.1 0 e.2.2.1)

/-- A grid meeting the hypothesis of `C25_equal_grids_partial`. -/
example : ∃ st, run 4096 [.add aF, .extend 1] = Res.ok st ∧ (Grid.dense st.d).Presents 1 := by
  have hok : (run 4096 [.add aF, .extend 1]).isOk = true := by decide +kernel
  cases hr : run 4096 [.add aF, .extend 1] with
  | ok st => exact ⟨st, rfl, (denseOK_run (by decide) hr (by decide)).presents⟩
  | err => rw [hr] at hok; cases hok
  | panic => rw [hr] at hok; cases hok
end Witness

end Golearn
