import Verif.Proofs.Accept

/-! # C07: allocated structure is frozen

The full property is false of the code: `AddAttributeToAttributeGroup` does not test whether storage
has been allocated (base/dense.go:236-256), so it changes the row stride under existing data.
-/

namespace Golearn

/-- Full statement: after `Extend`, a successful call that is not a `Set` never changes a value
that can be read through an existing specification. -/
def FrozenAfterExtend (pg : Nat) : Prop :=
  ∀ (ops : List Op) (st st' : St) (op : Op), run pg ops = Res.ok st → (∃ n, Op.extend n ∈ ops) →
    (∀ h r v, op ≠ Op.set h r v) → step pg st op = Res.ok st' →
    ∀ (h : Nat) (s : Spec) (r : Nat) (v : Bytes), st.handles[h]? = some s →
      st.d.get s r = Res.ok v → st'.d.get s r = Res.ok v

/-- The code violates it: one float column, two rows, a value in row 1, then a second float column
pushed into the same group; the first column's row 1 can no longer be read. -/
theorem C07_frozen_fails : ¬ FrozenAfterExtend 4096 := by
  intro H
  have := H [.add ⟨0, .float "a" 2⟩, .extend 2, .set 0 1 (packU64 7)]
    _ _ (.addTo ⟨1, .float "b" 2⟩ "FLOAT0") rfl ⟨2, by simp⟩ (by simp) rfl 0 _ 1 _ rfl rfl
  revert this
  decide +kernel

/-- What does hold: after `Extend`, `CreateAttributeGroup` returns an error and `AddAttribute`
panics (both leave the grid unchanged), and every call other than `Set` and
`AddAttributeToAttributeGroup` keeps every readable value. Missing for the full property: a check in
`AddAttributeToAttributeGroup`. -/
theorem C07_frozen_partial (pg : Nat) (ops : List Op) (st st' : St) (op : Op)
    (hl : noLateGroupAdd ops) (hrun : run pg ops = Res.ok st) (hext : ∃ n, Op.extend n ∈ ops) :
    (∀ name size, st.d.createAttributeGroup name size = Res.err) ∧
    (∀ a, st.d.addAttribute pg a = Res.panic) ∧
    ((∀ h r v, op ≠ Op.set h r v) → (∀ a ag, op ≠ Op.addTo a ag) → step pg st op = Res.ok st' →
      st'.handles = st.handles ∧
      ∀ (h : Nat) (s : Spec) (r : Nat), st.handles[h]? = some s → r < totalRows ops →
        st'.d.get s r = st.d.get s r) := by
  obtain ⟨I, hW, hf⟩ := run_inv pg ops st hl hrun
  have hfix := hf.2 hext
  refine ⟨?_, fun a => addAttribute_fixed hfix a, ?_⟩
  · intro name size
    simp [Dense.createAttributeGroup, Dense.createGroup, hfix]
  · intro h1 h2 hstep
    have keep : ∀ (d' : Dense), d'.ags = st.d.ags → ∀ (h : Nat) (s : Spec) (r : Nat),
        st.handles[h]? = some s → r < totalRows ops → d'.get s r = st.d.get s r := by
      intro d' e h s r _ _
      simp [Dense.get, e]
    cases op with
    | set h r v => exact absurd rfl (h1 h r v)
    | addTo a ag => exact absurd rfl (h2 a ag)
    | create name size =>
      simp only [step, Dense.createAttributeGroup, Dense.createGroup, hfix] at hstep
      simp only [if_true, Res.map, Res.bind, absorb, Res.ok.injEq] at hstep
      subst hstep
      exact ⟨rfl, fun _ _ _ _ _ => rfl⟩
    | add a =>
      simp only [step, addAttribute_fixed hfix, Res.map] at hstep
      cases hstep
    | addClass a =>
      simp only [step] at hstep
      rcases absorb_ok hstep with e | e
      · subst e; exact ⟨rfl, fun _ _ _ _ _ => rfl⟩
      · rw [Res.map_eq_ok] at e
        obtain ⟨d', h3, h4⟩ := e
        subst h4
        obtain ⟨s, _, e⟩ := addClass_ok h3
        exact ⟨rfl, keep d' (by rw [e])⟩
    | removeClass a =>
      simp only [step] at hstep
      rcases absorb_ok hstep with e | e
      · subst e; exact ⟨rfl, fun _ _ _ _ _ => rfl⟩
      · rw [Res.map_eq_ok] at e
        obtain ⟨d', h3, h4⟩ := e
        subst h4
        obtain ⟨s, _, e⟩ := removeClass_ok h3
        exact ⟨rfl, keep d' (by rw [e])⟩
    | extend n =>
      simp only [step, Res.ok.injEq] at hstep
      subst hstep
      refine ⟨rfl, ?_⟩
      intro h s r hs hr
      obtain ⟨id, g, q1, q2, q3⟩ := I.valid h s hs
      have hc : s.position < g.attrs.length := (List.getElem?_eq_some_iff.1 q3).1
      simp only [Dense.get, q1, q2, Dense.extend, List.getElem?_map, Option.map_some]
      exact Group.get_resize_old (I.sized _ _ q2) hc hr

section Examples
private def ops1 : List Op :=
  [.add ⟨0, .float "a" 2⟩, .add ⟨1, .cat "c" ["x"]⟩, .extend 2, .set 0 1 (packU64 7)]
example : ∃ st st', run 4096 ops1 = Res.ok st ∧ step 4096 st (.extend 3) = Res.ok st' ∧
    (∃ n, Op.extend n ∈ ops1) ∧ totalRows ops1 = 2 := by
  refine ⟨_, _, rfl, rfl, ⟨2, by simp [ops1]⟩, by decide⟩
end Examples

end Golearn
