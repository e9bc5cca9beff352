import Verif.Proofs.Accept
import Verif.Spec.Accept

/-! # C06: attribute specifications stay valid and distinct -/

namespace Golearn

/-- Two different specifications handed out never address the same storage cell: they differ in
group or position (and C03 shows writes through one are invisible through the other). -/
theorem C06_specs_distinct (pg : Nat) (ops : List Op) (st : St)
    (hl : noLateGroupAdd ops) (hrun : run pg ops = Res.ok st)
    (h h' : Nat) (s s' : Spec) (hs : st.handles[h]? = some s) (hs' : st.handles[h']? = some s')
    (hne : h ≠ h') : (s.pond, s.position) ≠ (s'.pond, s'.position) := by
  intro e
  simp only [Prod.mk.injEq] at e
  exact hne ((run_inv pg ops st hl hrun).1.inj h h' s s' hs hs' e.1 e.2)

/-- A specification stays valid whatever is called afterwards: it is still the same specification
for the same attribute, and reading any allocated row through it succeeds. -/
theorem C06_specs_stay_valid (pg : Nat) (ops later : List Op) (st st' : St)
    (hl : noLateGroupAdd (ops ++ later))
    (hrun : run pg ops = Res.ok st) (hrun' : run pg (ops ++ later) = Res.ok st')
    (h : Nat) (s : Spec) (hs : st.handles[h]? = some s) :
    st'.handles[h]? = some s ∧
    ∀ r, r < totalRows (ops ++ later) → ∃ v, st'.d.get s r = Res.ok v := by
  have hp := run_handles hrun hrun'
  have hs' : st'.handles[h]? = some s := by
    obtain ⟨t, ht⟩ := hp
    rw [← ht, List.getElem?_append_left (List.getElem?_eq_some_iff.1 hs).1]
    exact hs
  refine ⟨hs', ?_⟩
  intro r hr
  obtain ⟨k, _, hg⟩ := (run_inv pg _ st' hl hrun').1.cells h s r hs' hr
  exact ⟨_, hg⟩

/-- The specifications handed out are those of the attributes added, in order, and `AllAttributes`
lists exactly the added attributes, each as often as it was added. -/
theorem C06_all_attributes (pg : Nat) (ops : List Op) (st : St)
    (hb : ∀ op ∈ ops, basicOp op = true) (hrun : run pg ops = Res.ok st) :
    st.handles.map Spec.attr = addedAttrs ops ∧
    st.d.allAttributes.Perm (addedAttrs ops) := by
  obtain ⟨_, hl⟩ := run_basic pg ops st hb hrun
  exact ⟨hl, hl ▸ (run_inv pg ops st (basic_noLate hb) hrun).1.listed⟩

/-- Exactly the legal histories run to completion; every other one ends in a panic. -/
theorem C06_accepted_iff (pg : Nat) (ops : List Op) (hb : ∀ op ∈ ops, basicOp op = true) :
    (∃ st, run pg ops = Res.ok st) ↔
      ∀ pre op post, ops = pre ++ op :: post → legal pre op := by
  induction ops using List.reverseRecOn with
  | nil => simp [run]
  | append_singleton ops op ih =>
    have hb0 : ∀ o ∈ ops, basicOp o = true := fun o ho => hb o (by simp [ho])
    have hop := hb op (by simp)
    have one : ∀ st, run pg ops = Res.ok st →
        ((∃ st', step pg st op = Res.ok st') ↔ legal ops op) := by
      intro st hst
      obtain ⟨I, _, hf⟩ := run_inv pg ops st (basic_noLate hb0) hst
      obtain ⟨B, hat⟩ := run_basic pg ops st hb0 hst
      cases op with
      | create _ _ => simp [basicOp] at hop
      | addTo _ _ => simp [basicOp] at hop
      | addClass a =>
        simp only [step, legal, iff_true]
        unfold Dense.addClassAttribute
        have := getAttribute_ne_panic st.d a
        cases hg : st.d.getAttribute a with
        | ok s => exact ⟨_, rfl⟩
        | err => exact ⟨_, rfl⟩
        | panic => exact absurd hg this
      | removeClass a =>
        simp only [step, legal, iff_true]
        unfold Dense.removeClassAttribute
        have := getAttribute_ne_panic st.d a
        cases hg : st.d.getAttribute a with
        | ok s => exact ⟨_, rfl⟩
        | err => exact ⟨_, rfl⟩
        | panic => exact absurd hg this
      | extend n => simp [step, legal]
      | add a =>
        simp only [step, legal]
        constructor
        · rintro ⟨st', h'⟩
          rw [Res.map_eq_ok] at h'
          obtain ⟨p, hp, _⟩ := h'
          intro n hn
          have : st.d.fixed = true := hf.2 ⟨n, hn⟩
          rw [addAttribute_fixed this] at hp
          cases hp
        · intro h
          have hff : st.d.fixed = false := by
            cases hb : st.d.fixed with
            | false => rfl
            | true => obtain ⟨n, hn⟩ := hf.1 hb; exact absurd hn (h n)
          obtain ⟨p, hp⟩ := addAttribute_total (pg := pg) I hff a
          rw [hp]
          exact ⟨_, rfl⟩
      | set k r v =>
        simp only [step, legal]
        constructor
        · rintro ⟨st', h'⟩
          split at h'
          · cases h'
          · rename_i s hs
            rw [Res.map_eq_ok] at h'
            obtain ⟨d', hd', _⟩ := h'
            obtain ⟨id, g, g', q1, q2, _, hr, hv, _, _⟩ := dense_set_ok I hs hd'
            refine ⟨s.attr, ?_, hr, ?_⟩
            · rw [← hat, List.getElem?_map, hs]; rfl
            · have := B.stored k s hs
              simp only [kindOf, q1, q2, Option.bind_some, Option.map_some, Option.some.injEq] at this
              rw [← this]; exact hv
        · rintro ⟨a, ha, hr, hv⟩
          rw [← hat, List.getElem?_map, Option.map_eq_some_iff] at ha
          obtain ⟨s, hs, hsa⟩ := ha
          have hk := B.stored k s hs
          rw [hsa] at hk
          obtain ⟨d', hd'⟩ := set_total I hs hk hr hv
          simp only [hs, hd', Res.map_ok]
          exact ⟨_, rfl⟩
    constructor
    · rintro ⟨st', h'⟩
      rw [run_snoc, Res.bind_eq_ok] at h'
      obtain ⟨st, h0, h1⟩ := h'
      intro pre o post e
      rcases List.eq_nil_or_concat post with rfl | ⟨post', x, rfl⟩
      · have e' : ops = pre ∧ op = o := by
          have := List.append_inj' e rfl
          simpa using this
        obtain ⟨rfl, rfl⟩ := e'
        exact (one st h0).1 ⟨st', h1⟩
      · have e' : ops ++ [op] = (pre ++ o :: post') ++ [x] := by rw [e]; simp
        have := (List.append_inj' e' rfl).1
        exact (ih hb0).1 ⟨st, h0⟩ pre o post' this
    · intro h
      have hpre : ∀ pre o post, ops = pre ++ o :: post → legal pre o := by
        intro pre o post e
        exact h pre o (post ++ [op]) (by rw [e]; simp)
      obtain ⟨st, hst⟩ := (ih hb0).2 hpre
      obtain ⟨st', hst'⟩ := (one st hst).2 (h ops op [] rfl)
      exact ⟨st', by rw [run_snoc, hst]; exact hst'⟩

/-- In particular, adding an attribute after `Extend` is rejected. -/
theorem C06_add_after_extend_rejected (pg : Nat) (d : Dense) (n : Nat) (a : Attr) :
    (d.extend n).addAttribute pg a = Res.panic :=
  addAttribute_fixed rfl a

section Examples
private def ops1 : List Op :=
  [.add ⟨0, .float "a" 2⟩, .add ⟨1, .bin "b"⟩, .add ⟨2, .cat "c" ["x"]⟩, .extend 1]
private def ops2 : List Op := [.set 2 0 (packU64 0), .extend 4]
example : ∃ st st', run 4096 ops1 = Res.ok st ∧ run 4096 (ops1 ++ ops2) = Res.ok st' ∧
    st.handles.length = 3 ∧ (∀ op ∈ ops1 ++ ops2, basicOp op = true) := by
  refine ⟨_, _, rfl, rfl, ?_⟩
  decide +kernel
/-- A history that is not legal, and one that is: both sides of the equivalence occur. -/
example : run 4096 [.add ⟨0, .float "a" 2⟩, .extend 1, .set 0 1 (packU64 0)] = Res.panic := by
  decide +kernel
end Examples

end Golearn
