import Verif.Proofs.Accept
import Verif.Proofs.GetAttr

/-! # C08: GetAttribute finds exactly the attributes present -/

namespace Golearn

/-- `GetAttribute(a)` never panics; it succeeds exactly when some attribute in `AllAttributes`
Equals `a`. -/
theorem C08_get_attribute_iff (d : Dense) (a : Attr) :
    d.getAttribute a ≠ Res.panic ∧
    ((∃ s, d.getAttribute a = Res.ok s) ↔ ∃ b ∈ d.allAttributes, b.equals a = true) := by
  refine ⟨getAttribute_ne_panic d a, ?_⟩
  have h := findInGroups_spec a d.ags 0
  unfold Dense.getAttribute Dense.allAttributes
  cases hf : Dense.findInGroups a d.ags 0 with
  | none =>
    rw [hf] at h
    simp only [reduceCtorEq, exists_false, false_iff, not_exists, not_and]
    intro b hb
    exact List.find?_eq_none.1 h b hb
  | some s =>
    rw [hf] at h
    obtain ⟨_, _, _, _, _, e4, e5⟩ := h
    simp only [Res.ok.injEq, exists_eq', true_iff]
    exact ⟨s.attr, List.mem_of_find?_eq_some e5, e4⟩

/-- The specification returned carries the first attribute of `AllAttributes` that Equals the
argument, and (in every state a client can reach) it is one of the specifications that were handed
out when attributes were added. -/
theorem C08_get_attribute_spec (pg : Nat) (ops : List Op) (st : St)
    (hl : noLateGroupAdd ops) (hrun : run pg ops = Res.ok st) (a : Attr) (s : Spec)
    (hget : st.d.getAttribute a = Res.ok s) :
    st.d.allAttributes.find? (fun b => b.equals a) = some s.attr ∧ s ∈ st.handles := by
  obtain ⟨I, _, _⟩ := run_inv pg ops st hl hrun
  have h := findInGroups_spec a st.d.ags 0
  unfold Dense.getAttribute at hget
  cases hf : Dense.findInGroups a st.d.ags 0 with
  | none => rw [hf] at hget; cases hget
  | some t =>
    rw [hf] at hget h
    simp only [Res.ok.injEq] at hget
    subst hget
    obtain ⟨i, g, e1, e2, e3, e4, e5⟩ := h
    refine ⟨e5, ?_⟩
    obtain ⟨k, hk⟩ := I.complete i g t.position t.attr e2 e3
    have : (⟨some i, t.position, t.attr⟩ : Spec) = t := by
      rw [Nat.zero_add] at e1
      rw [← e1]
    rw [this] at hk
    exact List.mem_of_getElem? hk

section Examples
private def ops1 : List Op :=
  [.add ⟨0, .float "a" 2⟩, .add ⟨1, .cat "c" ["x"]⟩, .add ⟨2, .float "b" 2⟩, .extend 2]
/-- Looking up a fresh attribute equal to the third one finds the third one. -/
example : ∃ st, run 4096 ops1 = Res.ok st ∧
    st.d.getAttribute ⟨9, .float "b" 5⟩ = Res.ok ⟨some 0, 1, ⟨2, .float "b" 2⟩⟩ ∧
    st.d.getAttribute ⟨9, .float "z" 5⟩ = Res.err := by
  refine ⟨_, rfl, ?_⟩
  decide +kernel
end Examples

end Golearn
