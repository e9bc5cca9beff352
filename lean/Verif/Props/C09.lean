import Verif.Proofs.ClassAttrs

/-! # C09: class attributes behave as a set -/

namespace Golearn

/-- After any history on a grid whose attributes are pairwise different, `AllClassAttributes` lists
exactly the attributes that were designated and not removed since, each once. -/
theorem C09_class_attributes (pg : Nat) (ops : List Op) (st : St)
    (hb : ∀ op ∈ ops, basicOp op = true) (hrun : run pg ops = Res.ok st)
    (hd : (addedAttrs ops).Pairwise (fun a b => a.equals b = false)) :
    (∀ x, x ∈ st.d.allClassAttributes ↔ isDesignated ops x) ∧ st.d.allClassAttributes.Nodup := by
  have C := run_class pg ops st hb hrun hd
  obtain ⟨_, hat⟩ := run_basic pg ops st hb hrun
  refine ⟨?_, ?_⟩
  · intro x
    simp only [Dense.allClassAttributes, List.mem_map, List.mem_filter, Prod.exists]
    constructor
    · rintro ⟨s, b, ⟨h1, h2⟩, rfl⟩
      have hb : b = true := h2
      subst hb
      have hs := C.keys s (List.mem_map.2 ⟨_, h1, rfl⟩)
      exact (C.val s hs).1 ((GoMap.get?_of_mem _ C.nodup _ _).1 h1)
    · intro hx
      have hin : x ∈ addedAttrs ops := by
        obtain ⟨pre, b, post, e, h1, _⟩ := hx
        rw [e, addedAttrs_append]
        exact List.mem_append_left _ h1
      rw [← hat] at hin
      obtain ⟨s, hs, rfl⟩ := List.mem_map.1 hin
      exact ⟨s, true, ⟨(GoMap.get?_of_mem _ C.nodup _ _).2 ((C.val s hs).2 hx), rfl⟩, rfl⟩
  · have hinj : ∀ s ∈ st.handles, ∀ t ∈ st.handles, s.attr = t.attr → s = t := by
      intro s hs t ht e
      obtain ⟨i, hi, hiu⟩ := List.getElem_of_mem hs
      obtain ⟨j, hj, hju⟩ := List.getElem_of_mem ht
      rw [← hat, List.pairwise_map, List.pairwise_iff_getElem] at hd
      rcases Nat.lt_trichotomy i j with h | h | h
      · have := hd i j hi hj h
        rw [hiu, hju, e, C28_equals_refl] at this; cases this
      · subst h; rw [← hiu, ← hju]
      · have := hd j i hj hi h
        rw [hiu, hju, e, C28_equals_refl] at this; cases this
    unfold Dense.allClassAttributes
    rw [List.nodup_iff_pairwise_ne, List.pairwise_map]
    have hn : (st.d.classAttrs.filter fun p => p.2).Pairwise (fun a b => a.1 ≠ b.1) := by
      apply List.Pairwise.filter
      have := C.nodup
      rw [List.nodup_iff_pairwise_ne, List.pairwise_map] at this
      exact this
    refine List.Pairwise.imp_of_mem ?_ hn
    intro p q hp hq hne e
    have hp' := C.keys p.1 (List.mem_map.2 ⟨p, (List.mem_filter.1 hp).1, rfl⟩)
    have hq' := C.keys q.1 (List.mem_map.2 ⟨q, (List.mem_filter.1 hq).1, rfl⟩)
    exact hne (hinj _ hp' _ hq' e)

/-- Designating or removing an attribute that is not in the grid returns an error (the call does
not succeed and does not panic); it succeeds for every attribute that is. -/
theorem C09_absent_is_error (d : Dense) (a : Attr) :
    ((∀ b ∈ d.allAttributes, b.equals a = false) →
      d.addClassAttribute a = Res.err ∧ d.removeClassAttribute a = Res.err) ∧
    ((∃ b ∈ d.allAttributes, b.equals a = true) →
      (∃ d', d.addClassAttribute a = Res.ok d') ∧ ∃ d', d.removeClassAttribute a = Res.ok d') := by
  have h := findInGroups_spec a d.ags 0
  unfold Dense.addClassAttribute Dense.removeClassAttribute Dense.getAttribute Dense.allAttributes
  cases hf : Dense.findInGroups a d.ags 0 with
  | none =>
    rw [hf] at h
    refine ⟨fun _ => ⟨rfl, rfl⟩, ?_⟩
    rintro ⟨b, hb, he⟩
    exact absurd he (List.find?_eq_none.1 h b hb)
  | some s =>
    rw [hf] at h
    obtain ⟨_, _, _, _, _, e4, e5⟩ := h
    refine ⟨?_, fun _ => ⟨⟨_, rfl⟩, ⟨_, rfl⟩⟩⟩
    intro hall
    have := hall _ (List.mem_of_find?_eq_some e5)
    rw [e4] at this
    cases this

/-- Class-attribute calls leave the attributes, the rows and every cell alone. -/
theorem C09_frame (d d' : Dense) (a : Attr)
    (h : d.addClassAttribute a = Res.ok d' ∨ d.removeClassAttribute a = Res.ok d') :
    d'.size = d.size ∧ d'.allAttributes = d.allAttributes ∧
      ∀ s r, d'.get s r = d.get s r := by
  rcases h with h | h
  · obtain ⟨s, _, rfl⟩ := addClass_ok h
    exact ⟨rfl, rfl, fun _ _ => rfl⟩
  · obtain ⟨s, _, rfl⟩ := removeClass_ok h
    exact ⟨rfl, rfl, fun _ _ => rfl⟩

section Examples
private def fa : Attr := ⟨0, .float "a" 2⟩
private def fb : Attr := ⟨1, .cat "b" ["x"]⟩
private def ops1 : List Op :=
  [.add fa, .addClass fb, .add fb, .addClass fa, .addClass fb, .addClass fb, .removeClass fa, .extend 1]
example : ∃ st, run 4096 ops1 = Res.ok st ∧ (∀ op ∈ ops1, basicOp op = true) ∧
    (addedAttrs ops1).Pairwise (fun a b => a.equals b = false) ∧
    st.d.allClassAttributes = [fb] := by
  refine ⟨_, rfl, ?_⟩
  decide +kernel
end Examples

end Golearn
