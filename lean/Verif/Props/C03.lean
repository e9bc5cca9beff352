import Verif.Proofs.History

/-! # C03: writing one cell never changes another -/

namespace Golearn

/-- In every state a client can reach, a `Set` through one specification leaves the value read
through every other (specification, row) pair unchanged: other rows, other columns packed in the
same group (bits of the same byte included) and other groups. -/
theorem C03_set_no_interference (pg : Nat) (ops : List Op) (st : St)
    (hl : noLateGroupAdd ops) (hrun : run pg ops = Res.ok st)
    (h : Nat) (s : Spec) (hs : st.handles[h]? = some s) (row : Nat) (v : Bytes) (d' : Dense)
    (hset : st.d.set s row v = Res.ok d')
    (h' : Nat) (s' : Spec) (hs' : st.handles[h']? = some s') (row' : Nat)
    (hr' : row' < totalRows ops) (hne : (h', row') ≠ (h, row)) :
    d'.get s' row' = st.d.get s' row' ∧ ∃ w, st.d.get s' row' = Res.ok w := by
  obtain ⟨I, _, _⟩ := run_inv pg ops st hl hrun
  obtain ⟨_, I'⟩ := I.set hs hset
  obtain ⟨k, hk, hg⟩ := I.cells h' s' row' hs' hr'
  obtain ⟨k', hk', hg'⟩ := I'.cells h' s' row' hs' hr'
  rw [kindOf_set hset, hk] at hk'
  have : k = k' := Option.some.inj hk'
  subst this
  have hu : updW (lastWrite ops) h row v h' row' = lastWrite ops h' row' := by
    simp only [updW]
    rw [if_neg]
    rintro ⟨rfl, rfl⟩
    exact hne rfl
  rw [hu] at hg'
  exact ⟨by rw [hg, hg'], _, hg⟩

/-- `Set` never changes the number of rows, the attributes or the class attributes. -/
theorem C03_set_frame (d d' : Dense) (s : Spec) (row : Nat) (v : Bytes)
    (h : d.set s row v = Res.ok d') :
    d'.size = d.size ∧ d'.allAttributes = d.allAttributes ∧
      d'.allClassAttributes = d.allClassAttributes := by
  unfold Dense.set at h
  split at h
  · cases h
  · rename_i id hid
    split at h
    · cases h
    · rename_i g hg
      rw [Res.map_eq_ok] at h
      obtain ⟨g', h1, h2⟩ := h
      subst h2
      have hidl : id < d.ags.length := (List.getElem?_eq_some_iff.1 hg).1
      have hat := (Group.set_frame h1).2.1
      have hall : ({ d with ags := d.ags.set id g' } : Dense).allAttributes = d.allAttributes := by
        simp only [Dense.allAttributes]
        apply congrArg List.flatten
        apply List.ext_getElem?
        intro i
        simp only [List.getElem?_map]
        by_cases hi : id = i
        · subst hi
          rw [List.getElem?_set_self hidl, hg]
          simp [hat]
        · rw [List.getElem?_set_ne hi]
      exact ⟨by simp [Dense.size, hall], hall, rfl⟩

section Examples
private def bn (n : Nat) (s : String) : Attr := ⟨n, .bin s⟩
private def ops1 : List Op :=
  [.add (bn 0 "a"), .add (bn 1 "b"), .add ⟨2, .float "c" 2⟩, .extend 2, .set 1 1 [1#8]]
/-- Two binary columns share a byte; writing one keeps the other, in a reachable state. -/
example : ∃ st s d', run 4096 ops1 = Res.ok st ∧ st.handles[0]? = some s ∧
    st.d.set s 1 [1#8] = Res.ok d' ∧ (1 : Nat) < totalRows ops1 ∧
    (∀ op ∈ ops1, basicOp op = true) := by
  refine ⟨_, _, _, rfl, rfl, rfl, ?_⟩
  decide +kernel
end Examples

end Golearn
