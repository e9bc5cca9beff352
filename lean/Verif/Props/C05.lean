import Verif.Proofs.History

/-! # C05: Extend preserves data and adds zeroed rows -/

namespace Golearn

/-- In every reachable state `Extend(n)` keeps the attributes, adds exactly `n` rows to `Size`,
leaves every existing cell as it was, and every new cell reads as zero (eight zero bytes, or one
zero byte for a bit). -/
theorem C05_extend (pg : Nat) (ops : List Op) (st : St) (n : Nat)
    (hl : noLateGroupAdd ops) (hrun : run pg ops = Res.ok st) :
    st.d.size = (st.d.allAttributes.length, totalRows ops) ∧
    (st.d.extend n).size = (st.d.allAttributes.length, totalRows ops + n) ∧
    (st.d.extend n).allAttributes = st.d.allAttributes ∧
    (st.d.extend n).allClassAttributes = st.d.allClassAttributes ∧
    ∀ (h : Nat) (s : Spec), st.handles[h]? = some s →
      (∀ r, r < totalRows ops → (st.d.extend n).get s r = st.d.get s r ∧ (st.d.get s r).isOk) ∧
      (∀ r, totalRows ops ≤ r → r < totalRows ops + n →
        ∃ k, kindOf st.d s = some k ∧ (st.d.extend n).get s r = Res.ok (cellValue k none)) := by
  obtain ⟨I, hW, _⟩ := run_inv pg ops st hl hrun
  have I' := I.extend (n := n) hW
  have hall : (st.d.extend n).allAttributes = st.d.allAttributes := by
    simp [Dense.allAttributes, Dense.extend, List.flatMap_map, Group.resize]
  have hkind : ∀ s, kindOf (st.d.extend n) s = kindOf st.d s := by
    intro s
    unfold kindOf
    congr 1
    funext i
    simp only [Dense.extend, List.getElem?_map]
    cases st.d.ags[i]? <;> rfl
  refine ⟨by simp [Dense.size, I.hrows], ?_, hall, rfl, ?_⟩
  · simp only [Dense.size, hall]
    simp [Dense.extend, I.hrows]
  · intro h s hs
    refine ⟨?_, ?_⟩
    · intro r hr
      obtain ⟨k, hk, hg⟩ := I.cells h s r hs hr
      obtain ⟨k', hk', hg'⟩ := I'.cells h s r hs (by omega)
      rw [hkind, hk] at hk'
      have : k = k' := Option.some.inj hk'
      subst this
      exact ⟨by rw [hg, hg'], by rw [hg]; rfl⟩
    · intro r hr hr2
      obtain ⟨k', hk', hg'⟩ := I'.cells h s r hs hr2
      rw [hkind] at hk'
      rw [hW h r hr] at hg'
      exact ⟨k', hk', hg'⟩

section Examples
private def ops1 : List Op :=
  [.add ⟨0, .float "a" 2⟩, .add ⟨1, .bin "b"⟩, .extend 2, .set 0 1 (packU64 5), .set 1 0 [1#8]]
example : ∃ st, run 4096 ops1 = Res.ok st ∧ st.handles.length = 2 ∧ totalRows ops1 = 2 ∧
    (∀ op ∈ ops1, basicOp op = true) := by
  refine ⟨_, rfl, ?_⟩
  decide +kernel
end Examples

end Golearn
