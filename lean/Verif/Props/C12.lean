import Verif.Proofs.Swap

/-! # C12: Shuffle is a permutation of rows -/

namespace Golearn

/-- `Shuffle` on `DenseInstances`, for every sequence of random draws (`draw i` is the result of
`rand.Intn(i+1)`) and whatever order the unstable specification sort leaves: it succeeds, keeps
size, attributes and class attributes, and there is a permutation `σ` of the row numbers such that
in every column row `r` of the result is row `σ r` of the original (whole rows move together). -/
theorem C12_shuffle_permutes (pg : Nat) (ops : List Op) (st : St)
    (hb : ∀ op ∈ ops, basicOp op = true) (hrun : run pg ops = Res.ok st)
    (hd : (addedAttrs ops).Pairwise (fun a b => a.equals b = false))
    (srt : List Spec → List Spec) (hsrt : ∀ l, (srt l).Perm l)
    (draw : Nat → Nat) (hdraw : ∀ i, draw i ≤ i) :
    ∃ d' σ, shuffleDense srt draw st.d = Res.ok d' ∧
      ((List.range (totalRows ops)).map σ).Perm (List.range (totalRows ops)) ∧
      (Grid.dense d').Presents (totalRows ops) ∧
      d'.allAttributes = st.d.allAttributes ∧ d'.allClassAttributes = st.d.allClassAttributes ∧
      ∀ a ∈ st.d.allAttributes, ∀ r, r < totalRows ops →
        (Grid.dense d').cell a r = (Grid.dense st.d).cell a (σ r) := by
  have D := denseOK_run hb hrun hd
  have hsz : st.d.size.2 = totalRows ops := D.presents.rows
  have hsw : ∀ p ∈ (List.range st.d.size.2).map (fun i => (i, draw i)),
      p.1 < totalRows ops ∧ p.2 < totalRows ops := by
    intro p hp
    obtain ⟨i, hi, rfl⟩ := List.mem_map.1 hp
    have := List.mem_range.1 hi
    have := hdraw i
    simp only
    omega
  obtain ⟨d', e, D', A, C, _, _, V⟩ := swapAll_spec hsrt _ D hsw
  refine ⟨d', _, e, map_perm_range _ (Equiv.injective _) (fun r hr => srcRow_lt hsw hr),
    D'.presents, A, ?_, V⟩
  simp only [Dense.allClassAttributes, C]

/-- Every permutation of the rows is the outcome of some sequence of draws. -/
theorem C12_every_permutation (n : Nat) (σ : Equiv.Perm Nat) (hσ : ∀ r, n ≤ r → σ r = r) :
    ∃ draw : Nat → Nat, (∀ i, draw i ≤ i) ∧
      ∀ r, srcRow ((List.range n).map fun i => (i, draw i)) r = σ r := by
  induction n generalizing σ with
  | zero => exact ⟨id, fun i => Nat.le_refl _, fun r => by simpa using (hσ r (Nat.zero_le _)).symm⟩
  | succ n ih =>
    have hj : σ.symm n ≤ n := by
      by_contra hlt
      have := hσ (σ.symm n) (by omega)
      rw [Equiv.apply_symm_apply] at this
      omega
    obtain ⟨draw, h1, h2⟩ := ih (σ * Equiv.swap n (σ.symm n)) (by
      intro r hr
      rcases Nat.lt_or_ge n r with h | h
      · rw [Equiv.Perm.mul_apply, Equiv.swap_apply_of_ne_of_ne (by omega) (by omega)]
        exact hσ r (by omega)
      · have : r = n := by omega
        subst this
        simp)
    refine ⟨fun i => if i = n then σ.symm n else draw i, ?_, ?_⟩
    · intro i
      by_cases hi : i = n
      · simp only [hi, if_true]; exact hj
      · simp only [hi, if_false]; exact h1 i
    · intro r
      rw [List.range_succ, List.map_append, List.map_singleton, srcRow_snoc]
      have : (List.range n).map (fun i => (i, if i = n then σ.symm n else draw i)) =
          (List.range n).map (fun i => (i, draw i)) := by
        apply List.map_congr_left
        intro i hi
        have := List.mem_range.1 hi
        rw [if_neg (by omega)]
      rw [this, h2]
      simp

section Examples
private def ops1 : List Op :=
  [.add ⟨0, .float "a" 2⟩, .add ⟨1, .bin "b"⟩, .extend 3,
   .set 0 1 (packU64 5), .set 0 2 (packU64 6), .set 1 1 [1#8]]
/-- A three-row grid meets the hypotheses; the draws 0, 0, 1 turn rows 0,1,2 into rows 1,2,0. -/
example : ∃ st d', run 4096 ops1 = Res.ok st ∧ (∀ op ∈ ops1, basicOp op = true) ∧
    (addedAttrs ops1).Pairwise (fun a b => a.equals b = false) ∧
    shuffleDense id (fun i => i / 2) st.d = Res.ok d' ∧
    (List.range 3).map (fun r => ((Grid.dense d').cell ⟨0, .float "a" 2⟩ r,
      (Grid.dense d').cell ⟨1, .bin "b"⟩ r)) =
    [(packU64 5, [1#8]), (packU64 6, [0#8]), (packU64 0, [0#8])] := by
  refine ⟨_, _, rfl, ?_, ?_, rfl, ?_⟩ <;> decide +kernel
end Examples

end Golearn
