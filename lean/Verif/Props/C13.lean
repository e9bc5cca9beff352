import Verif.Proofs.View
import Verif.Model.Sort
import Verif.Proofs.DenseTable

/-! # C13: LazyShuffle presents each row exactly once (fails) -/

namespace Golearn

/-- The full property: the rows shown by `LazyShuffle` are a permutation of the source rows. -/
def LazyShufflePermutes : Prop :=
  ∀ (g : Grid) (n : Nat) (_ : g.Presents n) (draw : Nat → Nat) (_ : ∀ i, draw i ≤ i),
    ∃ σ : Nat → Nat, ((List.range n).map σ).Perm (List.range n) ∧
      ∀ a ∈ g.allAttributes, ∀ r, r < n → (lazyShuffle draw g).cell a r = g.cell a (σ r)

private def opsC13 : List Op :=
  [.add ⟨0, .float "a" 2⟩, .extend 3, .set 0 1 (packU64 1), .set 0 2 (packU64 2)]

private theorem runC13 : ∃ st, run 4096 opsC13 = Res.ok st ∧ (∀ op ∈ opsC13, basicOp op = true) ∧
    (addedAttrs opsC13).Pairwise (fun a b => a.equals b = false) ∧ totalRows opsC13 = 3 ∧
    st.d.allAttributes = [⟨0, .float "a" 2⟩] ∧
    (List.range 3).map ((Grid.dense st.d).cell ⟨0, .float "a" 2⟩) =
      [packU64 0, packU64 1, packU64 2] ∧
    (List.range 3).map ((lazyShuffle (fun _ => 0) (.dense st.d)).cell ⟨0, .float "a" 2⟩) =
      [packU64 2, packU64 0, packU64 0] := by
  refine ⟨_, rfl, ?_⟩
  decide +kernel

/-- It is false of the code: on a three-row grid the draws 0, 0, 0 show row 2 once, row 0 twice and
row 1 never. -/
theorem C13_lazy_shuffle_fails : ¬ LazyShufflePermutes := by
  intro H
  obtain ⟨st, hrun, hb, hd, h3, hat, hsrc, hview⟩ := runC13
  have D := denseOK_run hb hrun hd
  rw [h3] at D
  obtain ⟨σ, hp, hc⟩ := H (.dense st.d) 3 D.presents (fun _ => 0) (fun i => Nat.zero_le i)
  have ha : (⟨0, .float "a" 2⟩ : Attr) ∈ (Grid.dense st.d).allAttributes := by
    simp [Grid.allAttributes, hat]
  simp only [List.range, List.range.loop, List.map_cons, List.map_nil, List.cons.injEq, and_true]
    at hsrc hview hp
  obtain ⟨s0, s1, s2⟩ := hsrc
  obtain ⟨v0, v1, v2⟩ := hview
  have c1 := hc _ ha 1 (by omega)
  have c2 := hc _ ha 2 (by omega)
  rw [v1] at c1
  rw [v2] at c2
  have hlt : ∀ r ∈ [σ 0, σ 1, σ 2], r = 0 ∨ r = 1 ∨ r = 2 := by
    intro r hr
    have := hp.subset hr
    simpa using this
  have hz : ∀ r, r = 0 ∨ r = 1 ∨ r = 2 →
      packU64 0 = (Grid.dense st.d).cell ⟨0, .float "a" 2⟩ r → r = 0 := by
    rintro r (rfl | rfl | rfl) h
    · rfl
    · rw [s1] at h; revert h; decide +kernel
    · rw [s2] at h; revert h; decide +kernel
  have e1 := hz _ (hlt _ (by simp)) c1
  have e2 := hz _ (hlt _ (by simp)) c2
  have hn : [σ 0, σ 1, σ 2].Nodup := hp.nodup_iff.2 (by decide)
  rw [e1, e2] at hn
  simp at hn

theorem lazyRows_lt (draw : Nat → Nat) (hdraw : ∀ i, draw i ≤ i) (n : Nat) (r q : Nat)
    (h : GoMap.get? ((List.range n).foldl
      (fun m i => GoMap.set (GoMap.set m i (draw i)) (draw i) i) ([] : GoMap Nat Nat)) r = some q) :
    r < n ∧ q < n := by
  induction n with
  | zero => simp [GoMap.get?] at h
  | succ n ih =>
    rw [List.range_succ, List.foldl_append] at h
    simp only [List.foldl_cons, List.foldl_nil, GoMap.get?_set] at h
    have := hdraw n
    split at h
    · rename_i e
      simp only [Option.some.injEq] at h
      omega
    · split at h
      · simp only [Option.some.injEq] at h
        omega
      · have := ih h
        omega

/-- What does hold, for every grid and every sequence of draws: the view has the source's row count
limits and every row it shows is a whole row of the source. Missing from the full property: that no
source row is lost or shown twice. -/
theorem C13_lazy_shuffle_partial (g : Grid) (n : Nat) (P : g.Presents n) (draw : Nat → Nat)
    (hdraw : ∀ i, draw i ≤ i) :
    ∃ σ : Nat → Nat, (∀ r, r < n → σ r < n) ∧
      ∀ a ∈ g.allAttributes, ∀ r, r < n →
        (∃ s, (lazyShuffle draw g).getAttribute a = Res.ok s ∧ s.attr = a ∧
          (lazyShuffle draw g).get s r = Res.ok (g.cell a (σ r))) ∧
        (lazyShuffle draw g).cell a r = g.cell a (σ r) := by
  refine ⟨fun r => (GoMap.get? ((List.range g.size.2).foldl
    (fun m i => GoMap.set (GoMap.set m i (draw i)) (draw i) i) ([] : GoMap Nat Nat)) r).getD r, ?_, ?_⟩
  · intro r hr
    cases h : GoMap.get? ((List.range g.size.2).foldl
      (fun m i => GoMap.set (GoMap.set m i (draw i)) (draw i) i) ([] : GoMap Nat Nat)) r with
    | none => simp only [h]; simpa using hr
    | some q =>
      have := (lazyRows_lt draw hdraw _ _ _ h).2
      rw [P.rows] at this
      simp only [h]; simpa using this
  · intro a ha r hr
    apply rowsView_cell P _ ha
    cases h : GoMap.get? ((List.range g.size.2).foldl
      (fun m i => GoMap.set (GoMap.set m i (draw i)) (draw i) i) ([] : GoMap Nat Nat)) r with
    | none => simpa using hr
    | some q =>
      have := (lazyRows_lt draw hdraw _ _ _ h).2
      rw [P.rows] at this
      simpa using this

/-- A grid and draws meeting the hypotheses of the partial theorem. -/
example : ∃ st, run 4096 opsC13 = Res.ok st ∧ (Grid.dense st.d).Presents 3 := by
  obtain ⟨st, hrun, hb, hd, h3, _⟩ := runC13
  exact ⟨st, hrun, h3 ▸ (denseOK_run hb hrun hd).presents⟩

end Golearn
