import Verif.Proofs.View
import Verif.Model.Sort
import Verif.Proofs.DenseTable

/-! # C17: sampling with replacement -/

namespace Golearn

/-- The full property: `SampleWithReplacement(g, size)` is a grid of `size` rows, each a row of `g`. -/
def SampleIsRows : Prop :=
  ∀ (g : Grid) (n : Nat) (_ : g.Presents n) (_ : 0 < n) (draw : Nat → Nat) (_ : ∀ i, draw i < n)
    (size : Nat), ∃ v, sampleWithReplacement draw g size = Res.ok v ∧ v.size.2 = size ∧
      ∀ r, r < size → ∃ q, q < n ∧ ∀ a ∈ g.allAttributes, v.cell a r = g.cell a q

private def opsC17 : List Op :=
  [.add ⟨0, .float "a" 2⟩, .extend 3, .set 0 1 (packU64 1), .set 0 2 (packU64 2)]

private theorem runC17 : ∃ st v, run 4096 opsC17 = Res.ok st ∧
    (∀ op ∈ opsC17, basicOp op = true) ∧
    (addedAttrs opsC17).Pairwise (fun a b => a.equals b = false) ∧ totalRows opsC17 = 3 ∧
    sampleWithReplacement (fun _ => 1) (.dense st.d) 1 = Res.ok v ∧ v.size.2 = 3 := by
  refine ⟨_, _, rfl, ?_, ?_, ?_, rfl, ?_⟩ <;> decide +kernel

/-- It is false of the code: sampling one row of three gives a grid that reports three rows. -/
theorem C17_sample_size_fails : ¬ SampleIsRows := by
  intro H
  obtain ⟨st, v, hrun, hb, hd, h3, hv, hsz⟩ := runC17
  have D := denseOK_run hb hrun hd
  rw [h3] at D
  obtain ⟨v', h1, h2, _⟩ := H (.dense st.d) 3 D.presents (by omega) (fun _ => 1) (by omega) 1
  rw [hv, Res.ok.injEq] at h1
  subst h1
  omega

theorem sampleRows_get (draw : Nat → Nat) (size r : Nat) :
    GoMap.get? ((List.range size).foldl (fun m i => GoMap.set m i (draw i)) ([] : GoMap Nat Nat)) r =
      if r < size then some (draw r) else none := by
  induction size with
  | zero => simp [GoMap.get?]
  | succ k ih =>
    rw [List.range_succ, List.foldl_append]
    simp only [List.foldl_cons, List.foldl_nil, GoMap.get?_set, ih]
    by_cases h : k = r
    · subst h; simp
    · rw [if_neg h]
      by_cases h' : r < k
      · rw [if_pos h', if_pos (by omega)]
      · rw [if_neg h', if_neg (by omega)]

theorem GoMap.length_set {κ ν : Type} [DecidableEq κ] (m : GoMap κ ν) (k : κ) (v : ν) :
    (m.set k v).length = if k ∈ m.map Prod.fst then m.length else m.length + 1 := by
  induction m with
  | nil => simp [GoMap.set]
  | cons p ps ih =>
    obtain ⟨k0, v0⟩ := p
    unfold GoMap.set
    by_cases h : k0 = k
    · subst h; simp
    · have h' : ¬ k = k0 := fun e => h e.symm
      simp only [h, if_false, List.length_cons, ih, List.map_cons, List.mem_cons, h', false_or]
      split <;> rfl

theorem sampleRows_len (draw : Nat → Nat) (size : Nat) :
    let m := (List.range size).foldl (fun m i => GoMap.set m i (draw i)) ([] : GoMap Nat Nat)
    m.length = size ∧ ∀ k, k ∈ m.map Prod.fst → k < size := by
  induction size with
  | zero => simp
  | succ n ih =>
    obtain ⟨h1, h2⟩ := ih
    rw [List.range_succ, List.foldl_append]
    simp only [List.foldl_cons, List.foldl_nil]
    refine ⟨?_, ?_⟩
    · rw [GoMap.length_set, if_neg, h1]
      intro hm
      exact absurd (h2 n hm) (by omega)
    · intro k hk
      rw [GoMap.mem_keys_set] at hk
      rcases hk with rfl | hk
      · omega
      · have := h2 k hk; omega

/-- What holds, for every grid and all draws: with `size` at least the source's row count the
sample has exactly `size` rows, and always row `r < size` is the whole source row drawn in round
`r`. Missing: the reported row count when `size` is smaller (it is then the source's). -/
theorem C17_sample_partial (g : Grid) (n : Nat) (P : g.Presents n) (hn : 0 < n)
    (draw : Nat → Nat) (hdraw : ∀ i, draw i < n) (size : Nat) :
    ∃ v, sampleWithReplacement draw g size = Res.ok v ∧
      v.size.2 = max size n ∧ v.allAttributes = g.allAttributes ∧
      ∀ a ∈ g.allAttributes, ∀ r, r < size →
        (∃ s, v.getAttribute a = Res.ok s ∧ s.attr = a ∧ v.get s r = Res.ok (g.cell a (draw r))) ∧
        v.cell a r = g.cell a (draw r) := by
  refine ⟨Grid.viewFromRows g ((List.range size).foldl (fun m i => GoMap.set m i (draw i))
    ([] : GoMap Nat Nat)), ?_, ?_, ?_, ?_⟩
  · simp only [sampleWithReplacement, P.rows]
    rw [if_neg (by omega)]
  · have := (sampleRows_len draw size).1
    simp only [Grid.viewFromRows, Grid.size, P.rows, this, Bool.false_eq_true, if_false]
    split <;> omega
  · simp [Grid.viewFromRows, Grid.allAttributes]
  · intro a ha r hr
    have hg := sampleRows_get draw size r
    rw [if_pos hr] at hg
    have := rowsView_cell P ((List.range size).foldl (fun m i => GoMap.set m i (draw i))
      ([] : GoMap Nat Nat)) ha (r := r) (by rw [hg]; simpa using hdraw r)
    rw [hg] at this
    simpa using this

/-- A sample from an empty grid panics, and so never returns made-up rows. -/
theorem C17_sample_empty (g : Grid) (hn : g.size.2 = 0) (draw : Nat → Nat) (size : Nat)
    (hs : 0 < size) : sampleWithReplacement draw g size = Res.panic := by
  simp [sampleWithReplacement, hn, hs]

example : ∃ st, run 4096 opsC17 = Res.ok st ∧ (Grid.dense st.d).Presents 3 := by
  obtain ⟨st, _, hrun, hb, hd, h3, _⟩ := runC17
  exact ⟨st, hrun, h3 ▸ (denseOK_run hb hrun hd).presents⟩

end Golearn
