import Verif.Model.Sort
import Verif.Proofs.DenseTable
import Mathlib.Logic.Equiv.Basic
import Mathlib.Algebra.Group.End
import Mathlib.Data.List.Perm.Subperm
import Mathlib.Data.List.Nodup
import Mathlib.Data.List.NodupEquivFin

namespace Golearn

/-- The permutation of rows a sequence of swaps amounts to: new row `r` is old row `srcRow sws r`. -/
def srcRow (sws : List (Nat × Nat)) : Equiv.Perm Nat :=
  (sws.map fun p => Equiv.swap p.1 p.2).prod

@[simp] theorem srcRow_nil : srcRow [] = 1 := rfl

theorem srcRow_cons (p : Nat × Nat) (ps : List (Nat × Nat)) (r : Nat) :
    srcRow (p :: ps) r = Equiv.swap p.1 p.2 (srcRow ps r) := by
  simp [srcRow]

theorem srcRow_snoc (p : Nat × Nat) (ps : List (Nat × Nat)) (r : Nat) :
    srcRow (ps ++ [p]) r = srcRow ps (Equiv.swap p.1 p.2 r) := by
  simp [srcRow]

theorem srcRow_append (a b : List (Nat × Nat)) (r : Nat) :
    srcRow (a ++ b) r = srcRow a (srcRow b r) := by
  simp [srcRow]

theorem swap_lt {n i j r : Nat} (hi : i < n) (hj : j < n) (hr : r < n) : Equiv.swap i j r < n := by
  rw [Equiv.swap_apply_def]; split
  · exact hj
  · split
    · exact hi
    · exact hr

theorem srcRow_lt {n : Nat} {sws : List (Nat × Nat)} (h : ∀ p ∈ sws, p.1 < n ∧ p.2 < n) {r : Nat}
    (hr : r < n) : srcRow sws r < n := by
  induction sws with
  | nil => simpa using hr
  | cons p ps ih =>
    rw [srcRow_cons]
    exact swap_lt (h p (by simp)).1 (h p (by simp)).2 (ih fun q hq => h q (by simp [hq]))

theorem map_perm_range {n : Nat} (σ : Nat → Nat) (hinj : Function.Injective σ)
    (hlt : ∀ r, r < n → σ r < n) : ((List.range n).map σ).Perm (List.range n) := by
  have hsub : ((List.range n).map σ).Subperm (List.range n) := by
    apply List.Nodup.subperm
    · exact (List.nodup_range).map hinj
    · intro x hx
      obtain ⟨r, hr, rfl⟩ := List.mem_map.1 hx
      exact List.mem_range.2 (hlt r (List.mem_range.1 hr))
  exact hsub.perm_of_length_le (by simp)

/-- One cell exchanged between two rows. -/
theorem swapCell_spec {rows : Nat} {d : Dense} (D : DenseOK rows d) {a : Attr}
    (ha : a ∈ d.allAttributes) {s : Spec} (hs : d.getAttribute a = Res.ok s) {i j : Nat}
    (hi : i < rows) (hj : j < rows) :
    ∃ d', swapCell d s i j = Res.ok d' ∧ DenseOK rows d' ∧ d'.allAttributes = d.allAttributes ∧
      d'.classAttrs = d.classAttrs ∧ (∀ b, d'.getAttribute b = d.getAttribute b) ∧
      d'.fixed = d.fixed ∧
      ∀ b ∈ d.allAttributes, ∀ q, q < rows → (Grid.dense d').cell b q =
        if b = a then (Grid.dense d).cell b (Equiv.swap i j q) else (Grid.dense d).cell b q := by
  have hg := (D.presents.get_spec (s := s) ha hs).2
  have gi : d.get s i = Res.ok ((Grid.dense d).cell a i) := hg i hi
  have gj : d.get s j = Res.ok ((Grid.dense d).cell a j) := hg j hj
  obtain ⟨d1, e1, D1, A1, C1, L1, F1, V1⟩ := D.set ha hs hj (D.typed a ha i hi)
  obtain ⟨d2, e2, D2, A2, C2, L2, F2, V2⟩ := D1.set (A1 ▸ ha) (by rw [L1]; exact hs) hi
    (D.typed a ha j hj)
  refine ⟨d2, ?_, D2, by rw [A2, A1], by rw [C2, C1], fun b => by rw [L2, L1], by rw [F2, F1], ?_⟩
  · simp only [swapCell, gi, gj, e1, e2, Res.bind_ok]
  · intro b hb q hq
    rw [V2 b (A1 ▸ hb) q hq, V1 b hb q hq]
    by_cases hba : b = a
    · subst hba
      simp only [true_and, if_true]
      rw [Equiv.swap_apply_def]
      by_cases h1 : q = i
      · simp [h1]
      · by_cases h2 : q = j
        · rw [if_neg h1, if_pos h2, if_neg h1, if_pos h2]
        · simp [h1, h2]
    · simp [hba]

theorem swapLoop_spec {rows : Nat} (as : List Spec) {d : Dense} (D : DenseOK rows d)
    (has : ∀ s ∈ as, s.attr ∈ d.allAttributes ∧ d.getAttribute s.attr = Res.ok s)
    (hn : (as.map Spec.attr).Nodup) {i j : Nat} (hi : i < rows) (hj : j < rows) :
    ∃ d', swapLoop d as i j = Res.ok d' ∧ DenseOK rows d' ∧ d'.allAttributes = d.allAttributes ∧
      d'.classAttrs = d.classAttrs ∧ (∀ b, d'.getAttribute b = d.getAttribute b) ∧
      d'.fixed = d.fixed ∧
      ∀ b ∈ d.allAttributes, ∀ q, q < rows → (Grid.dense d').cell b q =
        if b ∈ as.map Spec.attr then (Grid.dense d).cell b (Equiv.swap i j q)
        else (Grid.dense d).cell b q := by
  induction as generalizing d with
  | nil => exact ⟨d, rfl, D, rfl, rfl, fun _ => rfl, rfl, by simp⟩
  | cons s ss ih =>
    obtain ⟨h1, h2⟩ := has s (by simp)
    obtain ⟨d1, e1, D1, A1, C1, L1, F1, V1⟩ := swapCell_spec D h1 h2 hi hj
    rw [List.map_cons, List.nodup_cons] at hn
    obtain ⟨d2, e2, D2, A2, C2, L2, F2, V2⟩ := ih D1 (by
      intro t ht
      rw [A1, L1]
      exact has t (by simp [ht])) hn.2
    refine ⟨d2, ?_, D2, by rw [A2, A1], by rw [C2, C1], fun b => by rw [L2, L1], by rw [F2, F1], ?_⟩
    · simp only [swapLoop, e1, Res.bind_ok, e2]
    · intro b hb q hq
      rw [V2 b (A1 ▸ hb) q hq]
      by_cases hbs : b = s.attr
      · subst hbs
        simp only [hn.1, if_false, List.map_cons, List.mem_cons, true_or, if_true]
        rw [V1 _ hb q hq, if_pos rfl]
      · simp only [List.map_cons, List.mem_cons, hbs, false_or]
        split
        · rw [V1 b hb _ (swap_lt hi hj hq), if_neg hbs]
        · rw [V1 b hb q hq, if_neg hbs]

/-- `swapRows` exchanges two rows and nothing else. -/
theorem swapRows_spec {srt : List Spec → List Spec} (hsrt : ∀ l, (srt l).Perm l) {rows : Nat}
    {d : Dense} (D : DenseOK rows d) {i j : Nat} (hi : i < rows) (hj : j < rows) :
    ∃ d', d.swapRows srt i j = Res.ok d' ∧ DenseOK rows d' ∧ d'.allAttributes = d.allAttributes ∧
      d'.classAttrs = d.classAttrs ∧ (∀ b, d'.getAttribute b = d.getAttribute b) ∧
      d'.fixed = d.fixed ∧
      ∀ b ∈ d.allAttributes, ∀ q, q < rows →
        (Grid.dense d').cell b q = (Grid.dense d).cell b (Equiv.swap i j q) := by
  obtain ⟨l, hl⟩ := D.presents.resolve_total (attrs := d.allAttributes) (fun a ha => ha)
  obtain ⟨r1, r2⟩ := D.presents.resolves (attrs := d.allAttributes) (specs := srt l)
    (fun a ha => ha) ⟨l, hl, hsrt l⟩
  have hn : ((srt l).map Spec.attr).Nodup := r1.nodup_iff.2 (distinct_nodup D.1)
  obtain ⟨d', e, D', A, C, L, F, V⟩ := swapLoop_spec (srt l) D r2 hn hi hj
  refine ⟨d', ?_, D', A, C, L, F, ?_⟩
  · simp only [Dense.swapRows, Grid.resolve, hl, Res.map_ok, Res.bind_ok, e]
  · intro b hb q hq
    rw [V b hb q hq, if_pos (r1.symm.subset hb)]

theorem swapAll_spec {srt : List Spec → List Spec} (hsrt : ∀ l, (srt l).Perm l) {rows : Nat}
    (sws : List (Nat × Nat)) {d : Dense} (D : DenseOK rows d)
    (hs : ∀ p ∈ sws, p.1 < rows ∧ p.2 < rows) :
    ∃ d', d.swapAll srt sws = Res.ok d' ∧ DenseOK rows d' ∧ d'.allAttributes = d.allAttributes ∧
      d'.classAttrs = d.classAttrs ∧ (∀ b, d'.getAttribute b = d.getAttribute b) ∧
      d'.fixed = d.fixed ∧
      ∀ b ∈ d.allAttributes, ∀ q, q < rows →
        (Grid.dense d').cell b q = (Grid.dense d).cell b (srcRow sws q) := by
  induction sws generalizing d with
  | nil => exact ⟨d, rfl, D, rfl, rfl, fun _ => rfl, rfl, by simp⟩
  | cons p ps ih =>
    obtain ⟨h1, h2⟩ := hs p (by simp)
    obtain ⟨d1, e1, D1, A1, C1, L1, F1, V1⟩ := swapRows_spec hsrt D h1 h2
    obtain ⟨d2, e2, D2, A2, C2, L2, F2, V2⟩ := ih D1 (fun q hq => hs q (by simp [hq]))
    refine ⟨d2, ?_, D2, by rw [A2, A1], by rw [C2, C1], fun b => by rw [L2, L1], by rw [F2, F1], ?_⟩
    · simp only [Dense.swapAll, e1, Res.bind_ok, e2]
    · intro b hb q hq
      rw [V2 b (A1 ▸ hb) q hq, V1 b hb _ (srcRow_lt (fun q hq => hs q (by simp [hq])) hq), srcRow_cons]

end Golearn
