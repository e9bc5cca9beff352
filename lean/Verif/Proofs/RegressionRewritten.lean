import Verif.Proofs.RegressionUnique
import Verif.Proofs.CartCopies
import Verif.Spec.Rewritten

/-! # Least squares for a table written down in another way -/

namespace Golearn
open Finset

variable {R : Type} [Field R]

theorem linear_cons (b0 c x : R) (b t : List R) : linear b0 (c :: b) (x :: t) = linear b0 b t + x * c := by
  unfold linear
  rw [List.zipWith_cons_cons, List.sum_cons]
  ring

/-- Coefficients for numbers in other units. -/
theorem linear_units (fs : List Attr) (scale shift : Attr → R) (h : ∀ a ∈ fs, scale a ≠ 0) (s k b0 : R) (b : List R)
    (hb : b.length = fs.length) :
    ∃ b0' b', b'.length = fs.length ∧ (s ≠ 0 → (∀ v ∈ b', v = 0) → ∀ v ∈ b, v = 0) ∧
      ∀ num : Attr → R, linear b0' b' (fs.map fun a => scale a * num a + shift a) = s * linear b0 b (fs.map num) + k := by
  induction fs generalizing b with
  | nil =>
    cases List.length_eq_zero_iff.1 hb
    refine ⟨s * b0 + k, [], rfl, ?_, ?_⟩
    · intro _ _ v hv
      cases hv
    · intro num
      simp [linear]
  | cons a fs ih =>
    match b, hb with
    | c :: b, hb =>
      obtain ⟨b0', b', l, z, e⟩ := ih (fun a ha => h a (List.mem_cons_of_mem _ ha)) b (by simpa using hb)
      have ha : scale a ≠ 0 := h a List.mem_cons_self
      refine ⟨b0' - shift a * (s * c / scale a), (s * c / scale a) :: b', by simp [l], ?_, fun num => ?_⟩
      · intro hs hz v hv
        rcases List.mem_cons.1 hv with rfl | hv
        · have := hz _ List.mem_cons_self
          rcases div_eq_zero_iff.1 this with h' | h'
          · exact (mul_eq_zero.1 h').resolve_left hs
          · exact absurd h' ha
        · exact z hs (fun v hv => hz v (List.mem_cons_of_mem _ hv)) v hv
      · rw [List.map_cons, List.map_cons, linear_cons, linear_cons]
        have e' := e num
        have : linear (b0' - shift a * (s * c / scale a)) b' (fs.map fun a => scale a * num a + shift a) =
            linear b0' b' (fs.map fun a => scale a * num a + shift a) - shift a * (s * c / scale a) := by
          unfold linear
          ring
        rw [this, e']
        field_simp
        ring

theorem linear_zeros (b0 : R) (b t : List R) (h : ∀ v ∈ b, v = 0) : linear b0 b t = b0 := by
  induction b generalizing t with
  | nil => simp [linear]
  | cons c b ih =>
    cases t with
    | nil => simp [linear]
    | cons x t =>
      rw [linear_cons, ih t (fun v hv => h v (List.mem_cons_of_mem _ hv)), h c List.mem_cons_self]
      ring

variable {val : U64 → R} {g g' : Grid} {n n' k : Nat} {σ : Nat → Nat} {scale shift : Attr → R}

theorem Rewritten.length (W : Rewritten val g g' n n' k σ scale shift) : n' = k * n := by
  have := W.rows.length_eq
  simpa [copies] using this

theorem Rewritten.onto (W : Rewritten val g g' n n' k σ scale shift) {i : Nat} (hi : i < n) : ∃ r, r < n' ∧ σ r = i := by
  have : i ∈ (List.range n').map σ := by
    rw [W.rows.mem_iff]
    unfold copies
    rw [List.mem_flatten]
    exact ⟨List.range n, List.mem_replicate.2 ⟨W.some.ne', rfl⟩, List.mem_range.2 hi⟩
  obtain ⟨r, hr, e⟩ := List.mem_map.1 this
  exact ⟨r, List.mem_range.1 hr, e⟩

theorem Rewritten.point (W : Rewritten val g g' n n' k σ scale shift) {fs : List Attr}
    (hfs : ∀ a ∈ fs, a ∈ g.allAttributes ∧ a.isFloat = true) {r : Nat} (hr : r < n') :
    g'.point val fs r = fs.map fun a => scale a * g.number val a (σ r) + shift a :=
  List.map_congr_left fun a ha => W.numbers a (hfs a ha).1 (hfs a ha).2 r hr

theorem Rewritten.squaredError (W : Rewritten val g g' n n' k σ scale shift) {fs fs' : List Attr}
    (hfs' : ∀ a ∈ fs', a ∈ g.allAttributes ∧ a.isFloat = true) {cls : Attr} (hcls : cls ∈ g.allAttributes)
    (hcf : cls.isFloat = true) (b0 c0 : R) (b c : List R)
    (h : ∀ num : Attr → R, linear c0 c (fs'.map fun a => scale a * num a + shift a) =
      scale cls * linear b0 b (fs.map num) + shift cls) :
    Golearn.squaredError n' (g'.point val fs') (g'.number val cls) c0 c =
      k * (scale cls * scale cls * Golearn.squaredError n (g.point val fs) (g.number val cls) b0 b) := by
  unfold Golearn.squaredError
  rw [mul_sum, sum_range_list, sum_range_list]
  have e := (W.rows.map fun i => scale cls * scale cls * ((g.number val cls i - linear b0 b (g.point val fs i)) *
    (g.number val cls i - linear b0 b (g.point val fs i)))).sum_eq
  have e2 : ∀ f : Nat → R, ((copies k (List.range n)).map f).sum = k * ((List.range n).map f).sum := by
    intro f
    rw [← copies_sum]
    rw [copies_map]
  rw [e2, List.map_map] at e
  rw [← e]
  congr 1
  apply List.map_congr_left
  intro r hr
  have hr' := List.mem_range.1 hr
  simp only [Function.comp]
  rw [W.numbers cls hcls hcf r hr', W.point hfs' hr', h fun a => g.number val a (σ r)]
  unfold Grid.point
  ring

theorem Rewritten.independent (W : Rewritten val g g' n n' k σ scale shift) {fs : List Attr}
    (hfs : ∀ a ∈ fs, a ∈ g.allAttributes ∧ a.isFloat = true) (hn : 0 < n)
    (h : Independent n fs.length (g.point val fs)) : Independent n' fs.length (g'.point val fs) := by
  intro b0 b hb hz
  have hs : ∀ a ∈ fs, scale a ≠ 0 := fun a ha => W.scaled a (hfs a ha).1 (hfs a ha).2
  obtain ⟨c0, c, l, z, e⟩ := linear_units fs (fun a => (scale a)⁻¹) (fun a => - shift a / scale a)
    (fun a ha => inv_ne_zero (hs a ha)) 1 0 b0 b hb
  obtain ⟨_, hc⟩ := h c0 c l fun i hi => by
    obtain ⟨r, hr, rfl⟩ := W.onto hi
    have e' := e fun a => scale a * g.number val a (σ r) + shift a
    have e3 : (fs.map fun a => (scale a)⁻¹ * (scale a * g.number val a (σ r) + shift a) + - shift a / scale a) =
        g.point val fs (σ r) := List.map_congr_left fun a ha => by
      have := hs a ha
      field_simp
      ring
    rw [e3, ← W.point hfs hr, hz r hr] at e'
    simpa using e'
  have hb0 := z one_ne_zero hc
  refine ⟨?_, hb0⟩
  obtain ⟨r, hr, _⟩ := W.onto hn
  have := hz r hr
  rwa [linear_zeros _ _ _ hb0] at this

end Golearn
