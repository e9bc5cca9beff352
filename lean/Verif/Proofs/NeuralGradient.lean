import Verif.Proofs.Neural
import Verif.Spec.NeuralGradient
import Mathlib.Analysis.Calculus.Deriv.Comp
import Mathlib.Analysis.Calculus.Deriv.Add
import Mathlib.Analysis.Calculus.Deriv.Mul
import Mathlib.Analysis.Calculus.Deriv.Pow
import Mathlib.Analysis.Calculus.Deriv.Inv
import Mathlib.Analysis.SpecialFunctions.ExpDeriv
import Mathlib.Tactic.LinearCombination
import Mathlib.Tactic.FieldSimp

/-! # Gradients of layered networks -/

namespace Golearn

theorem linear_smooth : NFunc.Smooth linearFn := fun z => hasDerivAt_id z

theorem sigmoid_smooth : NFunc.Smooth (sigmoidFn Real.exp) := by
  intro z
  have hpos : 0 < 1 + Real.exp (-z) := by positivity
  have h1 : HasDerivAt (fun v : ℝ => 1 + Real.exp (-v)) (Real.exp (-z) * (-1)) z :=
    ((hasDerivAt_id z).neg.exp).const_add 1
  have h2 := h1.inv hpos.ne'
  have h3 : (sigmoidFn Real.exp).forward = (fun v : ℝ => 1 + Real.exp (-v))⁻¹ := by
    funext v
    simp [sigmoidFn]
  rw [h3]
  refine h2.congr_deriv ?_
  simp only [sigmoidFn, Pi.inv_apply]
  field_simp
  ring

section
variable {n : Network ℝ} {level : Nat → Nat} {L : Nat}

theorem moved_layered (H : n.Layered level L) {A B} (D : Direction n level A B) (θ : ℝ) :
    (n.moved A B θ).Layered level L := by
  refine ⟨H.fits, H.inputs, H.others, ?_, ?_, H.linear, ?_⟩
  · intro t s ht hs hw
    by_cases h1 : n.weights t s = 0
    · right
      apply D.weights t s ht hs
      intro h2
      simp [Network.moved, h1, h2] at hw
    · exact H.edges t s ht hs h1
  · intro i hi
    change i < n.input at hi
    have : A i i = 0 := by
      by_contra hne
      have := D.weights i i (by have := H.fits; omega) (by have := H.fits; omega) hne
      omega
    simp only [Network.moved, this, mul_zero, add_zero]
    exact H.self i hi
  · intro i hi
    change i < n.input at hi
    simp only [Network.moved, D.biases i hi, mul_zero, add_zero]
    exact H.noBias i hi

theorem moved_zero (A B) : n.moved A B 0 = n := by
  simp [Network.moved]

/-- How fast the values of the neurons change as the network moves. -/
theorem values_deriv (H : n.Layered level L) {A B} (D : Direction n level A B)
    (hf : ∀ v, n.input ≤ v → v < n.size → (n.funcs v).Smooth) (x : Nat → ℝ) {m : Nat} (hm : L ≤ m) :
    ∃ G : Nat → ℝ, (∀ v, v < n.size → HasDerivAt (fun θ => (n.moved A B θ).activate m x v) (G v) 0) ∧
      (∀ i, i < n.input → G i = 0) ∧
      ∀ v, n.input ≤ v → v < n.size → G v = (n.funcs v).backward (n.activate m x v) *
        ((∑ c ∈ Finset.range n.size, n.weights v c * G c) +
          ((∑ c ∈ Finset.range n.size, A v c * n.activate m x c) + B v)) := by
  set V : ℝ → Nat → ℝ := fun θ => (n.moved A B θ).activate m x with hV
  have hFF : ∀ θ, (n.moved A B θ).FeedForward x (V θ) := fun θ => (moved_layered H D θ).feedForward x hm
  have hV0 : V 0 = n.activate m x := by simp only [hV, moved_zero]
  have hG : ∀ v, v < n.size → n.input ≤ v → (∀ c, c < n.size → level c < level v → HasDerivAt (fun θ => V θ c) (deriv (fun θ => V θ c) 0) 0) →
      HasDerivAt (fun θ => V θ v) ((n.funcs v).backward (n.activate m x v) *
        ((∑ c ∈ Finset.range n.size, n.weights v c * deriv (fun θ => V θ c) 0) +
          ((∑ c ∈ Finset.range n.size, A v c * n.activate m x c) + B v))) 0 := by
    intro v hv hin ih
    have hterm : ∀ c ∈ Finset.range n.size, HasDerivAt (fun θ => (n.weights v c + θ * A v c) * V θ c)
        (n.weights v c * deriv (fun θ => V θ c) 0 + A v c * n.activate m x c) 0 := by
      intro c hc
      have hcs := Finset.mem_range.1 hc
      by_cases hl : level c < level v
      · have h1 : HasDerivAt (fun θ : ℝ => n.weights v c + θ * A v c) (A v c) 0 := by
          have := ((hasDerivAt_id (0 : ℝ)).mul_const (A v c)).const_add (n.weights v c)
          simpa using this
        have h2 := h1.mul (ih c hcs hl)
        refine h2.congr_deriv ?_
        rw [hV0]
        ring
      · have hw : n.weights v c = 0 := by
          by_contra hne
          rcases H.edges v c hv hcs hne with ⟨_, h⟩ | h
          · omega
          · exact hl h
        have ha : A v c = 0 := by
          by_contra hne
          exact hl (D.weights v c hv hcs hne)
        simp only [hw, ha, mul_zero, add_zero, zero_mul]
        exact hasDerivAt_const _ _
    have hsum := HasDerivAt.fun_sum hterm
    have hb : HasDerivAt (fun θ : ℝ => n.biases v + θ * B v) (B v) 0 := by
      have := ((hasDerivAt_id (0 : ℝ)).mul_const (B v)).const_add (n.biases v)
      simpa using this
    have hpre := hsum.add hb
    set pre : ℝ → ℝ := fun θ => (∑ c ∈ Finset.range n.size, (n.weights v c + θ * A v c) * V θ c) + (n.biases v + θ * B v)
      with hpre'
    have hval : ∀ θ, V θ v = (n.funcs v).forward (pre θ) := fun θ => (hFF θ).others v hin hv
    have hpd : HasDerivAt pre ((∑ c ∈ Finset.range n.size, (n.weights v c * deriv (fun θ => V θ c) 0 + A v c * n.activate m x c)) + B v) 0 := hpre
    have hcomp := (hf v hin hv (pre 0)).comp (0 : ℝ) hpd
    have heq : (fun θ => V θ v) = (n.funcs v).forward ∘ pre := by
      funext θ
      exact hval θ
    rw [heq]
    refine hcomp.congr_deriv ?_
    rw [← hval 0, hV0, Finset.sum_add_distrib]
    ring
  have hD : ∀ k v, v < n.size → level v ≤ k → HasDerivAt (fun θ => V θ v) (deriv (fun θ => V θ v) 0) 0 := by
    have hinp : ∀ v, v < n.input → HasDerivAt (fun θ => V θ v) (deriv (fun θ => V θ v) 0) 0 := by
      intro v hv
      have : (fun θ => V θ v) = fun _ => x v := by
        funext θ
        exact (hFF θ).inputs v hv
      rw [this]
      exact (hasDerivAt_const _ _).differentiableAt.hasDerivAt
    intro k
    induction k with
    | zero =>
      intro v hv hl
      by_cases hin : v < n.input
      · exact hinp v hin
      · have := (H.others v (by omega) hv).1
        omega
    | succ k ih =>
      intro v hv hl
      by_cases hin : v < n.input
      · exact hinp v hin
      · exact (hG v hv (by omega) fun c hc hlt => ih c hc (by omega)).differentiableAt.hasDerivAt
  refine ⟨fun v => deriv (fun θ => V θ v) 0, fun v hv => hD (level v) v hv le_rfl, ?_, ?_⟩
  · intro i hi
    have : (fun θ => V θ i) = fun _ => x i := by
      funext θ
      exact (hFF θ).inputs i hi
    simp only [this, deriv_const]
  · intro v hin hv
    exact (hG v hv hin fun c hc _ => hD (level c) c hc le_rfl).deriv

/-- What the errors say about the changes of the values. -/
theorem adjoint (H : n.Layered level L) {out err D G P : Nat → ℝ} (hD : n.BackPropagates out err D)
    (hG0 : ∀ i, i < n.input → G i = 0)
    (hG : ∀ v, n.input ≤ v → v < n.size → G v = (n.funcs v).backward (out v) *
      ((∑ c ∈ Finset.range n.size, n.weights v c * G c) + P v)) :
    ∑ v ∈ Finset.Ico n.input n.size, err v * G v = ∑ v ∈ Finset.Ico n.input n.size, D v * P v := by
  have hIco : ∀ f : Nat → ℝ, (∀ i, i < n.input → f i = 0) →
      ∑ c ∈ Finset.range n.size, f c = ∑ c ∈ Finset.Ico n.input n.size, f c := by
    intro f h
    rw [Finset.range_eq_Ico, ← Finset.sum_Ico_consecutive f (Nat.zero_le n.input) H.fits]
    rw [Finset.sum_eq_zero, zero_add]
    intro i hi
    exact h i (Finset.mem_Ico.1 hi).2
  have key : ∀ v ∈ Finset.Ico n.input n.size,
      D v * ((∑ c ∈ Finset.Ico n.input n.size, n.weights v c * G c) + P v) =
        (err v + ∑ u ∈ Finset.Ico n.input n.size, n.weights u v * D u) * G v := by
    intro v hv
    obtain ⟨h1, h2⟩ := Finset.mem_Ico.1 hv
    have e1 := hD v h1 h2
    have e2 := hG v h1 h2
    rw [hIco _ fun i hi => by rw [hG0 i hi, mul_zero]] at e2
    rw [hIco _ fun i hi => by
      have : n.weights i v = 0 := by
        by_contra hne
        rcases H.edges i v (by have := H.fits; omega) h2 hne with ⟨rfl, _⟩ | h
        · omega
        · rw [H.inputs i hi] at h; omega
      rw [this, zero_mul]] at e1
    linear_combination ((∑ c ∈ Finset.Ico n.input n.size, n.weights v c * G c) + P v) * e1 -
      (err v + ∑ u ∈ Finset.Ico n.input n.size, n.weights u v * D u) * e2
  have hs := Finset.sum_congr rfl key
  simp only [mul_add, add_mul, Finset.sum_add_distrib] at hs
  have hswap : ∑ v ∈ Finset.Ico n.input n.size, D v * ∑ c ∈ Finset.Ico n.input n.size, n.weights v c * G c =
      ∑ v ∈ Finset.Ico n.input n.size, (∑ u ∈ Finset.Ico n.input n.size, n.weights u v * D u) * G v := by
    simp only [Finset.mul_sum, Finset.sum_mul]
    rw [Finset.sum_comm]
    apply Finset.sum_congr rfl
    intro c _
    apply Finset.sum_congr rfl
    intro v _
    ring
  linarith
end

end Golearn
