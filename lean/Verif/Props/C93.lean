import Verif.Proofs.NeuralGradient
import Verif.Props.C92
import Mathlib.Analysis.SpecialFunctions.Log.Deriv
import Mathlib.Algebra.BigOperators.Field
import Mathlib.Analysis.Complex.ExponentialBounds

/-! # C93: the errors a network computes are the gradient of its squared error -/

namespace Golearn
open scoped Classical

section
variable {n : Network ℝ} {level : Nat → Nat} {L : Nat}

/-- The error given to a network: the difference of what the outputs should be and are, and 0 elsewhere. -/
noncomputable def outputError (O : Finset Nat) (y F : Nat → ℝ) : Nat → ℝ := fun v => if v ∈ O then y v - F v else 0

/-- The errors a layered network computes satisfy the equations of back-propagation. -/
theorem C93_error {K : Type} [Field K] [LinearOrder K] {n : Network K} {level : Nat → Nat} {L : Nat} (H : n.Layered level L)
    (out err : Nat → K) {k : Nat} (hk : L ≤ k) : n.BackPropagates out err (n.error out err k) :=
  H.backPropagates out err hk

/-- In every direction the squared error of the outputs changes at the rate the back-propagated errors say. -/
theorem C93_gradient (H : n.Layered level L) (hf : ∀ v, n.input ≤ v → v < n.size → (n.funcs v).Smooth) (O : Finset Nat)
    (hO : ∀ v ∈ O, n.input ≤ v ∧ v < n.size) (x y : Nat → ℝ) {m k : Nat} (hm : L ≤ m) (hk : L ≤ k)
    {A : Nat → Nat → ℝ} {B : Nat → ℝ} (D : Direction n level A B) :
    HasDerivAt (fun θ => halfSquares O y ((n.moved A B θ).activate m x))
      (-∑ v ∈ Finset.Ico n.input n.size, n.error (n.activate m x) (outputError O y (n.activate m x)) k v *
        ((∑ c ∈ Finset.range n.size, A v c * n.activate m x c) + B v)) 0 := by
  obtain ⟨G, hG1, hG2, hG3⟩ := values_deriv H D hf x hm
  have hadj := adjoint H (H.backPropagates (n.activate m x) (outputError O y (n.activate m x)) hk) hG2 hG3
  rw [← hadj]
  have hterm : ∀ v ∈ O, HasDerivAt (fun θ => (y v - (n.moved A B θ).activate m x v) ^ 2)
      (-2 * (y v - n.activate m x v) * G v) 0 := by
    intro v hv
    have h1 := ((hG1 v (hO v hv).2).const_sub (y v)).pow 2
    refine h1.congr_deriv ?_
    rw [moved_zero]
    simp
  have hs := (HasDerivAt.fun_sum hterm).div_const 2
  refine hs.congr_deriv ?_
  have hsub : O ⊆ Finset.Ico n.input n.size := fun v hv => Finset.mem_Ico.2 (hO v hv)
  have : ∑ v ∈ Finset.Ico n.input n.size, outputError O y (n.activate m x) v * G v =
      ∑ v ∈ O, (y v - n.activate m x v) * G v := by
    symm
    rw [← Finset.sum_subset hsub (f := fun v => outputError O y (n.activate m x) v * G v)]
    · apply Finset.sum_congr rfl
      intro v hv
      simp [outputError, hv]
    · intro v _ hv
      simp [outputError, hv]
  rw [this, Finset.sum_div, ← Finset.sum_neg_distrib]
  apply Finset.sum_congr rfl
  intro v _
  ring

/-- For a single weight from `s` to `t`: the rate is minus the error of the target times the value of the source. -/
theorem C93_weight (H : n.Layered level L) (hf : ∀ v, n.input ≤ v → v < n.size → (n.funcs v).Smooth) (O : Finset Nat)
    (hO : ∀ v ∈ O, n.input ≤ v ∧ v < n.size) (x y : Nat → ℝ) {m k : Nat} (hm : L ≤ m) (hk : L ≤ k)
    {t s : Nat} (ht : t < n.size) (hs : s < n.size) (hl : level s < level t) :
    HasDerivAt (fun θ => halfSquares O y
      (Network.activate { n with weights := setEntry n.weights t s (n.weights t s + θ) } m x))
      (-(n.error (n.activate m x) (outputError O y (n.activate m x)) k t * n.activate m x s)) 0 := by
  have hD : Direction n level (fun a b => if a = t ∧ b = s then 1 else 0) (fun _ => 0) := by
    refine ⟨?_, fun _ _ => rfl⟩
    intro a b _ _ h
    by_cases hab : a = t ∧ b = s
    · rw [hab.1, hab.2]; exact hl
    · rw [if_neg hab] at h; exact absurd rfl h
  have h := C93_gradient H hf O hO x y hm hk hD
  have hn : ∀ θ, n.moved (fun a b => if a = t ∧ b = s then 1 else 0) (fun _ => 0) θ =
      { n with weights := setEntry n.weights t s (n.weights t s + θ) } := by
    intro θ
    simp only [Network.moved, mul_zero, add_zero]
    congr 1
    funext a b
    simp only [setEntry]
    by_cases hab : a = t ∧ b = s
    · rw [if_pos hab, if_pos hab, mul_one, hab.1, hab.2]
    · rw [if_neg hab, if_neg hab, mul_zero, add_zero]
  simp only [hn] at h
  refine h.congr_deriv ?_
  congr 1
  have htin : n.input ≤ t := by
    by_contra hcon
    rw [H.inputs t (by omega)] at hl
    omega
  rw [Finset.sum_eq_single t]
  · congr 1
    rw [Finset.sum_eq_single s]
    · simp
    · intro b _ hb
      simp [hb]
    · intro hb
      exact absurd (Finset.mem_range.2 hs) hb
  · intro b _ hb
    simp [hb]
  · intro hb
    exact absurd (Finset.mem_Ico.2 ⟨htin, ht⟩) hb

/-- For a single bias: the rate is minus the error of the neuron. -/
theorem C93_bias (H : n.Layered level L) (hf : ∀ v, n.input ≤ v → v < n.size → (n.funcs v).Smooth) (O : Finset Nat)
    (hO : ∀ v ∈ O, n.input ≤ v ∧ v < n.size) (x y : Nat → ℝ) {m k : Nat} (hm : L ≤ m) (hk : L ≤ k)
    {t : Nat} (ht : t < n.size) (hin : n.input ≤ t) :
    HasDerivAt (fun θ => halfSquares O y (Network.activate { n with biases := setItem n.biases t (n.biases t + θ) } m x))
      (-(n.error (n.activate m x) (outputError O y (n.activate m x)) k t)) 0 := by
  have hD : Direction n level (fun _ _ => 0) (fun a => if a = t then 1 else 0) := by
    refine ⟨fun a b _ _ h => absurd rfl h, ?_⟩
    intro i hi
    rw [if_neg (by omega)]
  have h := C93_gradient H hf O hO x y hm hk hD
  have hn : ∀ θ, n.moved (fun _ _ => 0) (fun a => if a = t then 1 else 0) θ =
      { n with biases := setItem n.biases t (n.biases t + θ) } := by
    intro θ
    simp only [Network.moved, mul_zero, add_zero]
    congr 1
    funext a
    simp only [setItem]
    by_cases hab : a = t
    · rw [if_pos hab, if_pos hab, mul_one, hab]
    · rw [if_neg hab, if_neg hab, mul_zero, add_zero]
  simp only [hn] at h
  refine h.congr_deriv ?_
  congr 1
  rw [Finset.sum_eq_single t]
  · simp
  · intro b _ hb
    simp [hb]
  · intro hb
    exact absurd (Finset.mem_Ico.2 ⟨hin, ht⟩) hb

theorem activate_congr {n n' : Network ℝ} (hs : n'.size = n.size) (hf : n'.funcs = n.funcs)
    (hw : ∀ t s, t < n.size → s < n.size → n'.weights t s = n.weights t s)
    (hb : ∀ i, i < n.size → n'.biases i = n.biases i) (x : Nat → ℝ) (m : Nat) :
    ∀ v, v < n.size → n'.activate m x v = n.activate m x v := by
  induction m with
  | zero => intro v _; rfl
  | succ m ih =>
    intro v hv
    rw [activate_succ, activate_succ]
    unfold Network.pass
    rw [hf, hs, hb v hv]
    congr 2
    apply Finset.sum_congr rfl
    intro c hc
    have hc' := Finset.mem_range.1 hc
    rw [hw v c hv hc', ih c hc']

/-- A step of training goes down: as a function of the learning rate, the squared error after the step changes at first at a
rate which is minus a sum of squares, and it is 0 only if all errors of neurons which are not inputs are. -/
theorem C93_step (H : n.Layered level L) (hf : ∀ v, n.input ≤ v → v < n.size → (n.funcs v).Smooth) (O : Finset Nat)
    (hO : ∀ v ∈ O, n.input ≤ v ∧ v < n.size) (x y : Nat → ℝ) {m k : Nat} (hm : L ≤ m) (hk : L ≤ k)
    (T : n.Trainable level) {F δ : Nat → ℝ} (hF : F = n.activate m x) (hδ : δ = n.error F (outputError O y F) k) :
    HasDerivAt (fun rate => halfSquares O y (((n.updateWeights F δ rate).updateBias δ rate).activate m x))
      (-∑ v ∈ Finset.Ico n.input n.size,
        δ v ^ 2 * (1 + ∑ c ∈ Finset.range n.size, if n.Trained v c then F c ^ 2 else 0)) 0 := by
  set A : Nat → Nat → ℝ := fun t s => if n.Trained t s then F s * δ t else 0 with hA
  set B : Nat → ℝ := fun i => if i < n.input then 0 else δ i with hB
  have hD : Direction n level A B := by
    refine ⟨?_, fun i hi => by rw [hB]; simp [hi]⟩
    intro t s ht hs hne
    apply T.up t s ht hs
    by_contra hcon
    rw [hA] at hne
    simp [hcon] at hne
  have h := C93_gradient H hf O hO x y hm hk hD
  rw [← hF, ← hδ] at h
  have hstep : ∀ rate, halfSquares O y (((n.updateWeights F δ rate).updateBias δ rate).activate m x) =
      halfSquares O y ((n.moved A B rate).activate m x) := by
    intro rate
    have hc := activate_congr (n := n.moved A B rate) (n' := (n.updateWeights F δ rate).updateBias δ rate) rfl rfl
      (by
        intro t s ht hs
        simp only [Network.updateWeights, Network.updateBias, Network.moved, hA]
        by_cases hts : t = s
        · rw [if_pos hts, if_neg (fun h => h.1 hts)]
          ring
        · rw [if_neg hts]
          by_cases hT : n.Trained t s
          · rw [if_pos hT, if_pos (show |(n.orig.getD n.weights) t s| > 1 / 200 from hT.2)]
            ring
          · rw [if_neg hT, if_neg (show ¬ |(n.orig.getD n.weights) t s| > 1 / 200 from fun h => hT ⟨hts, h⟩),
              T.rest t s ht hs hts hT]
            ring)
      (by
        intro i hi
        simp only [Network.updateWeights, Network.updateBias, Network.moved, hB]
        by_cases hin : i < n.input
        · simp [hin]
        · simp [hin, mul_comm]) x m
    unfold halfSquares
    congr 1
    apply Finset.sum_congr rfl
    intro v hv
    rw [hc v (hO v hv).2]
  simp only [hstep]
  refine h.congr_deriv ?_
  congr 1
  apply Finset.sum_congr rfl
  intro v hv
  obtain ⟨h1, h2⟩ := Finset.mem_Ico.1 hv
  simp only [hA, hB]
  rw [if_neg (by omega)]
  have : ∑ c ∈ Finset.range n.size, (if n.Trained v c then F c * δ v else 0) * F c =
      δ v * ∑ c ∈ Finset.range n.size, if n.Trained v c then F c ^ 2 else 0 := by
    rw [Finset.mul_sum]
    apply Finset.sum_congr rfl
    intro c _
    split <;> ring
  rw [this]
  ring

/-- The network is one that training can improve from the second step on: whatever was set up first, if weights are only
set from lower to higher levels and none after training has begun, a network that has been trained once has nothing but
weights that training moves. -/
theorem C93_trainable {f : NFunc ℝ} {size input : Nat} {n0 n : Network ℝ} (h0 : newNetwork size input f = Res.ok n0)
    (hin : ∀ i, i < input → level i = 0) (hot : ∀ i, input ≤ i → i < size → 1 ≤ level i ∧ level i ≤ L)
    {ops ops' : List (NetOp ℝ)} {out err : Nat → ℝ} {rate : ℝ}
    (h : n0.applyAll (ops ++ .updateWeights out err rate :: ops') = Res.ok n)
    (hup : ∀ op ∈ ops, Upward level op) (hno : ∀ op ∈ ops', noSetWeight op) :
    n.Layered level L ∧ n.Trainable level := by
  have hup' : ∀ op ∈ ops ++ .updateWeights out err rate :: ops', Upward level op := by
    intro op hop
    rcases List.mem_append.1 hop with hop | hop
    · exact hup op hop
    · rcases List.mem_cons.1 hop with rfl | hop
      · trivial
      · have := hno op hop
        cases op with
        | setWeight src target v => exact absurd this (by simp [noSetWeight])
        | _ => trivial
  have hl := C92_histories h0 hin hot h hup'
  refine ⟨hl, ?_⟩
  -- the state after the first part
  have happ : ∀ (a b : List (NetOp ℝ)) (p q : Network ℝ), p.applyAll (a ++ b) = Res.ok q →
      ∃ r, p.applyAll a = Res.ok r ∧ r.applyAll b = Res.ok q := by
    intro a
    induction a with
    | nil => intro b p q hq; exact ⟨p, rfl, hq⟩
    | cons o a ih =>
      intro b p q hq
      rw [List.cons_append, Network.applyAll, Res.bind_eq_ok] at hq
      obtain ⟨p', e1, e2⟩ := hq
      obtain ⟨r, e3, e4⟩ := ih b p' q e2
      exact ⟨r, by rw [Network.applyAll, e1, Res.bind_ok, e3], e4⟩
  obtain ⟨r, e1, e2⟩ := happ _ _ _ _ h
  rw [Network.applyAll, Network.apply, Res.bind_ok] at e2
  -- the invariant: the weights remembered lead upwards, and what is not moved is 0
  have base : (r.updateWeights out err rate).LayeredInv level L ∧ ∃ o, (r.updateWeights out err rate).orig = some o ∧
      ∀ t s, t ≠ s → ¬ 1 / 200 < |o t s| → (r.updateWeights out err rate).weights t s = 0 := by
    have hle : input ≤ size := by
      by_contra hcon
      rw [(C71_new f size input).2 (by omega)] at h0
      cases h0
    obtain ⟨p, p1, p2, p3, p4, p5, p6, p7⟩ := newNetwork_spec f size input hle
    rw [h0] at p1
    cases p1
    have hinv0 : n0.LayeredInv level L :=
      ⟨C92_histories h0 hin hot (ops := []) rfl (by simp), fun o e => by rw [p4] at e; cases e⟩
    have hinv : ∀ (a : List (NetOp ℝ)) (p q : Network ℝ), p.applyAll a = Res.ok q → (∀ op ∈ a, Upward level op) →
        p.LayeredInv level L → q.LayeredInv level L := by
      intro a
      induction a with
      | nil => intro p q hq _ hi; cases hq; exact hi
      | cons o a ih =>
        intro p q hq ho hi
        rw [Network.applyAll, Res.bind_eq_ok] at hq
        obtain ⟨p', e1, e2⟩ := hq
        exact ih p' q e2 (fun o' h' => ho o' (List.mem_cons_of_mem _ h')) (apply_layered e1 (ho o List.mem_cons_self) hi)
    refine ⟨apply_layered (op := .updateWeights out err rate) rfl trivial (hinv ops n0 r e1 hup hinv0), _, rfl, ?_⟩
    intro t s hts hno
    simp only [Network.updateWeights]
    rw [if_neg hts, if_neg hno]
  have fin : ∀ (a : List (NetOp ℝ)) (p q : Network ℝ), p.applyAll a = Res.ok q → (∀ op ∈ a, noSetWeight op) →
      (p.LayeredInv level L ∧ ∃ o, p.orig = some o ∧ ∀ t s, t ≠ s → ¬ 1 / 200 < |o t s| → p.weights t s = 0) →
      (q.LayeredInv level L ∧ ∃ o, q.orig = some o ∧ ∀ t s, t ≠ s → ¬ 1 / 200 < |o t s| → q.weights t s = 0) := by
    intro a
    induction a with
    | nil => intro p q hq _ hi; cases hq; exact hi
    | cons op a ih =>
      intro p q hq ho hi
      rw [Network.applyAll, Res.bind_eq_ok] at hq
      obtain ⟨p', e1, e2⟩ := hq
      refine ih p' q e2 (fun o' h' => ho o' (List.mem_cons_of_mem _ h')) ?_
      have hop := ho op List.mem_cons_self
      obtain ⟨i1, o, i2, i3⟩ := hi
      refine ⟨apply_layered e1 ?_ i1, ?_⟩
      · cases op with
        | setWeight src target v => exact absurd hop (by simp [noSetWeight])
        | _ => trivial
      · cases op with
        | setWeight src target v => exact absurd hop (by simp [noSetWeight])
        | setBias node v =>
          simp only [Network.apply, Network.setBias] at e1
          split at e1
          · cases e1; exact ⟨o, i2, i3⟩
          · split at e1
            · cases e1; exact ⟨o, i2, i3⟩
            · cases e1
        | updateWeights out err rate =>
          cases e1
          refine ⟨o, by simp [Network.updateWeights, i2], ?_⟩
          intro t s hts hno
          simp only [Network.updateWeights, i2, Option.getD_some]
          rw [if_neg hts, if_neg hno]
        | updateBias err rate => cases e1; exact ⟨o, i2, i3⟩
  obtain ⟨f1, o, f2, f3⟩ := fin ops' _ n e2 hno base
  constructor
  · intro t s _ _ hts hT
    apply f3 t s hts
    intro hlt
    exact hT ⟨hts, by rw [Network.before, f2]; exact hlt⟩
  · intro t s ht hs hT
    refine f1.2 o f2 t s ht hs hT.1 ?_
    intro hz
    have := hT.2
    rw [Network.before, f2, Option.getD_some, hz, abs_zero] at this
    linarith

/-- So, unless all errors are 0 already, a small enough step makes the squared error smaller. -/
theorem C93_descends (H : n.Layered level L) (hf : ∀ v, n.input ≤ v → v < n.size → (n.funcs v).Smooth) (O : Finset Nat)
    (hO : ∀ v ∈ O, n.input ≤ v ∧ v < n.size) (x y : Nat → ℝ) {m k : Nat} (hm : L ≤ m) (hk : L ≤ k)
    (T : n.Trainable level) {F δ : Nat → ℝ} (hF : F = n.activate m x) (hδ : δ = n.error F (outputError O y F) k)
    (hne : ∃ v, n.input ≤ v ∧ v < n.size ∧ δ v ≠ 0) :
    ∃ ε > 0, ∀ rate, 0 < rate → rate < ε →
      halfSquares O y (((n.updateWeights F δ rate).updateBias δ rate).activate m x) < halfSquares O y F := by
  have h := C93_step H hf O hO x y hm hk T hF hδ
  set E : ℝ → ℝ := fun rate => halfSquares O y (((n.updateWeights F δ rate).updateBias δ rate).activate m x) with hE
  set S := ∑ v ∈ Finset.Ico n.input n.size, δ v ^ 2 * (1 + ∑ c ∈ Finset.range n.size, if n.Trained v c then F c ^ 2 else 0)
    with hS
  have hpos : 0 < S := by
    obtain ⟨v, h1, h2, h3⟩ := hne
    have hsum : ∀ v, 0 ≤ ∑ c ∈ Finset.range n.size, if n.Trained v c then F c ^ 2 else 0 := by
      intro v
      apply Finset.sum_nonneg
      intro c _
      split <;> positivity
    refine Finset.sum_pos' (fun u _ => ?_) ⟨v, Finset.mem_Ico.2 ⟨h1, h2⟩, ?_⟩
    · have := hsum u
      positivity
    · have := hsum v
      positivity
  have h0 : E 0 = halfSquares O y F := by
    have hc := activate_congr (n := n) (n' := (n.updateWeights F δ 0).updateBias δ 0) rfl rfl
      (by
        intro t s ht hs
        simp only [Network.updateWeights, Network.updateBias]
        by_cases hts : t = s
        · rw [if_pos hts]
        · rw [if_neg hts]
          by_cases hT : n.Trained t s
          · rw [if_pos (show |(n.orig.getD n.weights) t s| > 1 / 200 from hT.2)]
            ring
          · rw [if_neg (show ¬ |(n.orig.getD n.weights) t s| > 1 / 200 from fun h => hT ⟨hts, h⟩),
              T.rest t s ht hs hts hT])
      (by
        intro i hi
        simp [Network.updateWeights, Network.updateBias]) x m
    simp only [hE]
    unfold halfSquares
    congr 1
    apply Finset.sum_congr rfl
    intro v hv
    rw [hc v (hO v hv).2, hF]
  have hlim := h.tendsto_slope_zero
  have hev := hlim.eventually (gt_mem_nhds (show -S < 0 by linarith))
  rw [eventually_nhdsWithin_iff, Metric.eventually_nhds_iff] at hev
  obtain ⟨ε, hε, hev⟩ := hev
  refine ⟨ε, hε, fun rate h1 h2 => ?_⟩
  have hr := hev (y := rate) (by rw [Real.dist_eq, sub_zero, abs_of_pos h1]; exact h2) (by simpa using h1.ne')
  rw [zero_add, h0, smul_eq_mul] at hr
  have hinv : 0 < rate⁻¹ := inv_pos.2 h1
  have : E rate - halfSquares O y F < 0 := by
    by_contra hcon
    have := mul_nonneg hinv.le (not_lt.1 hcon)
    linarith
  linarith
end

/-- `Sigmoid` and `Linear` have backward functions as required. -/
theorem C93_functions : NFunc.Smooth (sigmoidFn Real.exp) ∧ NFunc.Smooth linearFn := ⟨sigmoid_smooth, linear_smooth⟩

/-- `SoftplusRectifier` has not: its backward function is that of `Sigmoid`, at 0 it does not give the derivative, and so training
with it does not follow the gradient. -/
theorem C93_softplus : ¬ NFunc.Smooth (softplusFn Real.log Real.exp) ∧
    (softplusFn Real.log Real.exp).backward = (sigmoidFn Real.exp).backward := by
  refine ⟨?_, rfl⟩
  intro h
  have h1 := h 0
  have h2 : HasDerivAt (softplusFn Real.log Real.exp).forward (Real.exp 0 / (1 + Real.exp 0)) 0 := by
    have := ((Real.hasDerivAt_exp 0).const_add 1).log (by positivity)
    exact this
  have h3 := h1.unique h2
  simp only [softplusFn, Real.exp_zero] at h3
  have ha := Real.log_two_gt_d9
  have hb := Real.log_two_lt_d9
  norm_num at h3
  nlinarith

/-- A network of one input, one hidden and one output neuron, all other than the input sigmoid. -/
noncomputable def chainCalls : List (NetOp ℝ) := [.setWeight 1 2 1, .setWeight 2 3 1, .updateWeights (fun _ => 0) (fun _ => 0) 1]

/-- It satisfies what the theorems ask. -/
theorem chain_example : ∃ n0 n : Network ℝ, newNetwork 3 1 (sigmoidFn Real.exp) = Res.ok n0 ∧
    n0.applyAll chainCalls = Res.ok n ∧ n.Layered (fun i => i) 2 ∧ n.Trainable (fun i => i) ∧
    (∀ v, n.input ≤ v → v < n.size → (n.funcs v).Smooth) ∧ n.size = 3 ∧ n.input = 1 ∧ n.weights 1 0 = 1 ∧ n.weights 2 1 = 1 := by
  obtain ⟨n0, p1, p2, p3, p4, p5, p6, p7⟩ := newNetwork_spec (sigmoidFn Real.exp) 3 1 (by norm_num)
  have hrun : ∃ n, n0.applyAll chainCalls = Res.ok n ∧ n.weights 1 0 = 1 ∧ n.weights 2 1 = 1 := by
    simp only [chainCalls, Network.applyAll, Network.apply, Network.setWeight, p2]
    refine ⟨_, rfl, ?_, ?_⟩
    · simp [Network.updateWeights, setEntry, p4]
      norm_num
    · simp [Network.updateWeights, setEntry, p4]
      norm_num
  obtain ⟨n, hn, w1, w2⟩ := hrun
  have hl := C93_trainable (level := fun i => i) (L := 2) p1 (fun i hi => by omega) (fun i h1 h2 => by omega)
    (ops := [.setWeight 1 2 1, .setWeight 2 3 1]) (ops' := []) hn (by
      intro op hop
      simp only [List.mem_cons, List.not_mem_nil, or_false] at hop
      rcases hop with rfl | rfl <;> simp [Upward]) (by simp)
  obtain ⟨a1, a2, a3, _⟩ := applyAll_frame hn
  refine ⟨n0, n, p1, hn, hl.1, hl.2, ?_, a1.trans p2, a2.trans p3, w1, w2⟩
  intro v h1 h2
  rw [a3, p7, if_neg (by omega)]
  exact sigmoid_smooth

/-- And it has errors to learn from: the output neuron has one when it should give 1. -/
example : ∃ n : Network ℝ, n.Layered (fun i => i) 2 ∧ n.Trainable (fun i => i) ∧
    (∀ v, n.input ≤ v → v < n.size → (n.funcs v).Smooth) ∧
    ∃ ε > 0, ∀ rate, 0 < rate → rate < ε →
      halfSquares {2} (fun _ => 1) (((n.updateWeights (n.activate 2 fun _ => 0)
        (n.error (n.activate 2 fun _ => 0) (outputError {2} (fun _ => 1) (n.activate 2 fun _ => 0)) 3) rate).updateBias
        (n.error (n.activate 2 fun _ => 0) (outputError {2} (fun _ => 1) (n.activate 2 fun _ => 0)) 3) rate).activate 2
          fun _ => 0) < halfSquares {2} (fun _ => 1) (n.activate 2 fun _ => 0) := by
  obtain ⟨n0, n, p1, p2, H, T, hf, hs, hi, w1, w2⟩ := chain_example
  refine ⟨n, H, T, hf, C93_descends H hf {2} (by simp [hs, hi]) _ _ (m := 2) (k := 3) le_rfl (by norm_num) T rfl rfl
    ⟨2, by omega, by omega, ?_⟩⟩
  have hfun : n.funcs 2 = sigmoidFn Real.exp := by
    obtain ⟨_, _, a3, _⟩ := applyAll_frame p2
    obtain ⟨q, q1, _, _, _, _, _, q7⟩ := newNetwork_spec (sigmoidFn Real.exp) 3 1 (by norm_num)
    rw [p1] at q1
    cases q1
    rw [a3, q7, if_neg (by norm_num)]
  have hv : ∃ z, n.activate 2 (fun _ => 0) 2 = (sigmoidFn Real.exp).forward z := by
    rw [activate_succ]
    unfold Network.pass
    rw [hfun]
    exact ⟨_, rfl⟩
  obtain ⟨z, hz⟩ := hv
  have h01 : 0 < (sigmoidFn Real.exp).forward z ∧ (sigmoidFn Real.exp).forward z < 1 := by
    simp only [sigmoidFn]
    have : 0 < Real.exp (-z) := Real.exp_pos _
    constructor
    · positivity
    · rw [div_lt_one (by positivity)]; linarith
  rw [H.backPropagates _ _ (m := 3) (by norm_num) 2 (by omega) (by omega)]
  have hz0 : ∀ u ∈ Finset.range n.size, n.weights u 2 * n.error (n.activate 2 fun _ => 0)
      (outputError {2} (fun _ => 1) (n.activate 2 fun _ => 0)) 3 u = 0 := by
    intro u hu
    have hu' := Finset.mem_range.1 hu
    have : n.weights u 2 = 0 := by
      by_contra hne
      rcases H.edges u 2 hu' (by omega) hne with ⟨_, h⟩ | h <;> omega
    rw [this, zero_mul]
  rw [Finset.sum_eq_zero hz0, add_zero, hfun, outputError, if_pos (Finset.mem_singleton.2 rfl), hz]
  show (sigmoidFn Real.exp).forward z * (1 - (sigmoidFn Real.exp).forward z) * (1 - (sigmoidFn Real.exp).forward z) ≠ 0
  have h1 : 0 < 1 - (sigmoidFn Real.exp).forward z := by linarith [h01.2]
  have := h01.1
  positivity

end Golearn
