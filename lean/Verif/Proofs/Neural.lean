import Verif.Spec.Neural
import Mathlib.Algebra.BigOperators.Ring.Finset
import Mathlib.Algebra.BigOperators.Group.Finset.Sigma
import Mathlib.Tactic.Ring
import Mathlib.Tactic.Linarith

/-! # Neural networks: lemmas -/

namespace Golearn

section
variable {K : Type} [Field K] [LinearOrder K]

theorem netInputs_spec (f : NFunc K) (size input : Nat) (h : input ≤ size) (m i : Nat) (hi : i + m = input) (n : Network K)
    (hs : n.size = size) (hin : n.input = input) (ho : n.orig = none)
    (hw : ∀ t s, n.weights t s = if t = s ∧ t < i then 1 else 0) (hb : ∀ t, n.biases t = 0)
    (hf : ∀ t, n.funcs t = if t < i then linearFn else f) :
    ∃ n', netInputs (List.range' i m) n = Res.ok n' ∧ n'.size = size ∧ n'.input = input ∧ n'.orig = none ∧
      (∀ t s, n'.weights t s = if t = s ∧ t < input then 1 else 0) ∧ (∀ t, n'.biases t = 0) ∧
      ∀ t, n'.funcs t = if t < input then linearFn else f := by
  induction m generalizing i n with
  | zero =>
    have : i = input := by omega
    subst this
    exact ⟨n, rfl, hs, hin, ho, hw, hb, hf⟩
  | succ m ih =>
    rw [List.range'_succ]
    have h1 : i < n.size := by omega
    simp only [netInputs, if_pos h1, Network.setWeight]
    rw [if_pos (by omega), Res.bind_ok]
    refine ih (i + 1) (by omega) _ hs hin ho ?_ hb ?_
    · intro t s
      simp only [setEntry, Nat.add_sub_cancel]
      by_cases hts : t = i ∧ s = i
      · rw [if_pos hts, if_pos (by omega)]
      · rw [if_neg hts, hw]
        by_cases h2 : t = s ∧ t < i
        · rw [if_pos h2, if_pos (by omega)]
        · rw [if_neg h2, if_neg (by omega)]
    · intro t
      simp only [setItem]
      by_cases ht : t = i
      · rw [if_pos ht, if_pos (by omega)]
      · rw [if_neg ht, hf]
        by_cases h2 : t < i
        · rw [if_pos h2, if_pos (by omega)]
        · rw [if_neg h2, if_neg (by omega)]

/-- What a new network is. -/
theorem newNetwork_spec (f : NFunc K) (size input : Nat) (h : input ≤ size) :
    ∃ n, newNetwork size input f = Res.ok n ∧ n.size = size ∧ n.input = input ∧ n.orig = none ∧
      (∀ t s, n.weights t s = if t = s ∧ t < input then 1 else 0) ∧ (∀ t, n.biases t = 0) ∧
      ∀ t, n.funcs t = if t < input then linearFn else f := by
  unfold newNetwork
  rw [List.range_eq_range']
  exact netInputs_spec f size input h input 0 (by omega) _ rfl rfl rfl (by simp) (by simp) (by simp)

theorem netInputs_panic (l : List Nat) (n : Network K) (i : Nat) (hi : i ∈ l) (h : n.size ≤ i) :
    netInputs l n = Res.panic := by
  induction l generalizing n with
  | nil => cases hi
  | cons j js ih =>
    simp only [netInputs]
    by_cases hj : j < n.size
    · rw [if_pos hj, Network.setWeight, if_pos (by
        show 1 ≤ j + 1 ∧ j + 1 ≤ n.size ∧ 1 ≤ j + 1 ∧ j + 1 ≤ n.size
        omega), Res.bind_ok]
      refine ih _ ?_ h
      rcases List.mem_cons.1 hi with rfl | hi
      · omega
      · exact hi
    · rw [if_neg hj]

/-! ## Activation -/

theorem activate_succ (n : Network K) (m : Nat) (x : Nat → K) : n.activate (m + 1) x = n.pass (n.activate m x) := by
  induction m generalizing x with
  | zero => rfl
  | succ m ih =>
    show n.activate (m + 1) (n.pass x) = _
    rw [ih]
    rfl

namespace Network.Layered
variable {n : Network K} {level : Nat → Nat} {L : Nat} (H : n.Layered level L)
include H

theorem input_row {i : Nat} (hi : i < n.input) {s : Nat} (hs : s < n.size) : n.weights i s = if s = i then 1 else 0 := by
  by_cases h : s = i
  · rw [if_pos h, h, H.self i hi]
  · rw [if_neg h]
    by_contra hne
    rcases H.edges i s (by have := H.fits; omega) hs hne with ⟨rfl, _⟩ | hlt
    · exact h rfl
    · rw [H.inputs i hi] at hlt; omega

theorem pass_input (x : Nat → K) {i : Nat} (hi : i < n.input) : n.pass x i = x i := by
  unfold Network.pass
  rw [H.linear i hi, H.noBias i hi, add_zero]
  rw [Finset.sum_eq_single i]
  · rw [H.self i hi, one_mul]
  · intro b hb hbi
    rw [H.input_row hi (Finset.mem_range.1 hb), if_neg hbi, zero_mul]
  · intro h
    exact absurd (Finset.mem_range.2 (by have := H.fits; omega)) h

/-- The values of the neurons a neuron hears of decide its value. -/
theorem pass_congr (x y : Nat → K) {i : Nat} (hi : i < n.size) (hin : n.input ≤ i)
    (h : ∀ s, s < n.size → level s < level i → x s = y s) : n.pass x i = n.pass y i := by
  unfold Network.pass
  congr 2
  apply Finset.sum_congr rfl
  intro s hs
  by_cases hw : n.weights i s = 0
  · rw [hw, zero_mul, zero_mul]
  · rcases H.edges i s hi (Finset.mem_range.1 hs) hw with ⟨_, h'⟩ | hlt
    · omega
    · rw [h s (Finset.mem_range.1 hs) hlt]

theorem activate_input (m : Nat) (x : Nat → K) {i : Nat} (hi : i < n.input) : n.activate m x i = x i := by
  induction m with
  | zero => rfl
  | succ m ih => rw [activate_succ, H.pass_input _ hi, ih]

/-- A neuron keeps its value once the passes have reached its level. -/
theorem stable (x : Nat → K) (m : Nat) : ∀ i, i < n.size → level i ≤ m → n.activate (m + 1) x i = n.activate m x i := by
  induction m with
  | zero =>
    intro i hi hl
    by_cases hin : i < n.input
    · rw [H.activate_input _ _ hin, H.activate_input _ _ hin]
    · have := (H.others i (by omega) hi).1
      omega
  | succ m ih =>
    intro i hi hl
    by_cases hin : i < n.input
    · rw [H.activate_input _ _ hin, H.activate_input _ _ hin]
    · rw [activate_succ, activate_succ n m x]
      apply H.pass_congr _ _ hi (by omega)
      intro s hs hlt
      rw [← activate_succ]
      exact ih s hs (by omega)

theorem feedForward (x : Nat → K) {m : Nat} (hm : L ≤ m) : n.FeedForward x (n.activate m x) := by
  refine ⟨fun i hi => H.activate_input m x hi, ?_⟩
  intro i hin hi
  have h := H.stable x m i hi ((H.others i hin hi).2.trans hm)
  rw [activate_succ] at h
  exact h.symm

theorem unique {x F F' : Nat → K} (h : n.FeedForward x F) (h' : n.FeedForward x F') : ∀ i, i < n.size → F i = F' i := by
  have key : ∀ m i, i < n.size → level i ≤ m → F i = F' i := by
    intro m
    induction m with
    | zero =>
      intro i hi hl
      by_cases hin : i < n.input
      · rw [h.inputs i hin, h'.inputs i hin]
      · have := (H.others i (by omega) hi).1
        omega
    | succ m ih =>
      intro i hi hl
      by_cases hin : i < n.input
      · rw [h.inputs i hin, h'.inputs i hin]
      · rw [h.others i (by omega) hi, h'.others i (by omega) hi]
        exact H.pass_congr F F' hi (by omega) fun s hs hlt => ih s hs (by omega)
  exact fun i hi => key (level i) i hi le_rfl

end Network.Layered

/-! ## Back-propagation -/

/-- The error after `i` steps backwards. -/
def Network.back (n : Network K) (out : Nat → K) (err : Nat → K) : Nat → Nat → K
  | 0 => fun r => err r * out r
  | i + 1 => fun r => (∑ c ∈ Finset.range n.size, n.weights c r * n.back out err i c) * out r

theorem back_shift (n : Network K) (out err : Nat → K) (i : Nat) :
    n.back out (fun r => ∑ c ∈ Finset.range n.size, n.weights c r * (err c * out c)) i = n.back out err (i + 1) := by
  induction i with
  | zero => rfl
  | succ i ih =>
    funext r
    show (∑ c ∈ Finset.range n.size, n.weights c r * n.back out _ i c) * out r = _
    rw [ih]
    rfl

theorem errorLoop_eq (n : Network K) (out : Nat → K) (m : Nat) (err ret : Nat → K) (r : Nat) :
    n.errorLoop out m err ret r = ret r + ∑ i ∈ Finset.range m, n.back out err i r := by
  induction m generalizing err ret with
  | zero => simp [Network.errorLoop]
  | succ m ih =>
    simp only [Network.errorLoop]
    rw [ih]
    cases m with
    | zero => simp [Network.back]
    | succ m =>
      rw [if_pos (by omega), Finset.sum_range_succ' _ (m + 1), add_assoc]
      congr 1
      rw [add_comm]
      congr 1
      apply Finset.sum_congr rfl
      intro i _
      rw [back_shift]

theorem error_eq (n : Network K) (out err : Nat → K) (m r : Nat) :
    n.error out err m r = ∑ i ∈ Finset.range m, n.back (fun r => (n.funcs r).backward (out r)) err i r := by
  unfold Network.error
  rw [errorLoop_eq, zero_add]

namespace Network.Layered
variable {n : Network K} {level : Nat → Nat} {L : Nat} (H : n.Layered level L)
include H

/-- Nothing comes back from further than the levels above. -/
theorem back_zero (out err : Nat → K) (i : Nat) : ∀ v, n.input ≤ v → v < n.size → L < level v + i → n.back out err i v = 0 := by
  induction i with
  | zero =>
    intro v hin hv h
    have := (H.others v hin hv).2
    omega
  | succ i ih =>
    intro v hin hv h
    show (∑ c ∈ Finset.range n.size, n.weights c v * n.back out err i c) * out v = 0
    rw [Finset.sum_eq_zero, zero_mul]
    intro c hc
    by_cases hw : n.weights c v = 0
    · rw [hw, zero_mul]
    · have hcs := Finset.mem_range.1 hc
      rcases H.edges c v hcs hv hw with ⟨rfl, h'⟩ | hlt
      · omega
      · have hl := (H.others v hin hv).1
        have hci : n.input ≤ c := by
          by_contra hcon
          rw [H.inputs c (by omega)] at hlt
          omega
        rw [ih c hci hcs (by omega), mul_zero]

theorem backPropagates (out err : Nat → K) {m : Nat} (hm : L ≤ m) : n.BackPropagates out err (n.error out err m) := by
  intro v hin hv
  simp only [error_eq]
  set o : Nat → K := fun r => (n.funcs r).backward (out r) with ho
  have hz := H.back_zero o err m v hin hv (by have := (H.others v hin hv).1; omega)
  have h1 : ∑ i ∈ Finset.range m, n.back o err i v = ∑ i ∈ Finset.range (m + 1), n.back o err i v := by
    rw [Finset.sum_range_succ, hz, add_zero]
  rw [h1, Finset.sum_range_succ']
  have h2 : ∀ i, n.back o err (i + 1) v = o v * ∑ c ∈ Finset.range n.size, n.weights c v * n.back o err i c := by
    intro i
    show (∑ c ∈ Finset.range n.size, n.weights c v * n.back o err i c) * o v = _
    rw [mul_comm]
  rw [Finset.sum_congr rfl fun i _ => h2 i, ← Finset.mul_sum]
  have h3 : n.back o err 0 v = o v * err v := mul_comm _ _
  rw [h3, add_comm, ← mul_add, Finset.sum_comm]
  simp only [Finset.mul_sum, ho]

end Network.Layered
end

end Golearn
