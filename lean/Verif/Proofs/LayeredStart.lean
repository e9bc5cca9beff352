import Verif.Proofs.Layered

/-! # Lemmas about networks in layers: every connection starts at random -/

namespace Golearn

theorem pairSlots_mem {off this next s t : Nat} (h1 : off ≤ s) (h2 : s < off + this) (h3 : off + this ≤ t) (h4 : t < off + this + next) :
    NetSlot.weight (s + 1) (t + 1) ∈ pairSlots off this next := by
  simp only [pairSlots, List.mem_flatMap, List.mem_map, List.mem_range]
  exact ⟨s - off, by omega, t - (off + this), by omega, by congr 1 <;> omega⟩

theorem joined_mem (outs : Nat) (pre ls : List Nat) (s t : Nat) (h1 : pre.sum ≤ s) (h2 : s < (pre ++ ls).sum)
    (h3 : t < (pre ++ ls).sum + outs) (h4 : layerOf (pre ++ ls) t = layerOf (pre ++ ls) s + 1) :
    NetSlot.weight (s + 1) (t + 1) ∈ interSlots pre.sum ls ++ lastSlots outs pre.sum ls := by
  induction ls generalizing pre with
  | nil => simp at h2; omega
  | cons l ls ih =>
    by_cases hs : s < pre.sum + l
    · have e := layerOf_in pre l ls (s - pre.sum) (by omega)
      rw [show pre.sum + (s - pre.sum) = s by omega] at e
      rw [e] at h4
      have ht : pre.sum + l ≤ t := by
        by_contra hc
        by_cases hp : t < pre.sum
        · have := layerOf_low pre (l :: ls) t hp
          omega
        · have := layerOf_in pre l ls (t - pre.sum) (by omega)
          rw [show pre.sum + (t - pre.sum) = t by omega] at this
          omega
      cases ls with
      | nil =>
        simp only [interSlots, lastSlots, List.nil_append]
        simp only [List.sum_append, List.sum_cons, List.sum_nil] at h3
        exact pairSlots_mem h1 hs ht (by omega)
      | cons l' ls =>
        rw [List.mem_append]
        left
        simp only [interSlots, List.mem_append]
        left
        refine pairSlots_mem h1 hs ht ?_
        by_contra hc
        have := layerOf_high (pre ++ [l, l']) ls t (by simp; omega)
        simp at this
        omega
    · have := ih (pre ++ [l]) (by simp; omega) (by simpa using h2) (by simpa using h3) (by simpa using h4)
      simp only [List.sum_append, List.sum_cons, List.sum_nil, Nat.add_zero] at this
      cases ls with
      | nil => simp at h2; omega
      | cons l' ls =>
        simp only [interSlots, lastSlots, List.mem_append] at this ⊢
        rcases this with h | h
        · exact Or.inl (Or.inr h)
        · exact Or.inr h

theorem netSlots_weight (ins outs : Nat) (ls : List Nat) (s t : Nat) (hs : s < ins + ls.sum + outs) (ht : t < ins + ls.sum + outs)
    (h : layerOf (ins :: ls) t = layerOf (ins :: ls) s + 1) : NetSlot.weight (s + 1) (t + 1) ∈ netSlots ins outs ls := by
  have hs' : s < ins + ls.sum := by
    by_contra hc
    have h1 := layerOf_last (ins :: ls) s (by simp; omega)
    have h2 := layerOf_le (ins :: ls) t
    omega
  simp only [netSlots, List.mem_append]
  by_cases hi : s < ins
  · right
    have e : layerOf (ins :: ls) s = 0 := by simp [layerOf, hi]
    rw [e] at h
    have hti : ins ≤ t := by
      by_contra hc
      simp [layerOf, show t < ins by omega] at h
    cases ls with
    | nil =>
      refine pairSlots_mem (by omega) (by omega) (by omega) ?_
      simp at ht ⊢
      omega
    | cons l ls =>
      refine pairSlots_mem (by omega) (by omega) (by omega) ?_
      by_contra hc
      have := layerOf_high [ins, l] ls t (by simp at hc ⊢; omega)
      simp at this
      omega
  · have := joined_mem outs [ins] ls s t (by simp; omega) (by simpa using hs') (by simpa using ht) (by simpa using h)
    rw [List.mem_append] at this
    simp only [List.sum_cons, List.sum_nil, Nat.add_zero] at this
    rcases this with h | h
    · exact Or.inl (Or.inl (Or.inl (Or.inl h)))
    · exact Or.inl (Or.inr h)

theorem hiddenBias_mem (off : Nat) (ls : List Nat) (i : Nat) (h1 : off ≤ i) (h2 : i < off + ls.sum) :
    NetSlot.bias (i + 1) ∈ hiddenBiasSlots off ls := by
  induction ls generalizing off with
  | nil => simp at h2; omega
  | cons l ls ih =>
    simp only [hiddenBiasSlots, List.mem_append, List.mem_map, List.mem_range]
    by_cases h : i < off + l
    · exact Or.inl ⟨i - off, by omega, by congr 1; omega⟩
    · exact Or.inr (ih (off + l) (by omega) (by simp at h2; omega))

theorem netSlots_bias (ins outs : Nat) (ls : List Nat) (i : Nat) (h1 : ins ≤ i) (h2 : i + 1 < ins + ls.sum + outs) :
    NetSlot.bias (i + 1) ∈ netSlots ins outs ls := by
  simp only [netSlots, List.mem_append]
  left; left
  by_cases h : i < ins + ls.sum
  · exact Or.inl (Or.inr (hiddenBias_mem ins ls i h1 h))
  · right
    simp only [outBiasSlots, List.mem_map, List.mem_range]
    exact ⟨i + 1 - (ins + ls.sum), by omega, by congr 1; omega⟩

theorem bias_le_hidden (off : Nat) (ls : List Nat) (b : Nat) (h : NetSlot.bias b ∈ hiddenBiasSlots off ls) : b ≤ off + ls.sum := by
  induction ls generalizing off with
  | nil => simp [hiddenBiasSlots] at h
  | cons l ls ih =>
    simp only [hiddenBiasSlots, List.mem_append, List.mem_map, List.mem_range] at h
    rw [List.sum_cons]
    rcases h with ⟨j, hj, e⟩ | h
    · simp only [NetSlot.bias.injEq] at e; omega
    · have := ih _ h; omega

theorem bias_not_pair (off this next b : Nat) : NetSlot.bias b ∉ pairSlots off this next := by
  simp [pairSlots]

theorem bias_not_inter (off : Nat) (ls : List Nat) (b : Nat) : NetSlot.bias b ∉ interSlots off ls := by
  induction ls generalizing off with
  | nil => simp [interSlots]
  | cons l ls ih =>
    cases ls with
    | nil => simp [interSlots]
    | cons l' ls =>
      simp only [interSlots, List.mem_append, not_or]
      exact ⟨bias_not_pair _ _ _ _, ih _⟩

theorem bias_not_last (outs off : Nat) (ls : List Nat) (b : Nat) : NetSlot.bias b ∉ lastSlots outs off ls := by
  induction ls generalizing off with
  | nil => simp [lastSlots]
  | cons l ls ih =>
    cases ls with
    | nil => exact bias_not_pair _ _ _ _
    | cons l' ls => exact ih _

theorem netSlots_bias_lt (ins outs : Nat) (ls : List Nat) (b : Nat) (ho : 0 < outs) (h : NetSlot.bias b ∈ netSlots ins outs ls) :
    b < ins + ls.sum + outs := by
  simp only [netSlots, List.mem_append] at h
  rcases h with (((h | h) | h) | h) | h
  · exact absurd h (bias_not_inter _ _ _)
  · have := bias_le_hidden _ _ _ h; omega
  · simp only [outBiasSlots, List.mem_map, List.mem_range, NetSlot.bias.injEq] at h
    obtain ⟨j, hj, e⟩ := h
    omega
  · exact absurd h (bias_not_last _ _ _ _)
  · exact absurd h (bias_not_pair _ _ _ _)

section
variable {K : Type} [Field K] [LinearOrder K]

/-- The values left by setting slots one after the other. -/
theorem setSlots_values (draw : Nat → K) (l : List NetSlot) (i : Nat) (n n' : Network K) (h : setSlots draw i l n = Res.ok n') :
    n'.input = n.input ∧ ∃ k : NetSlot → Nat, (∀ p ∈ l, i ≤ k p ∧ l[k p - i]? = some p) ∧
      (∀ s t, n'.weights t s = if NetSlot.weight (s + 1) (t + 1) ∈ l then draw (k (.weight (s + 1) (t + 1))) * (1 / 10) else n.weights t s) ∧
      ∀ b, n.input ≤ b → n'.biases b = if NetSlot.bias (b + 1) ∈ l then draw (k (.bias (b + 1))) * (1 / 10) else n.biases b := by
  induction l generalizing i n with
  | nil =>
    simp only [setSlots, Res.ok.injEq] at h
    subst h
    exact ⟨rfl, fun _ => 0, by simp, by simp, by simp⟩
  | cons p rest ih =>
    have key : ∀ n1 : Network K, n1.input = n.input → setSlots draw (i + 1) rest n1 = Res.ok n' →
        (∀ s t, n1.weights t s = if NetSlot.weight (s + 1) (t + 1) = p then draw i * (1 / 10) else n.weights t s) →
        (∀ b, n.input ≤ b → n1.biases b = if NetSlot.bias (b + 1) = p then draw i * (1 / 10) else n.biases b) →
        n'.input = n.input ∧ ∃ k : NetSlot → Nat, (∀ q ∈ p :: rest, i ≤ k q ∧ (p :: rest)[k q - i]? = some q) ∧
          (∀ s t, n'.weights t s = if NetSlot.weight (s + 1) (t + 1) ∈ p :: rest then
            draw (k (.weight (s + 1) (t + 1))) * (1 / 10) else n.weights t s) ∧
          ∀ b, n.input ≤ b → n'.biases b = if NetSlot.bias (b + 1) ∈ p :: rest then
            draw (k (.bias (b + 1))) * (1 / 10) else n.biases b := by
      intro n1 hin h1 hw hb
      obtain ⟨i1, k, k1, k2, k3⟩ := ih (i + 1) n1 h1
      refine ⟨i1.trans hin, fun q => if q ∈ rest then k q else i, ?_, ?_, ?_⟩
      · intro q hq
        by_cases hr : q ∈ rest
        · simp only [hr, if_true]
          obtain ⟨a1, a2⟩ := k1 q hr
          refine ⟨by omega, ?_⟩
          rw [show k q - i = (k q - (i + 1)) + 1 by omega, List.getElem?_cons_succ]
          exact a2
        · simp only [hr, if_false]
          have : q = p := by simpa [hr] using hq
          subst this
          simp
      · intro s t
        rw [k2 s t]
        by_cases hr : NetSlot.weight (s + 1) (t + 1) ∈ rest
        · simp [hr]
        · rw [if_neg hr, hw s t]
          by_cases hp : NetSlot.weight (s + 1) (t + 1) = p
          · rw [if_pos hp, if_pos (by simp [hp])]; simp only [if_neg hr]
          · rw [if_neg hp, if_neg (by simp [hp, hr])]
      · intro b hbi
        rw [k3 b (by omega)]
        by_cases hr : NetSlot.bias (b + 1) ∈ rest
        · simp [hr]
        · rw [if_neg hr, hb b hbi]
          by_cases hp : NetSlot.bias (b + 1) = p
          · rw [if_pos hp, if_pos (by simp [hp])]; simp only [if_neg hr]
          · rw [if_neg hp, if_neg (by simp [hp, hr])]
    cases p with
    | weight s t =>
      simp only [setSlots, Res.bind_eq_ok] at h
      obtain ⟨n1, h1, h2⟩ := h
      unfold Network.setWeight at h1
      split at h1
      · next hc =>
        simp only [Res.ok.injEq] at h1
        subst h1
        apply key _ _ h2
        · intro s' t'
          simp only [setEntry, NetSlot.weight.injEq]
          by_cases hq : t' = t - 1 ∧ s' = s - 1
          · rw [if_pos hq, if_pos (by omega)]
          · rw [if_neg hq, if_neg (by omega)]
        · intro b hb
          simp
        · rfl
      · cases h1
    | bias b =>
      simp only [setSlots, Res.bind_eq_ok] at h
      obtain ⟨n1, h1, h2⟩ := h
      unfold Network.setBias at h1
      split at h1
      · next hc =>
        simp only [Res.ok.injEq] at h1
        subst h1
        refine key _ rfl h2 (by simp) ?_
        intro b' hb'
        rw [if_neg (by simp only [NetSlot.bias.injEq]; omega)]
      · split at h1
        · next hc hc2 =>
          simp only [Res.ok.injEq] at h1
          subst h1
          apply key _ _ h2 (by simp) _
          · rfl
          intro b' hb'
          simp only [setItem, NetSlot.bias.injEq]
          by_cases hq : b' = b - 1
          · rw [if_pos hq, if_pos (by omega)]
          · rw [if_neg hq, if_neg (by omega)]
        · cases h1

theorem randomStart {exp : K → K} {draw : Nat → K} {ins outs : Nat} {layers : List Nat} {n0 n1 : Network K}
    (h0 : newNetwork (ins + outs + layers.sum) ins (sigmoidFn exp) = Res.ok n0)
    (h1 : setSlots draw 0 (netSlots ins outs layers) n0 = Res.ok n1) : RandomStart draw n1 ins layers outs := by
  obtain ⟨n0', e1, e2, e3, e4, e5, e6, e7⟩ := newNetwork_spec (sigmoidFn exp) (ins + outs + layers.sum) ins (by omega)
  rw [h0, Res.ok.injEq] at e1
  subst e1
  obtain ⟨i1, k, k1, k2, k3⟩ := setSlots_values draw _ _ _ _ h1
  have inj : ∀ p q, p ∈ netSlots ins outs layers → q ∈ netSlots ins outs layers → k p = k q → p = q := by
    intro p q hp hq he
    have a := (k1 p hp).2
    have b := (k1 q hq).2
    rw [he, b] at a
    exact (Option.some.inj a).symm
  refine ⟨fun t s => k (.weight (s + 1) (t + 1)), fun i => k (.bias (i + 1)), ?_, ?_, ?_, ?_, ?_, ?_⟩
  · rintro t s ⟨a, b, c⟩
    rw [k2 s t, if_pos (netSlots_weight ins outs layers s t b a c)]
  · rintro i ⟨a, b⟩
    rw [k3 i (by omega), if_pos (netSlots_bias ins outs layers i a b)]
  · intro ho
    rw [k3 _ (by omega), if_neg, e6]
    intro hm
    have := netSlots_bias_lt ins outs layers _ ho hm
    omega
  · rintro t s t' s' ⟨a, b, c⟩ ⟨a', b', c'⟩ he
    have := inj _ _ (netSlots_weight ins outs layers s t b a c) (netSlots_weight ins outs layers s' t' b' a' c') he
    simp only [NetSlot.weight.injEq] at this
    omega
  · rintro i j ⟨a, b⟩ ⟨a', b'⟩ he
    have := inj _ _ (netSlots_bias ins outs layers i a b) (netSlots_bias ins outs layers j a' b') he
    simp only [NetSlot.bias.injEq] at this
    omega
  · rintro t s i ⟨a, b, c⟩ ⟨a', b'⟩ he
    have := inj _ _ (netSlots_weight ins outs layers s t b a c) (netSlots_bias ins outs layers i a' b') he
    cases this

end

end Golearn
