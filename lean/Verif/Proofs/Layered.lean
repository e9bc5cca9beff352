import Verif.Spec.Layered
import Verif.Props.C92
import Mathlib.Tactic.Linarith

/-! # Lemmas about networks in layers: the random start -/

namespace Golearn

theorem layerOf_low (pre post : List Nat) (i : Nat) (h : i < pre.sum) : layerOf (pre ++ post) i < pre.length := by
  induction pre generalizing i with
  | nil => simp at h
  | cons l ls ih =>
    simp only [List.cons_append, layerOf, List.length_cons]
    split
    · omega
    · rw [List.sum_cons] at h
      have := ih (i - l) (by omega)
      omega

theorem layerOf_high (pre post : List Nat) (i : Nat) (h : pre.sum ≤ i) :
    layerOf (pre ++ post) i = pre.length + layerOf post (i - pre.sum) := by
  induction pre generalizing i with
  | nil => simp
  | cons l ls ih =>
    rw [List.sum_cons] at h
    simp only [List.cons_append, layerOf, List.length_cons, List.sum_cons]
    rw [if_neg (by omega), ih (i - l) (by omega)]
    rw [show i - l - ls.sum = i - (l + ls.sum) by omega]
    omega

theorem layerOf_last (ls : List Nat) (i : Nat) (h : ls.sum ≤ i) : layerOf ls i = ls.length := by
  have := layerOf_high ls [] i h
  rw [List.append_nil] at this
  rw [this]
  rfl

theorem layerOf_le (ls : List Nat) (i : Nat) : layerOf ls i ≤ ls.length := by
  induction ls generalizing i with
  | nil => simp [layerOf]
  | cons l ls ih =>
    simp only [layerOf, List.length_cons]
    split
    · omega
    · have := ih (i - l); omega

/-- Places in the layer after `pre`, of size `l`. -/
theorem layerOf_in (pre : List Nat) (l : Nat) (post : List Nat) (j : Nat) (h : j < l) :
    layerOf (pre ++ l :: post) (pre.sum + j) = pre.length := by
  rw [layerOf_high pre _ _ (by omega)]
  simp [layerOf, h]

/-- A slot that is in range and, for a weight, leads from a layer of `ls` to the next one. -/
def NetSlot.Good (ls : List Nat) (size : Nat) : NetSlot → Prop
  | .weight s t => 1 ≤ s ∧ s ≤ size ∧ 1 ≤ t ∧ t ≤ size ∧ layerOf ls (t - 1) = layerOf ls (s - 1) + 1
  | .bias b => b ≤ size

theorem pairSlots_good {off this next : Nat} {ls : List Nat} {size k : Nat}
    (h1 : ∀ j, j < this → layerOf ls (off + j) = k) (h2 : ∀ j, j < next → layerOf ls (off + this + j) = k + 1)
    (hs : off + this + next ≤ size) : ∀ s ∈ pairSlots off this next, s.Good ls size := by
  intro s hs'
  simp only [pairSlots, List.mem_flatMap, List.mem_map, List.mem_range] at hs'
  obtain ⟨j, hj, k', hk, rfl⟩ := hs'
  refine ⟨by omega, by omega, by omega, by omega, ?_⟩
  rw [show off + (j + 1) - 1 = off + j by omega, show off + this + (k' + 1) - 1 = off + this + k' by omega, h1 j hj, h2 k' hk]

theorem interSlots_good (pre ls : List Nat) (size : Nat) (h : (pre ++ ls).sum ≤ size) :
    ∀ s ∈ interSlots pre.sum ls, s.Good (pre ++ ls) size := by
  induction ls generalizing pre with
  | nil => simp [interSlots]
  | cons l ls ih =>
    cases ls with
    | nil => simp [interSlots]
    | cons l' ls =>
      intro s hs
      simp only [interSlots, List.mem_append] at hs
      rcases hs with hs | hs
      · refine pairSlots_good (k := pre.length) ?_ ?_ ?_ s hs
        · intro j hj; exact layerOf_in pre l _ j hj
        · intro j hj
          have := layerOf_in (pre ++ [l]) l' ls j hj
          simp only [List.append_assoc, List.singleton_append, List.sum_append, List.sum_cons, List.sum_nil, List.length_append,
            List.length_cons, List.length_nil] at this
          exact this
        · simp only [List.sum_append, List.sum_cons] at h
          omega
      · have := ih (pre ++ [l]) (by simpa using h) s (by simpa using hs)
        simpa using this

theorem hiddenBias_good (off : Nat) (ls all : List Nat) (size : Nat) (h : off + ls.sum ≤ size) :
    ∀ s ∈ hiddenBiasSlots off ls, s.Good all size := by
  induction ls generalizing off with
  | nil => simp [hiddenBiasSlots]
  | cons l ls ih =>
    intro s hs
    rw [List.sum_cons] at h
    simp only [hiddenBiasSlots, List.mem_append, List.mem_map, List.mem_range] at hs
    rcases hs with ⟨j, hj, rfl⟩ | hs
    · show off + (j + 1) ≤ size
      omega
    · exact ih (off + l) (by omega) s hs

theorem lastSlots_good (outs : Nat) (pre ls : List Nat) (size : Nat) (h : (pre ++ ls).sum + outs ≤ size) :
    ∀ s ∈ lastSlots outs pre.sum ls, s.Good (pre ++ ls) size := by
  induction ls generalizing pre with
  | nil => simp [lastSlots]
  | cons l ls ih =>
    cases ls with
    | nil =>
      intro s hs
      simp only [lastSlots] at hs
      simp only [List.sum_append, List.sum_cons, List.sum_nil] at h
      refine pairSlots_good (k := pre.length) ?_ ?_ (by omega) s hs
      · intro j hj; exact layerOf_in pre l [] j hj
      · intro j hj
        rw [layerOf_last _ _ (by simp)]
        simp
    | cons l' ls =>
      intro s hs
      simp only [lastSlots] at hs
      have := ih (pre ++ [l]) (by simpa using h) s (by simpa using hs)
      simpa using this

theorem inputSlots_good (ins outs : Nat) (ls : List Nat) (size : Nat) (h : ins + ls.sum + outs ≤ size) :
    ∀ s ∈ inputSlots ins outs ls, s.Good (ins :: ls) size := by
  unfold inputSlots
  cases ls with
  | nil =>
    simp only [List.sum_nil] at h
    refine pairSlots_good (k := 0) ?_ ?_ (by simp only; omega)
    · intro j hj; simp [layerOf, hj]
    · intro j hj; simp [layerOf]
  | cons l ls =>
    simp only [List.sum_cons] at h
    refine pairSlots_good (k := 0) ?_ ?_ (by simp only; omega)
    · intro j hj; simp [layerOf, hj]
    · intro j hj
      have := layerOf_in [ins] l ls j hj
      simpa using this

theorem netSlots_good (ins outs : Nat) (ls : List Nat) :
    ∀ s ∈ netSlots ins outs ls, s.Good (ins :: ls) (ins + ls.sum + outs) := by
  intro s hs
  simp only [netSlots, List.mem_append] at hs
  rcases hs with (((hs | hs) | hs) | hs) | hs
  · exact interSlots_good [ins] ls _ (by simp) s (by simpa using hs)
  · exact hiddenBias_good ins ls _ _ (by omega) s hs
  · simp only [outBiasSlots, List.mem_map, List.mem_range] at hs
    obtain ⟨i, hi, rfl⟩ := hs
    show ins + ls.sum + i ≤ _
    omega
  · exact lastSlots_good outs [ins] ls _ (by simp) s (by simpa using hs)
  · exact inputSlots_good ins outs ls _ (by omega) s hs

section
variable {K : Type} [Field K] [LinearOrder K]

/-- The calls that set the slots. -/
def slotOps (draw : Nat → K) : Nat → List NetSlot → List (NetOp K)
  | _, [] => []
  | i, .weight s t :: rest => .setWeight s t (draw i * (1 / 10)) :: slotOps draw (i + 1) rest
  | i, .bias b :: rest => .setBias b (draw i * (1 / 10)) :: slotOps draw (i + 1) rest

theorem setSlots_eq (draw : Nat → K) (i : Nat) (l : List NetSlot) (n : Network K) :
    setSlots draw i l n = n.applyAll (slotOps draw i l) := by
  induction l generalizing i n with
  | nil => rfl
  | cons s l ih =>
    cases s <;> simp only [setSlots, slotOps, Network.applyAll, Network.apply, ih]

/-- Neurons lead only to the next layer, now and before training. -/
def NextOnly (ls : List Nat) (n : Network K) : Prop :=
  (∀ t s, t < n.size → s < n.size → t ≠ s → n.weights t s ≠ 0 → layerOf ls t = layerOf ls s + 1) ∧
  ∀ o, n.orig = some o → ∀ t s, t < n.size → s < n.size → t ≠ s → o t s ≠ 0 → layerOf ls t = layerOf ls s + 1

/-- What holds of the network from the random start on. -/
structure Shape (exp : K → K) (ls : List Nat) (sz inp L : Nat) (n : Network K) : Prop where
  size : n.size = sz
  input : n.input = inp
  inv : n.LayeredInv (layerOf ls) L
  next : NextOnly ls n
  sigmoid : ∀ i, inp ≤ i → n.funcs i = sigmoidFn exp

variable [IsStrictOrderedRing K] {exp : K → K} {ls : List Nat} {size input L : Nat} {n : Network K}

theorem Shape.train (h : Shape exp ls size input L n) (out err err' : Nat → K) (rate : K) :
    Shape exp ls size input L ((n.updateWeights out err rate).updateBias err' rate) := by
  refine ⟨h.size, h.input, ?_, ?_, h.sigmoid⟩
  · have h1 := apply_layered (op := .updateWeights out err rate) rfl trivial h.inv
    exact apply_layered (op := .updateBias err' rate) rfl trivial h1
  · obtain ⟨p, q⟩ := h.next
    have ho : ∀ t s, t < n.size → s < n.size → t ≠ s → (n.orig.getD n.weights) t s ≠ 0 → layerOf ls t = layerOf ls s + 1 := by
      intro t s ht hs hne hw
      cases horig : n.orig with
      | none => rw [horig] at hw; exact p t s ht hs hne hw
      | some o => rw [horig] at hw; exact q o horig t s ht hs hne hw
    constructor
    · intro t s ht hs hne hw
      simp only [Network.updateBias, Network.updateWeights] at hw ht hs
      rw [if_neg hne] at hw
      split at hw
      · next hbig =>
        apply ho t s ht hs hne
        intro h0
        rw [h0, abs_zero] at hbig
        have : (0 : K) < 1 / 200 := by positivity
        exact absurd hbig (not_lt.2 this.le)
      · exact absurd rfl hw
    · intro o he t s ht hs hne hw
      simp only [Network.updateBias, Network.updateWeights, Option.some.injEq] at he
      subst he
      exact ho t s ht hs hne hw

theorem setSlots_shape (draw : Nat → K) (l : List NetSlot) (hl : ∀ s ∈ l, s.Good ls size) (i : Nat)
    (h : Shape exp ls size input L n) (ho : n.orig = none) :
    ∃ n', setSlots draw i l n = Res.ok n' ∧ Shape exp ls size input L n' ∧ n'.orig = none := by
  induction l generalizing i n with
  | nil => exact ⟨n, rfl, h, ho⟩
  | cons s l ih =>
    have hl' : ∀ s ∈ l, s.Good ls size := fun s hs => hl s (by simp [hs])
    have hg := hl s (by simp)
    cases s with
    | weight s t =>
      obtain ⟨g1, g2, g3, g4, g5⟩ := hg
      set v := draw i * (1 / 10)
      set n1 : Network K := { n with weights := setEntry n.weights (t - 1) (s - 1) v } with hn1
      have e : n.setWeight s t v = Res.ok n1 := by
        unfold Network.setWeight
        rw [if_pos ⟨g1, by rw [h.size]; exact g2, g3, by rw [h.size]; exact g4⟩]
      have hs1 : Shape exp ls size input L n1 := by
        refine ⟨h.size, h.input, apply_layered (op := .setWeight s t v) e (by simp only [Upward]; omega) h.inv, ⟨?_, ?_⟩, h.sigmoid⟩
        · intro t' s' ht hs hne hw
          simp only [hn1, setEntry] at hw
          split at hw
          · next hc => rw [hc.1, hc.2, g5]
          · exact h.next.1 t' s' ht hs hne hw
        · intro o he
          simp only [hn1, ho] at he
          cases he
      obtain ⟨n', a1, a2⟩ := ih hl' (i + 1) hs1 ho
      refine ⟨n', ?_, a2⟩
      simp only [setSlots]
      rw [e, Res.bind_ok, a1]
    | bias b =>
      have hb : b ≤ size := hg
      simp only [setSlots]
      obtain ⟨n1, e, hs1, ho1⟩ : ∃ n1, n.setBias b (draw i * (1 / 10)) = Res.ok n1 ∧ Shape exp ls size input L n1 ∧ n1.orig = none := by
        unfold Network.setBias
        split
        · exact ⟨n, rfl, h, ho⟩
        · next hin =>
          rw [if_pos (by rw [h.size]; omega)]
          refine ⟨_, rfl, ⟨h.size, h.input, ?_, h.next, h.sigmoid⟩, ho⟩
          refine apply_layered (op := .setBias b (draw i * (1 / 10))) ?_ trivial h.inv
          simp only [Network.apply, Network.setBias]
          rw [if_neg hin, if_pos (by rw [h.size]; omega)]
      obtain ⟨n', a1, a2⟩ := ih hl' (i + 1) hs1 ho1
      exact ⟨n', by rw [e, Res.bind_ok, a1], a2⟩

/-- The network `Fit` starts training with. -/
theorem start_shape (exp : K → K) (draw : Nat → K) (ins outs : Nat) (layers : List Nat) :
    ∃ n0 n1, newNetwork (ins + outs + layers.sum) ins (sigmoidFn exp) = Res.ok n0 ∧
      setSlots draw 0 (netSlots ins outs layers) n0 = Res.ok n1 ∧
      Shape exp (ins :: layers) (ins + layers.sum + outs) ins (layers.length + 1) n1 := by
  obtain ⟨n0, e1, e2, e3, e4, e5, e6, e7⟩ := newNetwork_spec (sigmoidFn exp) (ins + outs + layers.sum) ins (by omega)
  have hin : ∀ i, i < ins → layerOf (ins :: layers) i = 0 := by
    intro i hi
    simp [layerOf, hi]
  have hsh : Shape exp (ins :: layers) (ins + layers.sum + outs) ins (layers.length + 1) n0 := by
    refine ⟨by rw [e2]; omega, e3, ⟨⟨by omega, by rw [e3]; exact hin, ?_, ?_, ?_, ?_, fun i _ => e6 i⟩, ?_⟩, ⟨?_, ?_⟩, ?_⟩
    · intro i hi _
      rw [e3] at hi
      refine ⟨?_, ?_⟩
      · simp only [layerOf]
        rw [if_neg (by omega)]
        omega
      · have := layerOf_le (ins :: layers) i
        simpa using this
    · intro t s _ _ hw
      rw [e5] at hw
      left
      rw [e3]
      by_contra hc
      rw [if_neg hc] at hw
      exact hw rfl
    · intro i hi
      rw [e5, if_pos ⟨rfl, by omega⟩]
    · intro i hi v
      rw [e7, if_pos (by omega)]
      rfl
    · intro o ho
      rw [e4] at ho; cases ho
    · intro t s _ _ hne hw
      rw [e5, if_neg (fun hc => hne hc.1)] at hw
      exact absurd rfl hw
    · intro o ho
      rw [e4] at ho; cases ho
    · intro i hi
      rw [e7, if_neg (by omega)]
  obtain ⟨n1, a1, a2, _⟩ := setSlots_shape draw _ (netSlots_good ins outs layers) 0 hsh e4
  exact ⟨n0, n1, e1, a1, a2⟩

end

end Golearn
