import Verif.Props.C71

/-! # C92: activating a layered network computes its values -/

namespace Golearn

section
variable {K : Type} [Field K] [LinearOrder K]

/-- A layered network, activated at least as often as it has levels, gives every neuron its value, whatever the other
neurons held before. -/
theorem C92_activate {n : Network K} {level : Nat → Nat} {L : Nat} (H : n.Layered level L) (x : Nat → K) {m : Nat}
    (hm : L ≤ m) : n.FeedForward x (n.activate m x) :=
  H.feedForward x hm

/-- The values of the neurons of a layered network are determined by its input. -/
theorem C92_unique {n : Network K} {level : Nat → Nat} {L : Nat} (H : n.Layered level L) {x F F' : Nat → K}
    (h : n.FeedForward x F) (h' : n.FeedForward x F') : ∀ i, i < n.size → F i = F' i :=
  H.unique h h'

/-- Hence what a layered network gives depends neither on the number of passes, as long as they are enough, nor on what was
in the neurons that are not inputs. -/
theorem C92_settled {n : Network K} {level : Nat → Nat} {L : Nat} (H : n.Layered level L) {x x' : Nat → K}
    (hx : ∀ i, i < n.input → x i = x' i) {m m' : Nat} (hm : L ≤ m) (hm' : L ≤ m') :
    ∀ i, i < n.size → n.activate m x i = n.activate m' x' i := by
  apply H.unique (H.feedForward x hm)
  have h := H.feedForward x' hm'
  exact ⟨fun i hi => (h.inputs i hi).trans (hx i hi).symm, h.others⟩

/-- A call which, if it sets a weight, sets one from a lower to a higher level. -/
def Upward (level : Nat → Nat) : NetOp K → Prop
  | .setWeight src target _ => level (src - 1) < level (target - 1)
  | _ => True

/-- Layered, and so were the weights before training. -/
def Network.LayeredInv (n : Network K) (level : Nat → Nat) (L : Nat) : Prop :=
  n.Layered level L ∧ ∀ o, n.orig = some o → ∀ t s, t < n.size → s < n.size → t ≠ s → o t s ≠ 0 → level s < level t

theorem apply_layered [IsStrictOrderedRing K] {n n' : Network K} {op : NetOp K} {level : Nat → Nat} {L : Nat}
    (h : n.apply op = Res.ok n') (hup : Upward level op) (hi : n.LayeredInv level L) : n'.LayeredInv level L := by
  obtain ⟨H, Ho⟩ := hi
  cases op with
  | setWeight src target v =>
    simp only [Network.apply, Network.setWeight] at h
    split at h
    · rename_i hr
      cases h
      simp only [Upward] at hup
      refine ⟨⟨H.fits, H.inputs, H.others, ?_, ?_, H.linear, H.noBias⟩, Ho⟩
      · intro t s ht hs hw
        simp only [setEntry] at hw
        by_cases hc : t = target - 1 ∧ s = src - 1
        · right
          rw [hc.1, hc.2]
          exact hup
        · rw [if_neg hc] at hw
          exact H.edges t s ht hs hw
      · intro i hi
        simp only [setEntry]
        rw [if_neg, H.self i hi]
        rintro ⟨h1, h2⟩
        rw [← h1, ← h2] at hup
        omega
    · cases h
  | setBias node v =>
    simp only [Network.apply, Network.setBias] at h
    split at h
    · cases h; exact ⟨H, Ho⟩
    · split at h
      · cases h
        refine ⟨⟨H.fits, H.inputs, H.others, H.edges, H.self, H.linear, ?_⟩, Ho⟩
        intro i hi
        change i < n.input at hi
        simp only [setItem]
        rw [if_neg (by omega), H.noBias i hi]
      · cases h
  | updateWeights out err learnRate =>
    cases h
    have ho : ∀ t s, t < n.size → s < n.size → t ≠ s → (n.orig.getD n.weights) t s ≠ 0 → level s < level t := by
      intro t s ht hs hts hw
      cases e : n.orig with
      | none =>
        rw [e] at hw
        rcases H.edges t s ht hs hw with h | h
        · exact absurd h.1 hts
        · exact h
      | some o =>
        rw [e] at hw
        exact Ho o e t s ht hs hts hw
    refine ⟨⟨H.fits, H.inputs, H.others, ?_, ?_, H.linear, H.noBias⟩, ?_⟩
    · intro t s ht hs hw
      simp only [Network.updateWeights] at hw
      by_cases hts : t = s
      · rw [if_pos hts] at hw
        exact H.edges t s ht hs hw
      · rw [if_neg hts] at hw
        right
        apply ho t s ht hs hts
        intro hz
        rw [hz, abs_zero, if_neg] at hw
        · exact hw rfl
        · rw [gt_iff_lt, not_lt]
          positivity
    · intro i hi
      simp only [Network.updateWeights]
      rw [if_pos trivial]
      exact H.self i hi
    · intro o e
      cases e
      exact ho
  | updateBias err learnRate =>
    cases h
    refine ⟨⟨H.fits, H.inputs, H.others, H.edges, H.self, H.linear, ?_⟩, Ho⟩
    intro i hi
    change i < n.input at hi
    simp only [Network.updateBias]
    rw [if_pos hi]
    exact H.noBias i hi

/-- A new network, with weights only ever set from lower to higher levels, is layered whatever else is called on it,
training included. -/
theorem C92_histories [IsStrictOrderedRing K] {f : NFunc K} {size input : Nat} {n0 n : Network K}
    (h0 : newNetwork size input f = Res.ok n0) {level : Nat → Nat} {L : Nat} (hin : ∀ i, i < input → level i = 0)
    (hot : ∀ i, input ≤ i → i < size → 1 ≤ level i ∧ level i ≤ L) {ops : List (NetOp K)}
    (h : n0.applyAll ops = Res.ok n) (hup : ∀ op ∈ ops, Upward level op) : n.Layered level L := by
  have hle : input ≤ size := by
    by_contra hcon
    rw [(C71_new f size input).2 (by omega)] at h0
    cases h0
  obtain ⟨m, e1, e2, e3, e4, e5, e6, e7⟩ := newNetwork_spec f size input hle
  rw [h0] at e1
  cases e1
  have hi : n0.LayeredInv level L := by
    refine ⟨⟨by omega, by rw [e3]; exact hin, by rw [e2, e3]; exact hot, ?_, ?_, ?_, fun i _ => e6 i⟩, ?_⟩
    · intro t s _ _ hw
      rw [e5] at hw
      left
      by_contra hcon
      rw [if_neg (by rw [e3] at hcon; exact hcon)] at hw
      exact hw rfl
    · intro i hi
      rw [e5, if_pos ⟨rfl, by omega⟩]
    · intro i hi v
      rw [e7, if_pos (by omega)]
      rfl
    · intro o e
      rw [e4] at e
      cases e
  clear h0 e2 e3 e4 e5 e6 e7
  induction ops generalizing n0 with
  | nil => cases h; exact hi.1
  | cons op ops ih =>
    rw [Network.applyAll, Res.bind_eq_ok] at h
    obtain ⟨m, h1, h2⟩ := h
    exact ih (n0 := m) h2 (fun o ho => hup o (List.mem_cons_of_mem _ ho)) (apply_layered h1 (hup op List.mem_cons_self) hi)
end

/-- The calls that connect the neurons of the example: 1 and 2 are inputs, 3 hears both, 4 hears 3 and 1. -/
def diamondCalls : List (NetOp Rat) :=
  [.setWeight 1 3 2, .setWeight 2 3 3, .setWeight 3 4 5, .setWeight 1 4 7, .setBias 3 1, .setBias 4 (1 / 2)]

/-- The levels of the example. -/
def diamondLevel (i : Nat) : Nat := i - 1

/-- A layered network of two levels, its values for the input 10, 100, and one pass too few. -/
theorem diamond_example : ∃ n0 n : Network Rat, newNetwork 4 2 linearFn = Res.ok n0 ∧ n0.applyAll diamondCalls = Res.ok n ∧
    n.Layered diamondLevel 2 ∧
    n.activate 2 (fun i => if i = 0 then 10 else if i = 1 then 100 else 0) 3 = 3351 / 2 ∧
    n.activate 2 (fun i => if i = 0 then 10 else if i = 1 then 100 else 9) 3 = 3351 / 2 ∧
    n.activate 1 (fun i => if i = 0 then 10 else if i = 1 then 100 else 0) 3 = 141 / 2 := by
  refine ⟨_, _, rfl, rfl, ?_, ?_, ?_, ?_⟩
  · refine C92_histories (f := linearFn) (size := 4) (input := 2) (ops := diamondCalls) rfl ?_ ?_ rfl ?_
    · intro i hi
      unfold diamondLevel
      omega
    · intro i h1 h2
      unfold diamondLevel
      omega
    · intro op hop
      simp only [diamondCalls, List.mem_cons, List.not_mem_nil, or_false] at hop
      rcases hop with rfl | rfl | rfl | rfl | rfl | rfl <;> simp [Upward, diamondLevel]
  all_goals decide +kernel

/-- The hypotheses are needed: in a network with a connection back, no number of passes settles the values. -/
theorem C92_needs_levels : ∃ n0 n : Network Rat, newNetwork 2 1 linearFn = Res.ok n0 ∧
    n0.applyAll [.setWeight 1 2 1, .setWeight 2 2 1] = Res.ok n ∧ ∀ m, n.activate m (fun i => if i = 0 then 1 else 0) 1 = m := by
  refine ⟨_, _, rfl, rfl, ?_⟩
  have key : ∀ (n : Network Rat), n.size = 2 → n.weights 0 0 = 1 → n.weights 0 1 = 0 → n.weights 1 0 = 1 →
      n.weights 1 1 = 1 → (∀ i, n.biases i = 0) → (∀ i v, (n.funcs i).forward v = v) →
      ∀ m, n.activate m (fun i => if i = 0 then 1 else 0) 0 = 1 ∧ n.activate m (fun i => if i = 0 then 1 else 0) 1 = m := by
    intro n h1 h2 h3 h4 h5 h6 h7 m
    induction m with
    | zero => exact ⟨rfl, rfl⟩
    | succ m ih =>
      simp only [activate_succ, Network.pass, h1, h6, h7, Finset.sum_range_succ, Finset.sum_range_zero, h2, h3, h4, h5, ih]
      push_cast
      constructor <;> ring
  intro m
  refine (key _ rfl ?_ ?_ ?_ ?_ ?_ ?_ m).2
  · rfl
  · rfl
  · rfl
  · rfl
  · intro i; rfl
  · intro i v
    simp only [setItem]
    split <;> rfl

end Golearn
