import Verif.Proofs.Neural
import Mathlib.Data.Rat.Floor

/-! # C71: weights and biases of a network are what was set, and training keeps the connections -/

namespace Golearn

section
variable {K : Type} [Field K] [LinearOrder K]

/-- The whole claim on training: after any calls on a new network, training does not connect neurons that are not
connected. -/
def C71_topology (K : Type) [Field K] [LinearOrder K] : Prop :=
  ∀ (f : NFunc K) (size input : Nat) (n0 n : Network K) (ops : List (NetOp K)), newNetwork size input f = Res.ok n0 →
    n0.applyAll ops = Res.ok n → ∀ (out err : Nat → K) (learnRate : K) (src target : Nat), src ≠ target →
    n.getWeight src target = Res.ok 0 → (n.updateWeights out err learnRate).getWeight src target = Res.ok 0

/-- Weights: setting one between neurons that exist succeeds, reads back as set, and changes no other weight and no bias;
for neurons that do not exist setting and reading panic. -/
theorem C71_weights (n : Network K) (src target : Nat) (v : K) :
    ((1 ≤ src ∧ src ≤ n.size ∧ 1 ≤ target ∧ target ≤ n.size) →
      ∃ n', n.setWeight src target v = Res.ok n' ∧ n'.getWeight src target = Res.ok v ∧
        (∀ s t, ¬ (s = src ∧ t = target) → n'.getWeight s t = n.getWeight s t) ∧
        (∀ i, n'.getBias i = n.getBias i) ∧ n'.funcs = n.funcs) ∧
    (¬ (1 ≤ src ∧ src ≤ n.size ∧ 1 ≤ target ∧ target ≤ n.size) →
      n.setWeight src target v = Res.panic ∧ n.getWeight src target = Res.panic) := by
  constructor
  · intro h
    refine ⟨{ n with weights := setEntry n.weights (target - 1) (src - 1) v }, by rw [Network.setWeight, if_pos h], ?_, ?_,
      fun i => rfl, rfl⟩
    · unfold Network.getWeight
      rw [if_pos h]
      simp [setEntry]
    · intro s t hne
      unfold Network.getWeight
      by_cases hr : 1 ≤ s ∧ s ≤ n.size ∧ 1 ≤ t ∧ t ≤ n.size
      · rw [if_pos hr, if_pos hr]
        simp only [setEntry]
        rw [if_neg (by omega)]
      · rw [if_neg hr, if_neg hr]
  · intro h
    exact ⟨by rw [Network.setWeight, if_neg h], by rw [Network.getWeight, if_neg h]⟩

/-- Biases: setting that of a neuron which is not an input succeeds, reads back as set and changes nothing else; setting
that of an input does nothing; for neurons that do not exist setting and reading panic. -/
theorem C71_biases (n : Network K) (node : Nat) (v : K) :
    (n.input < node → node ≤ n.size → ∃ n', n.setBias node v = Res.ok n' ∧ n'.getBias node = Res.ok v ∧
      (∀ i, i ≠ node → n'.getBias i = n.getBias i) ∧ (∀ s t, n'.getWeight s t = n.getWeight s t) ∧ n'.funcs = n.funcs) ∧
    (node ≤ n.input → n.setBias node v = Res.ok n) ∧
    (n.input < node → n.size < node → n.setBias node v = Res.panic ∧ n.getBias node = Res.panic) ∧
    n.getBias 0 = Res.panic := by
  refine ⟨?_, ?_, ?_, by rw [Network.getBias, if_neg (by omega)]⟩
  · intro h1 h2
    refine ⟨{ n with biases := setItem n.biases (node - 1) v },
      by rw [Network.setBias, if_neg (by omega), if_pos (by omega)], ?_, ?_, fun _ _ => rfl, rfl⟩
    · unfold Network.getBias
      rw [if_pos (by show 1 ≤ node ∧ node - 1 < n.size; omega)]
      simp [setItem]
    · intro i hi
      unfold Network.getBias
      by_cases hr : 1 ≤ i ∧ i - 1 < n.size
      · rw [if_pos hr, if_pos hr]
        simp only [setItem]
        rw [if_neg (by omega)]
      · rw [if_neg hr, if_neg hr]
  · intro h
    rw [Network.setBias, if_pos h]
  · intro h1 h2
    exact ⟨by rw [Network.setBias, if_neg (by omega), if_neg (by omega)], by rw [Network.getBias, if_neg (by omega)]⟩

/-- A new network: every input passes on its own value, and nothing else is connected. It can be made if and only if there
are at least as many neurons as inputs. -/
theorem C71_new (f : NFunc K) (size input : Nat) :
    (input ≤ size → ∃ n, newNetwork size input f = Res.ok n ∧ n.size = size ∧ n.input = input ∧
      (∀ s t, 1 ≤ s → s ≤ size → 1 ≤ t → t ≤ size → n.getWeight s t = Res.ok (if s = t ∧ s ≤ input then 1 else 0)) ∧
      ∀ i, 1 ≤ i → i ≤ size → n.getBias i = Res.ok 0) ∧
    (size < input → newNetwork size input f = Res.panic) := by
  constructor
  · intro h
    obtain ⟨n, h1, h2, h3, _, hw, hb, _⟩ := newNetwork_spec f size input h
    refine ⟨n, h1, h2, h3, ?_, ?_⟩
    · intro s t a b c d
      rw [Network.getWeight, if_pos (by omega), hw]
      congr 1
      by_cases hst : s = t ∧ s ≤ input
      · rw [if_pos hst, if_pos (by omega)]
      · rw [if_neg hst, if_neg (by omega)]
    · intro i a b
      rw [Network.getBias, if_pos (by omega), hb]
  · intro h
    exact netInputs_panic _ _ size (List.mem_range.2 h) le_rfl

theorem apply_frame {n n' : Network K} {op : NetOp K} (h : n.apply op = Res.ok n') :
    n'.size = n.size ∧ n'.input = n.input ∧ n'.funcs = n.funcs ∧ ∀ i, i < n.input → n'.biases i = n.biases i := by
  cases op with
  | setWeight src target v =>
    simp only [Network.apply, Network.setWeight] at h
    split at h
    · cases h; exact ⟨rfl, rfl, rfl, fun _ _ => rfl⟩
    · cases h
  | setBias node v =>
    simp only [Network.apply, Network.setBias] at h
    split at h
    · cases h; exact ⟨rfl, rfl, rfl, fun _ _ => rfl⟩
    · split at h
      · cases h
        refine ⟨rfl, rfl, rfl, fun i hi => ?_⟩
        simp only [setItem]
        rw [if_neg (by omega)]
      · cases h
  | updateWeights out err learnRate => cases h; exact ⟨rfl, rfl, rfl, fun _ _ => rfl⟩
  | updateBias err learnRate =>
    cases h
    refine ⟨rfl, rfl, rfl, fun i hi => ?_⟩
    simp only [Network.updateBias]
    rw [if_pos hi]

theorem applyAll_frame {ops : List (NetOp K)} {n n' : Network K} (h : n.applyAll ops = Res.ok n') :
    n'.size = n.size ∧ n'.input = n.input ∧ n'.funcs = n.funcs ∧ ∀ i, i < n.input → n'.biases i = n.biases i := by
  induction ops generalizing n with
  | nil => cases h; exact ⟨rfl, rfl, rfl, fun _ _ => rfl⟩
  | cons op ops ih =>
    rw [Network.applyAll, Res.bind_eq_ok] at h
    obtain ⟨m, h1, h2⟩ := h
    obtain ⟨a1, a2, a3, a4⟩ := apply_frame h1
    obtain ⟨b1, b2, b3, b4⟩ := ih h2
    exact ⟨b1.trans a1, b2.trans a2, b3.trans a3, fun i hi => (b4 i (by omega)).trans (a4 i hi)⟩

/-- Whatever is called on a new network, the biases of its inputs are 0. -/
theorem C71_input_bias {f : NFunc K} {size input : Nat} {n0 n : Network K} (h0 : newNetwork size input f = Res.ok n0)
    {ops : List (NetOp K)} (h : n0.applyAll ops = Res.ok n) {i : Nat} (h1 : 1 ≤ i) (h2 : i ≤ input) :
    n.getBias i = Res.ok 0 := by
  have hle : input ≤ size := by
    by_contra hcon
    rw [(C71_new f size input).2 (by omega)] at h0
    cases h0
  obtain ⟨m, e1, e2, e3, _, _, e6, _⟩ := newNetwork_spec f size input hle
  rw [h0] at e1
  cases e1
  obtain ⟨a1, a2, _, a4⟩ := applyAll_frame h
  rw [Network.getBias, if_pos (by omega), a4 _ (by omega), e6]

/-- What training does to a weight: that of a neuron to itself is kept; that between neurons connected with a weight above
1/200 when training began moves by the learning rate times the value of the source and the error of the target; any other
becomes 0. -/
theorem C71_update (n : Network K) (out err : Nat → K) (learnRate : K) {src target : Nat}
    (h : 1 ≤ src ∧ src ≤ n.size ∧ 1 ≤ target ∧ target ≤ n.size) :
    (n.updateWeights out err learnRate).getWeight src target = Res.ok (
      if src = target then n.weights (target - 1) (src - 1)
      else if 1 / 200 < |(n.orig.getD n.weights) (target - 1) (src - 1)| then
        n.weights (target - 1) (src - 1) + learnRate * out (src - 1) * err (target - 1)
      else 0) := by
  rw [Network.getWeight, if_pos (show 1 ≤ src ∧ src ≤ (n.updateWeights out err learnRate).size ∧ 1 ≤ target ∧
    target ≤ (n.updateWeights out err learnRate).size from h)]
  simp only [Network.updateWeights, gt_iff_lt]
  congr 1
  by_cases hst : src = target
  · rw [if_pos hst, if_pos (by omega)]
  · rw [if_neg hst, if_neg (by omega)]

/-- No weight is remembered as that before training, or the one remembered for this pair is 0. -/
def Network.Unlinked (n : Network K) (t s : Nat) : Prop := n.weights t s = 0 ∧ ∀ o, n.orig = some o → o t s = 0

theorem apply_unlinked [IsStrictOrderedRing K] {n n' : Network K} {op : NetOp K} (h : n.apply op = Res.ok n')
    (hno : noSetWeight op) {t s : Nat} (hts : t ≠ s) (hu : n.Unlinked t s) : n'.Unlinked t s := by
  cases op with
  | setWeight src target v => exact absurd hno (by simp [noSetWeight])
  | setBias node v =>
    simp only [Network.apply, Network.setBias] at h
    split at h
    · cases h; exact hu
    · split at h
      · cases h; exact hu
      · cases h
  | updateWeights out err learnRate =>
    cases h
    have ho : (n.orig.getD n.weights) t s = 0 := by
      cases e : n.orig with
      | none => exact hu.1
      | some o => exact hu.2 o e
    refine ⟨?_, ?_⟩
    · simp only [Network.updateWeights]
      rw [if_neg hts, ho, abs_zero, if_neg]
      rw [gt_iff_lt, not_lt]
      positivity
    · intro o' e
      cases e
      exact ho
  | updateBias err learnRate => cases h; exact hu

theorem apply_self {n n' : Network K} {op : NetOp K} (h : n.apply op = Res.ok n')
    (hno : noSetWeight op) (t : Nat) : n'.weights t t = n.weights t t := by
  cases op with
  | setWeight src target v => exact absurd hno (by simp [noSetWeight])
  | setBias node v =>
    simp only [Network.apply, Network.setBias] at h
    split at h
    · cases h; rfl
    · split at h
      · cases h; rfl
      · cases h
  | updateWeights out err learnRate =>
    cases h
    simp only [Network.updateWeights]
    rw [if_pos trivial]
  | updateBias err learnRate => cases h; rfl

theorem applyAll_unlinked [IsStrictOrderedRing K] {ops : List (NetOp K)} {n n' : Network K}
    (h : n.applyAll ops = Res.ok n') (hno : ∀ op ∈ ops, noSetWeight op) :
    (∀ t s, t ≠ s → n.Unlinked t s → n'.Unlinked t s) ∧ ∀ t, n'.weights t t = n.weights t t := by
  induction ops generalizing n with
  | nil => cases h; exact ⟨fun _ _ _ h => h, fun _ => rfl⟩
  | cons op ops ih =>
    rw [Network.applyAll, Res.bind_eq_ok] at h
    obtain ⟨m, h1, h2⟩ := h
    obtain ⟨a, b⟩ := ih h2 fun o ho => hno o (List.mem_cons_of_mem _ ho)
    have hop := hno op List.mem_cons_self
    exact ⟨fun t s hts hu => a t s hts (apply_unlinked h1 hop hts hu), fun t => (b t).trans (apply_self h1 hop t)⟩

/-- From a network not yet trained, training keeps connections of neurons to themselves and makes no others. -/
theorem topology_untrained [IsStrictOrderedRing K] {n n' : Network K} (hn : n.orig = none) {ops : List (NetOp K)}
    (h : n.applyAll ops = Res.ok n') (hno : ∀ op ∈ ops, noSetWeight op) :
    (∀ s t, s ≠ t → n.getWeight s t = Res.ok 0 → n'.getWeight s t = Res.ok 0) ∧
    ∀ s, n'.getWeight s s = n.getWeight s s := by
  obtain ⟨a, b⟩ := applyAll_unlinked h hno
  obtain ⟨c, -, -, -⟩ := applyAll_frame h
  constructor
  · intro s t hst hw
    unfold Network.getWeight at hw ⊢
    rw [c]
    split at hw
    · rename_i hr
      rw [if_pos hr]
      rw [Res.ok.injEq] at hw
      rw [(a (t - 1) (s - 1) (by omega) ⟨hw, fun o e => by rw [hn] at e; cases e⟩).1]
    · cases hw
  · intro s
    unfold Network.getWeight
    rw [c, b]

/-- The calls that set up a network before training leave it untrained. -/
theorem untrained {f : NFunc K} {size input : Nat} {n0 n : Network K} (h0 : newNetwork size input f = Res.ok n0)
    {ops : List (NetOp K)} (h : n0.applyAll ops = Res.ok n) (hno : ∀ op ∈ ops, ∀ out err l, op ≠ .updateWeights out err l) :
    n.orig = none := by
  have hle : input ≤ size := by
    by_contra hcon
    rw [(C71_new f size input).2 (by omega)] at h0
    cases h0
  obtain ⟨m, e1, -, -, e4, -⟩ := newNetwork_spec f size input hle
  rw [h0] at e1
  cases e1
  clear h0
  induction ops generalizing n0 with
  | nil => cases h; exact e4
  | cons op ops ih =>
    rw [Network.applyAll, Res.bind_eq_ok] at h
    obtain ⟨m, h1, h2⟩ := h
    refine ih (n0 := m) h2 (fun o ho => hno o (List.mem_cons_of_mem _ ho)) ?_
    cases op with
    | setWeight src target v =>
      simp only [Network.apply, Network.setWeight] at h1
      split at h1
      · cases h1; exact e4
      · cases h1
    | setBias node v =>
      simp only [Network.apply, Network.setBias] at h1
      split at h1
      · cases h1; exact e4
      · split at h1
        · cases h1; exact e4
        · cases h1
    | updateWeights out err learnRate => exact absurd rfl (hno _ List.mem_cons_self out err learnRate)
    | updateBias err learnRate => cases h1; exact e4

/-- Partial: the claim holds as long as no weight is set by hand after training has begun. From a new network set up by
any calls `ops` other than training of weights, any later calls `ops'` other than setting weights keep every connection of
a neuron to itself, and connect no two neurons that were not connected. -/
theorem C71_topology_partial [IsStrictOrderedRing K] {f : NFunc K} {size input : Nat} {n0 n n' : Network K}
    (h0 : newNetwork size input f = Res.ok n0) {ops ops' : List (NetOp K)} (h : n0.applyAll ops = Res.ok n)
    (h' : n.applyAll ops' = Res.ok n') (hno : ∀ op ∈ ops, ∀ out err l, op ≠ .updateWeights out err l)
    (hno' : ∀ op ∈ ops', noSetWeight op) :
    (∀ s t, s ≠ t → n.getWeight s t = Res.ok 0 → n'.getWeight s t = Res.ok 0) ∧
    ∀ s, n'.getWeight s s = n.getWeight s s :=
  topology_untrained (untrained h0 h hno) h' hno'
end

/-- The calls of the example: connect neuron 1 to 2, train a step, and take the connection away again. -/
def netCalls : List (NetOp Rat) :=
  [.setWeight 1 2 (1 / 2), .updateWeights (fun _ => 1) (fun _ => 1) 1, .setWeight 1 2 0]

/-- A network of one input and one other neuron. -/
theorem net_example : ∃ n0 n : Network Rat, newNetwork 2 1 linearFn = Res.ok n0 ∧ n0.applyAll netCalls = Res.ok n ∧
    n.getWeight 1 2 = Res.ok 0 ∧ n.getWeight 1 1 = Res.ok 1 ∧
    (n.updateWeights (fun _ => 1) (fun _ => 1) 1).getWeight 1 2 = Res.ok 1 := by
  refine ⟨_, _, rfl, rfl, ?_, ?_, ?_⟩ <;> decide +kernel

/-- The whole claim is wrong: a connection taken away after training has begun is there again after the next step. -/
theorem C71_not_topology : ¬ C71_topology Rat := by
  intro H
  obtain ⟨n0, n, h0, h1, h2, _, h4⟩ := net_example
  have := H linearFn 2 1 n0 n netCalls h0 h1 (fun _ => 1) (fun _ => 1) 1 1 2 (by decide) h2
  rw [this] at h4
  simp at h4

/-- Training drops connections: one that is weak (at most 1/200) when training begins, and one made after training has
begun, are 0 after the next step, whatever the errors. -/
theorem C71_drops : ∃ n0 n n' : Network Rat, newNetwork 2 1 linearFn = Res.ok n0 ∧
    n0.applyAll [.setWeight 1 2 (1 / 200)] = Res.ok n ∧
    n0.applyAll [.updateWeights (fun _ => 0) (fun _ => 0) 1, .setWeight 1 2 3] = Res.ok n' ∧
    n.getWeight 1 2 = Res.ok (1 / 200) ∧ n'.getWeight 1 2 = Res.ok 3 ∧
    ∀ out err l, (n.updateWeights out err l).getWeight 1 2 = Res.ok 0 ∧
      (n'.updateWeights out err l).getWeight 1 2 = Res.ok 0 := by
  refine ⟨_, _, _, rfl, rfl, rfl, by decide +kernel, by decide +kernel, fun out err l => ⟨?_, ?_⟩⟩ <;>
  · rw [C71_update _ _ _ _ (by decide), if_neg (by decide), if_neg (by decide +kernel)]

/-- `C71_topology_partial` applies: two neurons not connected stay so in a network that is trained. -/
example : ∃ n0 n n' : Network Rat, newNetwork 3 1 linearFn = Res.ok n0 ∧ n0.applyAll [.setWeight 1 2 (1 / 2)] = Res.ok n ∧
    n.getWeight 2 3 = Res.ok 0 ∧
    n.applyAll [.updateWeights (fun _ => 1) (fun _ => 1) 1, .updateBias (fun _ => 1) 1] = Res.ok n' ∧
    n'.getWeight 1 2 = Res.ok (3 / 2) ∧ n'.getWeight 2 3 = Res.ok 0 ∧ n'.getBias 1 = Res.ok 0 ∧ n'.getBias 2 = Res.ok 1 := by
  refine ⟨_, _, _, rfl, rfl, ?_, rfl, ?_, ?_, ?_, ?_⟩ <;> decide +kernel

end Golearn
