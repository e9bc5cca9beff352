import Verif.Props.C72

/-!
# C96: `MultiLayerNet.Fit` trains until the mean squared error is below `Convergence`, or for `MaxIterations` iterations

`C96_iterations_partial` says when training ends. The error it uses is not the mean squared error: in each row, what the outputs lack is
added up, so that opposite signs cancel, before the absolute value is taken; and the sum over all rows is divided by the number of the
row visited last. `C96_not_squared` shows that training ends although the mean squared error is not small, and `C96_single_row` that
with a single row it never ends early.
-/

namespace Golearn

section
variable {K : Type} [Field K] [LinearOrder K]

/-- The test for the end of training, given the error of an iteration over rows in the given order. -/
def smallError (conv : K) (order : List Nat) (e : K) : Prop := ∃ last, order.getLast? = some last ∧ last ≠ 0 ∧ e / (last : K) < conv

/-- `k` iterations lead from `nets 0` to `nets k`; the errors are `e`. -/
def Iterations (rate : K) (O : Finset Nat) (X Y : Nat → Nat → K) (order : Nat → List Nat) (k : Nat) (nets : Nat → Network K)
    (e : Nat → K) : Prop := ∀ i, i < k → Epoch rate O X Y (order i) (nets i) (nets (i + 1)) (e i)

theorem training_iterations {rate conv : K} {O : Finset Nat} {X Y : Nat → Nat → K} {order : Nat → List Nat} {it left : Nat}
    {n n' : Network K} (h : Training rate conv O X Y order it left n n') :
    ∃ (k : Nat) (nets : Nat → Network K) (e : Nat → K), k ≤ left ∧ nets 0 = n ∧ nets k = n' ∧
      Iterations rate O X Y (fun i => order (it + i)) k nets e ∧ (∀ i, i + 1 < k → ¬ smallError conv (order (it + i)) (e i)) ∧
      (k < left → ∃ j, k = j + 1 ∧ smallError conv (order (it + j)) (e j)) := by
  induction h with
  | spent it n => exact ⟨0, fun _ => n, fun _ => 0, by omega, rfl, rfl, fun i hi => by omega, fun i hi => by omega, fun h => by omega⟩
  | stop it left last n n' e run hlast hne small =>
    refine ⟨1, fun i => if i = 0 then n else n', fun _ => e, by omega, rfl, rfl, ?_, fun i hi => by omega, ?_⟩
    · intro i hi
      obtain rfl : i = 0 := by omega
      exact run
    · intro _
      exact ⟨0, rfl, last, hlast, hne, small⟩
  | next it left n n1 n' e run large rest ih =>
    obtain ⟨k, nets, es, h1, h2, h3, h4, h5, h6⟩ := ih
    refine ⟨k + 1, fun i => if i = 0 then n else nets (i - 1), fun i => if i = 0 then e else es (i - 1), by omega, rfl, ?_, ?_, ?_, ?_⟩
    · simpa using h3
    · intro i hi
      cases i with
      | zero =>
        simp only [if_true, Nat.add_zero, Nat.zero_add, Nat.sub_self]
        rw [if_neg (by omega), h2]
        exact run
      | succ i =>
        have := h4 i (by omega)
        simp only [Nat.add_sub_cancel]
        rw [if_neg (by omega), if_neg (by omega), if_neg (by omega)]
        rw [show it + (i + 1) = it + 1 + i by omega]
        exact this
    · intro i hi
      cases i with
      | zero =>
        simp only [if_true, Nat.add_zero]
        rintro ⟨last, a1, a2, a3⟩
        exact large last a1 a2 a3
      | succ i =>
        simp only [Nat.add_sub_cancel]
        rw [if_neg (by omega), show it + (i + 1) = it + 1 + i by omega]
        exact h5 i (by omega)
    · intro hk
      obtain ⟨j, rfl, hj⟩ := h6 (by omega)
      refine ⟨j + 1, rfl, ?_⟩
      simp only [Nat.add_sub_cancel]
      rw [if_neg (by omega), show it + (j + 1) = it + 1 + j by omega]
      exact hj

variable [IsStrictOrderedRing K]

/-- `Fit` goes over all rows at most `MaxIterations` times. It ends earlier just when the error of an iteration, divided by the number
of the row visited last, is below `Convergence`. Missing: that this error is the mean squared error, which is false (below). -/
theorem C96_iterations_partial {exp : K → K} {val : U64 → K} {srt : List Spec → List Spec} (hsrt : PositionSort srt) (m : MLNet K)
    (run : NetRun K) {g : Grid} {n : Nat} (D : NetData g n (Conv.float run.fresh g.allAttributes)) (R : run.Allowed g)
    (hne : ∃ a ∈ g.allAttributes, a ∉ g.allClassAttributes) :
    ∃ m' n2 ins cls k nets e, m.fit exp val srt run g = Res.ok m' ∧ m'.network = some n2 ∧
      ins.Perm (convertToFloatInsts run.fresh g).normalAttrs ∧ cls.Perm (convertToFloatInsts run.fresh g).allClassAttributes ∧
      RandomStart run.draw (nets 0) ins.length m.layers cls.length ∧ nets k = n2 ∧
      Iterations m.learningRate (Finset.Ico (ins.length + m.layers.sum) (ins.length + m.layers.sum + cls.length))
        (placed ((convertToFloatInsts run.fresh g).number val) 0 ins)
        (placed ((convertToFloatInsts run.fresh g).number val) (ins.length + m.layers.sum) cls) run.order k nets e ∧
      k ≤ m.maxIterations ∧ (∀ i, i + 1 < k → ¬ smallError m.convergence (run.order i) (e i)) ∧
      (k < m.maxIterations → ∃ j, k = j + 1 ∧ smallError m.convergence (run.order j) (e j)) := by
  obtain ⟨m', n1, n2, ins, cls, a1, a2, a3, a4, a5, _, a7, _⟩ := C72_fit (exp := exp) (val := val) hsrt m run D R hne
  obtain ⟨k, nets, e, h1, h2, h3, h4, h5, h6⟩ := training_iterations a7
  simp only [Nat.zero_add] at h4 h5 h6
  refine ⟨m', n2, ins, cls, k, nets, e, a1, a2, a3, a4, ?_, h3, h4, h1, h5, h6⟩
  rw [h2]; exact a5

/-- With a single row, training never ends early: all iterations take place, whatever `Convergence` is. -/
theorem C96_single_row {exp : K → K} {val : U64 → K} {srt : List Spec → List Spec} (hsrt : PositionSort srt) (m : MLNet K)
    (run : NetRun K) {g : Grid} (D : NetData g 1 (Conv.float run.fresh g.allAttributes)) (R : run.Allowed g)
    (hne : ∃ a ∈ g.allAttributes, a ∉ g.allClassAttributes) :
    ∃ m' n2 ins cls nets e, m.fit exp val srt run g = Res.ok m' ∧ m'.network = some n2 ∧
      ins.Perm (convertToFloatInsts run.fresh g).normalAttrs ∧ cls.Perm (convertToFloatInsts run.fresh g).allClassAttributes ∧
      RandomStart run.draw (nets 0) ins.length m.layers cls.length ∧ nets m.maxIterations = n2 ∧
      Iterations m.learningRate (Finset.Ico (ins.length + m.layers.sum) (ins.length + m.layers.sum + cls.length))
        (placed ((convertToFloatInsts run.fresh g).number val) 0 ins)
        (placed ((convertToFloatInsts run.fresh g).number val) (ins.length + m.layers.sum) cls) run.order m.maxIterations nets e := by
  obtain ⟨m', n2, ins, cls, k, nets, e, a1, a2, a3, a4, a5, a6, a7, a8, _, a10⟩ :=
    C96_iterations_partial (exp := exp) (val := val) hsrt m run D R hne
  have hk : k = m.maxIterations := by
    by_contra hne'
    obtain ⟨j, _, last, h1, h2, _⟩ := a10 (by omega)
    have ho : (run.order j).Perm (List.range 1) := (floatGrid D).presents.order _ (convert_order run.fresh (R.order j))
    have : last ∈ List.range 1 := ho.subset (List.mem_of_getLast? h1)
    rw [List.mem_range] at this
    omega
  subst hk
  exact ⟨m', n2, ins, cls, nets, e, a1, a2, a3, a4, a5, a6, a7⟩

/-- The mean over all rows of the sum of squares of what the outputs lack. -/
def meanSquared (n : Network K) (L : Nat) (O : Finset Nat) (X Y : Nat → Nat → K) (rows : Nat) : K :=
  (∑ r ∈ Finset.range rows, ∑ o ∈ O, (Y r o - n.activate L (X r) o) ^ 2) / rows

/-- The claim that training ends early only if the mean squared error is below `Convergence`: if it is not below it after any smaller
number of iterations, the result is the same as with a `Convergence` of 0, which is never reached. Here inputs and classes are numbers,
in the order of the maps. -/
def C96_squared (K : Type) [Field K] [LinearOrder K] : Prop :=
  ∀ (exp : K → K) (val : U64 → K) (srt : List Spec → List Spec) (m : MLNet K) (run : NetRun K) (g : Grid) (n : Nat),
    (∀ v, 0 < exp v) → PositionSort srt → NetData g n (Conv.float run.fresh g.allAttributes) → run.Allowed g →
    (∃ a ∈ g.allAttributes, a ∉ g.allClassAttributes) → (∀ a ∈ g.allAttributes, a.isFloat = true) →
    let ins := run.inputs (convertToFloatInsts run.fresh g).normalAttrs
    let cls := run.classes (convertToFloatInsts run.fresh g).allClassAttributes
    let first := ins.length + m.layers.sum
    (∀ k, k < m.maxIterations → ∀ mk nk, MLNet.fit exp val srt run { m with maxIterations := k } g = Res.ok mk → mk.network = some nk →
      m.convergence ≤ meanSquared nk (2 + m.layers.length) (Finset.Ico first (first + cls.length)) (placed (g.number val) 0 ins)
        (placed (g.number val) first cls) n) →
    ∀ m1 m2 n1 n2, m.fit exp val srt run g = Res.ok m1 → MLNet.fit exp val srt run { m with convergence := 0 } g = Res.ok m2 →
      m1.network = some n1 → m2.network = some n2 → ∀ i, n1.biases i = n2.biases i

end

section Examples
private def xa : Attr := ⟨0, .float "x" 2⟩
private def ya : Attr := ⟨1, .float "y" 2⟩
private def za : Attr := ⟨2, .float "z" 2⟩
private def sOps : List Op := [.add xa, .add ya, .add za, .extend 2, .set 1 0 (packU64 f64One), .set 1 1 (packU64 f64One),
  .addClass ya, .addClass za]
private def nVal (u : U64) : Rat := if u = f64One then 1 else 0
private def nExp (v : Rat) : Rat := if v < 0 then 1 / (1 - v) else 1 + v
private def nRun : NetRun Rat := ⟨fun i => 100 + i, id, id, fun _ => 0, fun _ => [0, 1]⟩
private def nNet : MLNet Rat := { newMLNet [] with maxIterations := 2 }

/-- The bias of neuron 1 after training. -/
private def biasOf (r : Res (MLNet Rat)) : Option Rat :=
  match r with
  | .ok m => m.network.map fun n => n.biases 1
  | _ => none

/-- The mean squared error on the training data after training. -/
private def errOf (r : Res (MLNet Rat)) (g : Grid) : Option Rat :=
  match r with
  | .ok m => m.network.map fun n => meanSquared n 2 (Finset.Ico 1 3) (placed (g.number nVal) 0 [xa]) (placed (g.number nVal) 1 [ya, za]) 2
  | _ => none

/-- Two rows with the outputs 1 and 0. Before training both neurons have the value 1/2, and their errors cancel; by symmetry they
still do afterwards. So training ends after the first iteration, while the mean squared error is at least 1/10. -/
theorem C96_not_squared : ¬ C96_squared Rat := by
  intro hall
  have hw : ∃ st, run 4096 sOps = Res.ok st ∧ (∀ op ∈ sOps, basicOp op = true) ∧
      (addedAttrs sOps).Pairwise (fun a b => a.equals b = false) ∧ totalRows sOps = 2 ∧
      st.d.allClassAttributes = [ya, za] ∧ st.d.allAttributes = [xa, ya, za] ∧ st.d.maxRow = 2 ∧
      ((Conv.float (fun i => 100 + i) [xa, ya, za]).attrs.map fun p => p.new.name).Nodup ∧
      (convertToFloatInsts (fun i => 100 + i) (.dense st.d)).normalAttrs = [xa] ∧
      (convertToFloatInsts (fun i => 100 + i) (.dense st.d)).allClassAttributes = [ya, za] ∧
      (errOf (MLNet.fit nExp nVal id nRun { nNet with maxIterations := 0 } (.dense st.d)) (.dense st.d)).any (fun e => decide (1 / 1000 ≤ e)) = true ∧
      (errOf (MLNet.fit nExp nVal id nRun { nNet with maxIterations := 1 } (.dense st.d)) (.dense st.d)).any (fun e => decide (1 / 10 ≤ e)) = true ∧
      decide ((biasOf (nNet.fit nExp nVal id nRun (.dense st.d))).isSome ∧
        (biasOf (MLNet.fit nExp nVal id nRun { nNet with convergence := 0 } (.dense st.d))).isSome ∧
        biasOf (nNet.fit nExp nVal id nRun (.dense st.d)) ≠
          biasOf (MLNet.fit nExp nVal id nRun { nNet with convergence := 0 } (.dense st.d))) = true := by
    refine ⟨_, rfl, ?_, ?_, ?_, ?_, ?_, ?_, ?_, ?_, ?_, ?_, ?_, ?_⟩
    all_goals decide +kernel
  obtain ⟨st, hrun, hb, hd, h3, hcl, hall', hmax, hnames, hins, hcls, w0, w1, w2⟩ := hw
  have D := denseOK_run hb hrun hd
  rw [h3] at D
  have hal : (Grid.dense st.d).allAttributes = [xa, ya, za] := hall'
  have hcl' : (Grid.dense st.d).allClassAttributes = [ya, za] := hcl
  have hro : (Grid.dense st.d).RowOrder [0, 1] := by
    show [0, 1] = List.range st.d.maxRow
    rw [hmax]; rfl
  have hfl : ∀ a ∈ (Grid.dense st.d).allAttributes, a.isFloat = true := by
    rw [hal]; decide
  have hps : PositionSort id :=
    ⟨List.range, fun n => List.Perm.refl _, fun l => (filterMap_range_getElem? l).symm⟩
  have hexp : ∀ v, 0 < nExp v := by
    intro v
    unfold nExp
    split
    · next h => exact div_pos one_pos (by linarith)
    · next h => linarith [not_lt.1 h]
  have N : NetData (.dense st.d) 2 (Conv.float nRun.fresh (Grid.dense st.d).allAttributes) := by
    refine ⟨D.presents, ?_, ?_, D.typed, ?_, ?_⟩
    · unfold Grid.distinct
      rw [hal]
      decide
    · rw [hal, hcl']; decide
    · intro a ha name vals hbody
      have := hfl a ha
      unfold Attr.isFloat at this
      rw [hbody] at this
      cases this
    · rw [hal]; exact hnames
  have key := hall nExp nVal id nNet nRun (.dense st.d) 2 hexp hps N
    ⟨fun l => List.Perm.refl _, fun l => List.Perm.refl _, fun _ => hro⟩
    ⟨xa, by rw [hal]; simp, by rw [hcl']; decide⟩ hfl
  have e1 : nRun.inputs (convertToFloatInsts nRun.fresh (.dense st.d)).normalAttrs = [xa] := hins
  have e2 : nRun.classes (convertToFloatInsts nRun.fresh (.dense st.d)).allClassAttributes = [ya, za] := hcls
  rw [e1, e2] at key
  obtain ⟨b1, b2, b3⟩ := of_decide_eq_true w2
  have key' := key (by
    intro k hk mk nk hfit hnk
    have hk2 : k < 2 := hk
    interval_cases k
    · unfold errOf at w0
      rw [hfit] at w0
      simp only [hnk, Option.map_some, Option.any_some, decide_eq_true_eq] at w0
      exact w0
    · unfold errOf at w1
      rw [hfit] at w1
      simp only [hnk, Option.map_some, Option.any_some, decide_eq_true_eq] at w1
      refine le_trans ?_ w1
      show (1 / 1000 : Rat) ≤ 1 / 10
      norm_num)
  unfold biasOf at b1 b2 b3
  cases f1 : nNet.fit nExp nVal id nRun (.dense st.d) with
  | err => rw [f1] at b1; cases b1
  | panic => rw [f1] at b1; cases b1
  | ok m1 =>
    cases f2 : MLNet.fit nExp nVal id nRun { nNet with convergence := 0 } (.dense st.d) with
    | err => rw [f2] at b2; cases b2
    | panic => rw [f2] at b2; cases b2
    | ok m2 =>
      rw [f1] at b1 b3
      rw [f2] at b2 b3
      cases g1 : m1.network with
      | none => simp only [g1, Option.map_none] at b1; cases b1
      | some n1 =>
        cases g2 : m2.network with
        | none => simp only [g2, Option.map_none] at b2; cases b2
        | some n2 =>
          have := key' m1 m2 n1 n2 f1 f2 g1 g2 1
          simp only [g1, g2, Option.map_some, this, ne_eq, not_true_eq_false] at b3

/-- The hypotheses of the theorems are met: see the examples of C72, and for a single row `C72`'s last example. -/
example : ∃ (g : Grid) (run : NetRun Rat), NetData g 2 (Conv.float run.fresh g.allAttributes) ∧ run.Allowed g ∧
    (∃ a ∈ g.allAttributes, a ∉ g.allClassAttributes) := by
  have hw : ∃ st, run 4096 sOps = Res.ok st ∧ (∀ op ∈ sOps, basicOp op = true) ∧
      (addedAttrs sOps).Pairwise (fun a b => a.equals b = false) ∧ totalRows sOps = 2 ∧
      st.d.allClassAttributes = [ya, za] ∧ st.d.allAttributes = [xa, ya, za] ∧ st.d.maxRow = 2 ∧
      ((Conv.float (fun i => 100 + i) [xa, ya, za]).attrs.map fun p => p.new.name).Nodup := by
    refine ⟨_, rfl, ?_, ?_, ?_, ?_, ?_, ?_, ?_⟩
    all_goals decide +kernel
  obtain ⟨st, hrun, hb, hd, h3, hcl, hall', hmax, hnames⟩ := hw
  have D := denseOK_run hb hrun hd
  rw [h3] at D
  have hal : (Grid.dense st.d).allAttributes = [xa, ya, za] := hall'
  have hcl' : (Grid.dense st.d).allClassAttributes = [ya, za] := hcl
  have hro : (Grid.dense st.d).RowOrder [0, 1] := by
    show [0, 1] = List.range st.d.maxRow
    rw [hmax]; rfl
  refine ⟨.dense st.d, nRun, ⟨D.presents, ?_, ?_, D.typed, ?_, ?_⟩, ⟨fun l => List.Perm.refl _, fun l => List.Perm.refl _, fun _ => hro⟩,
    ⟨xa, by rw [hal]; simp, by rw [hcl']; decide⟩⟩
  · unfold Grid.distinct
    rw [hal]
    decide
  · rw [hal, hcl']; decide
  · intro a ha name vals hbody
    have : ∀ a ∈ (Grid.dense st.d).allAttributes, a.isFloat = true := by rw [hal]; decide
    have := this a ha
    unfold Attr.isFloat at this
    rw [hbody] at this
    cases this
  · rw [hal]; exact hnames

end Examples

end Golearn
