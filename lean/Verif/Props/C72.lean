import Verif.Proofs.LayeredClass

/-!
# C72: `MultiLayerNet.Predict` chooses the class whose output neuron has the greatest activation

The output neuron of a class value is the one that training moves towards 1 for rows of that class and towards 0 for others
(`C72_fit_class`). The whole claim is `C72_greatest`, for given layers and with or without the assumption that the converted class
attributes are listed in the order of the values. It holds without hidden layers and in that order (`C72_class_partial`). It is false
in any other order the map may give (`C72_not_any_order`), and with hidden layers (`C72_not_hidden`), where `Predict` looks at the
first neurons of the hidden layers (`C72_reads`).
-/

namespace Golearn

section
variable {K : Type} [Field K] [LinearOrder K] [IsStrictOrderedRing K]

/-- `Fit`, for any layers, drawings, orders and data that can be converted, with at least one attribute that is not a class: a network
in these layers is started at random and trained on the rows of the converted data. -/
theorem C72_fit {exp : K → K} {val : U64 → K} {srt : List Spec → List Spec} (hsrt : PositionSort srt) (m : MLNet K) (run : NetRun K)
    {g : Grid} {n : Nat} (D : NetData g n (Conv.float run.fresh g.allAttributes)) (R : run.Allowed g)
    (hne : ∃ a ∈ g.allAttributes, a ∉ g.allClassAttributes) :
    ∃ m' n1 n2 ins cls, m.fit exp val srt run g = Res.ok m' ∧ m'.network = some n2 ∧
      ins.Perm (convertToFloatInsts run.fresh g).normalAttrs ∧ cls.Perm (convertToFloatInsts run.fresh g).allClassAttributes ∧
      RandomStart run.draw n1 ins.length m.layers cls.length ∧ InLayers exp n1 ins.length m.layers cls.length ∧
      Training m.learningRate m.convergence (Finset.Ico (ins.length + m.layers.sum) (ins.length + m.layers.sum + cls.length))
        (placed ((convertToFloatInsts run.fresh g).number val) 0 ins)
        (placed ((convertToFloatInsts run.fresh g).number val) (ins.length + m.layers.sum) cls) run.order 0 m.maxIterations n1 n2 ∧
      InLayers exp n2 ins.length m.layers cls.length := by
  obtain ⟨n1, n2, s1, ⟨n0, t1, t2⟩, s3, s4, s5⟩ := fit_layers (exp := exp) (val := val) (m := m) hsrt (floatGrid D) R.order rfl rfl
    (R.inputs _) (R.classes _) hne
  exact ⟨_, n1, n2, _, _, s5, rfl, R.inputs _, R.classes _, randomStart t1 t2, shape_inLayers s1, s3, shape_inLayers s4⟩

/-- What `Fit` leaves behind for data with a single class. -/
theorem C72_fitted {exp : K → K} {val : U64 → K} {srt : List Spec → List Spec} (hsrt : PositionSort srt) (m : MLNet K) (run : NetRun K)
    {g : Grid} {n : Nat} {c : Attr} (D : ClassData g n (Conv.float run.fresh g.allAttributes) c) (R : run.Allowed g) :
    ∃ m' n1 n2 ins cls, m.fit exp val srt run g = Res.ok m' ∧ m'.network = some n2 ∧ m'.layers = m.layers ∧
      InputsOf g c ins ∧ cls = run.classes (convertToFloatInsts run.fresh g).allClassAttributes ∧
      cls.Perm (outputs (Conv.float run.fresh g.allAttributes).attrs c) ∧
      RandomStart run.draw n1 ins.length m.layers cls.length ∧ InLayers exp n1 ins.length m.layers cls.length ∧
      (∃ X Y, (∀ r, r < n → X r = placed (g.number val) 0 ins r) ∧
        (∀ r, Y r = placed ((convertToFloatInsts run.fresh g).number val) (ins.length + m.layers.sum) cls r) ∧
        Training m.learningRate m.convergence (Finset.Ico (ins.length + m.layers.sum) (ins.length + m.layers.sum + cls.length))
          X Y run.order 0 m.maxIterations n1 n2) ∧
      Shape exp (ins.length :: m.layers) (ins.length + m.layers.sum + cls.length) ins.length (m.layers.length + 1) n2 ∧
      (∀ a ∈ ins, m'.attrs.get? a = some (ins.idxOf a)) ∧
      (∀ a ∈ cls, m'.attrs.get? a = some (ins.length + m.layers.sum + cls.idxOf a)) ∧
      m'.classAttrOffset = ins.length ∧ m'.classAttrCount = m.classAttrCount + cls.length := by
  have FG := floatGrid D.toNetData
  have hne : ∃ a ∈ g.allAttributes, a ∉ g.allClassAttributes := by
    obtain ⟨a, h1, h2⟩ := D.some
    exact ⟨a, h1, by rw [D.one, List.mem_singleton]; exact h2⟩
  obtain ⟨n1, n2, s1, ⟨n0, t1, t2⟩, s3, s4, s5⟩ := fit_layers (exp := exp) (val := val) (m := m) hsrt FG R.order rfl rfl
    (R.inputs _) (R.classes _) hne
  have A := fitAttrs FG (R.inputs _) (R.classes _) hne
  have hin := inputs_same D (R.inputs _)
  refine ⟨_, n1, n2, _, _, s5, rfl, rfl, hin, rfl, (R.classes _).trans (class_perm D), randomStart t1 t2, shape_inLayers s1,
    ⟨_, _, ?_, fun r => rfl, s3⟩, s4, ?_, ?_, rfl, rfl⟩
  · intro r hr
    apply placed_congr
    intro a ha
    obtain ⟨h1, h2⟩ := (hin.2 a).1 ha
    exact number_same FG h1 (D.numbers a h1 h2) hr
  · intro a ha
    simp only
    rw [enumerate_get _ _ _ A.clsNodup, if_neg (fun h => A.disjoint a ha h), enumerate_get _ _ _ A.insNodup, if_pos ha, Nat.zero_add]
  · intro a ha
    simp only
    rw [enumerate_get _ _ _ A.clsNodup, if_pos ha]

/-- Training data with numbers as inputs and a class of at least three values: after `Fit` the network is the result of training in
which, for every row, the output neuron of the value of the row is to be 1 and those of all other values 0. -/
theorem C72_fit_class {exp : K → K} {val : U64 → K} (h1 : val f64One = 1) (h0 : val 0#64 = 0) {srt : List Spec → List Spec}
    (hsrt : PositionSort srt) (m : MLNet K) (run : NetRun K) {g : Grid} {n : Nat} {c : Attr} {name : String} {vals : List String}
    (D : ClassData g n (Conv.float run.fresh g.allAttributes) c) (hc : c.body = .cat name vals) (hl : 2 < vals.length)
    (R : run.Allowed g) :
    ∃ m' n1 n2 ins, m.fit exp val srt run g = Res.ok m' ∧ m'.network = some n2 ∧ InputsOf g c ins ∧
      RandomStart run.draw n1 ins.length m.layers vals.length ∧ InLayers exp n1 ins.length m.layers vals.length ∧
      InLayers exp n2 ins.length m.layers vals.length ∧
      ∃ X Y : Nat → Nat → K, (∀ r, r < n → X r = placed (g.number val) 0 ins r) ∧
        (∀ r j, r < n → j < vals.length → Y r (neuronOf (ins.length + m.layers.sum)
          (run.classes (convertToFloatInsts run.fresh g).allClassAttributes) (outputs (Conv.float run.fresh g.allAttributes).attrs c) j) =
            if g.cell c r = stored j then 1 else 0) ∧
        Training m.learningRate m.convergence (Finset.Ico (ins.length + m.layers.sum) (ins.length + m.layers.sum + vals.length))
          X Y run.order 0 m.maxIterations n1 n2 := by
  obtain ⟨m', n1, n2, ins, cls, a1, a2, _, a4, a5, a6, a7, a8, ⟨X, Y, b1, b2, b3⟩, a10, _, _, _, _⟩ :=
    C72_fitted (exp := exp) (val := val) hsrt m run D R
  have hlen : cls.length = vals.length := by
    rw [a6.length_eq, outs_length D hc, if_neg (by omega)]
  have a10' := shape_inLayers a10
  rw [hlen] at a7 a8 b3 a10'
  refine ⟨m', n1, n2, ins, a1, a2, a4, a7, a8, a10', X, Y, b1, ?_, b3⟩
  intro r j hr hj
  rw [← a5, b2]
  have hj' : j < (outputs (Conv.float run.fresh g.allAttributes).attrs c).length := by
    rw [outs_length D hc, if_neg (by omega)]; exact hj
  obtain ⟨a, ha⟩ := List.getElem?_eq_some_iff.2 ⟨hj', rfl⟩ |> fun h => (⟨_, h⟩ : ∃ a, (outputs _ c)[j]? = some a)
  rw [placed_neuron ha (a6.symm.subset (List.mem_of_getElem? ha)) r]
  exact number_oneHot h1 h0 D hc hl ha hr

/-- What `Predict` looks at, for any layers: it stores the number of the greatest of as many neurons as the class has outputs, those
that follow the inputs. -/
theorem C72_reads {exp : K → K} (hexp : ∀ v, 0 < exp v) {val : U64 → K} {bits : K → U64} {srt : List Spec → List Spec}
    (hsrt : PositionSort srt) (pg : Nat) (m : MLNet K) (run run' : NetRun K) {g what : Grid} {n nW : Nat} {c cw : Attr}
    {name name' : String} {vals vals' : List String} (h0 : m.classAttrCount = 0)
    (D : ClassData g n (Conv.float run.fresh g.allAttributes) c) (hc : c.body = .cat name vals) (R : run.Allowed g)
    (W : ClassData what nW (Conv.float run'.fresh what.allAttributes) cw) (hcw : cw.body = .cat name' vals') (R' : run'.Allowed what)
    (hsame : ∀ a, (a ∈ g.allAttributes ∧ a ≠ c) ↔ a ∈ what.allAttributes ∧ a ≠ cw) :
    ∃ m' n2 ins d, m.fit exp val srt run g = Res.ok m' ∧ m'.network = some n2 ∧ InputsOf g c ins ∧
      InLayers exp n2 ins.length m.layers (if vals.length ≤ 2 then 1 else vals.length) ∧
      m'.predict val bits srt pg run' what = Res.ok d ∧ d.maxRow = nW ∧ d.allClassAttributes = [cw] ∧
      PredictsGreatest n2 (placed (what.number val) 0 ins) (fun j => ins.length + j)
        (if vals.length ≤ 2 then 1 else vals.length) nW cw d := by
  obtain ⟨m', n1, n2, ins, cls, a1, a2, a3, a4, a5, a6, a7, a8, _, a10, a11, _, a13, a14⟩ :=
    C72_fitted (exp := exp) (val := val) hsrt m run D R
  have hlen : cls.length = if vals.length ≤ 2 then 1 else vals.length := by
    rw [a6.length_eq, outs_length D hc]
  have hpos : 0 < cls.length := by
    rw [hlen]; split <;> omega
  have a10' := shape_inLayers a10
  rw [hlen] at a10'
  have hcat : cw.isCat = true := by
    unfold Attr.isCat; rw [hcw]
  obtain ⟨d, p1, p2, p3, p4⟩ := predict_cat hexp (val := val) (bits := bits) hsrt pg (m := m') (floatGrid W.toNetData) (R'.order 0)
    W.one hcat W.presents.rows
    (by
      intro a ha hac
      rw [W.one, List.mem_singleton] at hac
      exact W.numbers a ha hac)
    (R'.inputs _) a4.1
    (by
      intro a
      rw [W.one, List.mem_singleton, a4.2 a, hsame a])
    a11 a2 a10 (by rw [a3]; omega) (by rw [a13]) (by rw [a13, a14, h0]; omega) (by rw [a14]; omega)
  rw [a13, a14, h0, Nat.zero_add, hlen] at p4
  exact ⟨m', n2, ins, d, a1, a2, a4, a10', p1, p2, p3, p4⟩

/-- The whole claim for given hidden layers, a class of at least three values and a network that has not been trained before: `Predict`
stores in each row the number of the value whose output neuron has the greatest activation. If `ordered`, the map that holds the
converted class attributes is assumed to list them in the order of the values. -/
def C72_greatest (K : Type) [Field K] [LinearOrder K] (layers : List Nat) (ordered : Prop) : Prop :=
  ∀ (exp : K → K) (val : U64 → K) (bits : K → U64) (srt : List Spec → List Spec) (pg : Nat) (m : MLNet K) (run run' : NetRun K)
    (g what : Grid) (n nW : Nat) (c cw : Attr) (name name' : String) (vals vals' : List String), (∀ v, 0 < exp v) → PositionSort srt →
    m.layers = layers → m.classAttrCount = 0 → ClassData g n (Conv.float run.fresh g.allAttributes) c → c.body = .cat name vals →
    2 < vals.length → run.Allowed g → ClassData what nW (Conv.float run'.fresh what.allAttributes) cw → cw.body = .cat name' vals' →
    run'.Allowed what → (∀ a, (a ∈ g.allAttributes ∧ a ≠ c) ↔ a ∈ what.allAttributes ∧ a ≠ cw) →
    (ordered → run.classes (convertToFloatInsts run.fresh g).allClassAttributes =
      outputs (Conv.float run.fresh g.allAttributes).attrs c) →
    ∃ m' n2 ins d, m.fit exp val srt run g = Res.ok m' ∧ m'.network = some n2 ∧ InputsOf g c ins ∧
      m'.predict val bits srt pg run' what = Res.ok d ∧ d.maxRow = nW ∧ d.allClassAttributes = [cw] ∧
      PredictsGreatest n2 (placed (what.number val) 0 ins)
        (neuronOf (ins.length + layers.sum) (run.classes (convertToFloatInsts run.fresh g).allClassAttributes)
          (outputs (Conv.float run.fresh g.allAttributes).attrs c)) vals.length nW cw d

/-- Without hidden layers and with the class attributes in the order of the values, the claim holds. Missing: hidden layers and other
orders, where it is false (below). -/
theorem C72_class_partial : C72_greatest K [] True := by
  intro exp val bits srt pg m run run' g what n nW c cw name name' vals vals' hexp hsrt hl h0 D hc h2 R W hcw R' hsame hord
  obtain ⟨m', n2, ins, d, a1, a2, a3, _, a5, a6, a7, a8⟩ := C72_reads hexp (val := val) (bits := bits) hsrt pg m run run' h0 D hc R W hcw
    R' hsame
  refine ⟨m', n2, ins, d, a1, a2, a3, a5, a6, a7, ?_⟩
  rw [if_neg (by omega)] at a8
  rw [hord trivial]
  have hn : ∀ j, j < vals.length → neuronOf (ins.length + ([] : List Nat).sum) (outputs (Conv.float run.fresh g.allAttributes).attrs c)
      (outputs (Conv.float run.fresh g.allAttributes).attrs c) j = ins.length + j := by
    intro j hj
    unfold neuronOf
    have hj' : j < (outputs (Conv.float run.fresh g.allAttributes).attrs c).length := by
      rw [outs_length D hc, if_neg (by omega)]; exact hj
    rw [List.getElem?_eq_getElem hj']
    simp only [Option.elim_some, List.sum_nil]
    rw [(outputs_nodup D.names c).idxOf_getElem]
    omega
  intro r hr
  obtain ⟨F, f1, i, i1, i2, i3⟩ := a8 r hr
  refine ⟨F, f1, i, i1, i2, ?_⟩
  intro j hj
  rw [hn j hj, hn i i1]
  exact i3 j hj

/-- A class of two values has a single output neuron, and every row is predicted to be of the first value. -/
theorem C72_two_values {exp : K → K} (hexp : ∀ v, 0 < exp v) {val : U64 → K} {bits : K → U64} {srt : List Spec → List Spec}
    (hsrt : PositionSort srt) (pg : Nat) (m : MLNet K) (run run' : NetRun K) {g what : Grid} {n nW : Nat} {c cw : Attr}
    {name name' : String} {vals vals' : List String} (h0 : m.classAttrCount = 0)
    (D : ClassData g n (Conv.float run.fresh g.allAttributes) c) (hc : c.body = .cat name vals) (h2 : vals.length = 2)
    (R : run.Allowed g) (W : ClassData what nW (Conv.float run'.fresh what.allAttributes) cw) (hcw : cw.body = .cat name' vals')
    (R' : run'.Allowed what) (hsame : ∀ a, (a ∈ g.allAttributes ∧ a ≠ c) ↔ a ∈ what.allAttributes ∧ a ≠ cw) :
    ∃ m' d, m.fit exp val srt run g = Res.ok m' ∧ m'.predict val bits srt pg run' what = Res.ok d ∧ d.maxRow = nW ∧
      ∀ r, r < nW → (Grid.dense d).cell cw r = stored 0 := by
  obtain ⟨m', n2, ins, d, a1, a2, a3, _, a5, a6, a7, a8⟩ := C72_reads hexp (val := val) (bits := bits) hsrt pg m run run' h0 D hc R W hcw
    R' hsame
  refine ⟨m', d, a1, a5, a6, ?_⟩
  intro r hr
  obtain ⟨F, f1, i, i1, i2, i3⟩ := a8 r hr
  rw [if_pos (by omega)] at i1
  rw [i2, show i = 0 by omega]

/-- Numbers: with a class that is a number, any hidden layers, and rows with the same attributes, `Predict` stores the value of the
output neuron, which was trained to be the number of the class. Missing: several classes that are numbers. -/
theorem C72_float_partial {exp : K → K} {val : U64 → K} {bits : K → U64} {srt : List Spec → List Spec}
    (hsrt : PositionSort srt) (pg : Nat) (m : MLNet K) (run run' : NetRun K) {g what : Grid} {n nW : Nat} {c : Attr}
    (D : ClassData g n (Conv.float run.fresh g.allAttributes) c) (hc : c.isFloat = true) (R : run.Allowed g)
    (W : ClassData what nW (Conv.float run'.fresh what.allAttributes) c) (R' : run'.Allowed what)
    (hsame : ∀ a, (a ∈ g.allAttributes ∧ a ≠ c) ↔ a ∈ what.allAttributes ∧ a ≠ c) :
    ∃ m' n1 n2 ins d, m.fit exp val srt run g = Res.ok m' ∧ m'.network = some n2 ∧ InputsOf g c ins ∧
      RandomStart run.draw n1 ins.length m.layers 1 ∧ InLayers exp n1 ins.length m.layers 1 ∧ InLayers exp n2 ins.length m.layers 1 ∧
      (∃ X Y : Nat → Nat → K, (∀ r, r < n → X r = placed (g.number val) 0 ins r) ∧
        (∀ r, r < n → Y r (ins.length + m.layers.sum) = g.number val c r) ∧
        Training m.learningRate m.convergence {ins.length + m.layers.sum} X Y run.order 0 m.maxIterations n1 n2) ∧
      m'.predict val bits srt pg run' what = Res.ok d ∧ d.maxRow = nW ∧ d.allClassAttributes = [c] ∧
      ∀ r, r < nW → ∃ F, n2.FeedForward (placed (what.number val) 0 ins r) F ∧
        (Grid.dense d).cell c r = packU64 (bits (F (ins.length + m.layers.sum))) := by
  obtain ⟨m', n1, n2, ins, cls, a1, a2, a3, a4, a5, a6, a7, a8, ⟨X, Y, b1, b2, b3⟩, a10, a11, a12, _, _⟩ :=
    C72_fitted (exp := exp) (val := val) hsrt m run D R
  have FG := floatGrid D.toNetData
  have hcm : c ∈ g.allAttributes := D.known c (by rw [D.one]; simp)
  have hcls : cls = [c] := by
    rw [(FG.same c hcm hc).1] at a6
    exact List.perm_singleton.1 a6
  have hk := a12 c (by rw [hcls]; simp)
  subst hcls
  simp only [List.length_cons, List.length_nil, Nat.zero_add, List.idxOf_cons_self, Nat.add_zero] at a7 a8 b3 hk a10
  obtain ⟨d, p1, p2, p3, p4⟩ := predict_float (exp := exp) (val := val) (bits := bits) hsrt pg (m := m') (floatGrid W.toNetData)
    (R'.order 0) W.one hc W.presents.rows
    (by
      intro a ha hac
      rw [W.one, List.mem_singleton] at hac
      exact W.numbers a ha hac)
    (R'.inputs _) a4.1
    (by
      intro a
      rw [W.one, List.mem_singleton, a4.2 a, hsame a])
    a11 a2 a10 (by rw [a3]; omega) hk (by omega)
  refine ⟨m', n1, n2, ins, d, a1, a2, a4, a7, a8, shape_inLayers a10, ⟨X, Y, b1, ?_, ?_⟩, p1, p2, p3, p4⟩
  · intro r hr
    rw [b2]
    unfold placed
    rw [if_pos (Nat.le_refl _), Nat.sub_self]
    simp only [List.getElem?_cons_zero]
    exact number_same FG hcm hc hr
  · have : Finset.Ico (ins.length + m.layers.sum) (ins.length + m.layers.sum + 1) = {ins.length + m.layers.sum} := by
      ext i; simp only [Finset.mem_Ico, Finset.mem_singleton]; omega
    rw [this] at b3
    exact b3

/-- A network without hidden layers that is trained a second time panics when it is asked about a categorical class: the number of
classes of the first training is kept and added to. -/
theorem C72_second_fit {exp : K → K} {val : U64 → K} {bits : K → U64} {srt : List Spec → List Spec}
    (hsrt : PositionSort srt) (pg : Nat) (m : MLNet K) (run run' : NetRun K) {g what : Grid} {n nW : Nat} {c cw : Attr}
    (hl : m.layers = []) (h0 : 0 < m.classAttrCount) (D : ClassData g n (Conv.float run.fresh g.allAttributes) c) (R : run.Allowed g)
    (W : ClassData what nW (Conv.float run'.fresh what.allAttributes) cw) (hcw : cw.isCat = true) (R' : run'.Allowed what)
    (hrow : 0 < nW) (hsame : ∀ a, (a ∈ g.allAttributes ∧ a ≠ c) ↔ a ∈ what.allAttributes ∧ a ≠ cw) :
    ∃ m', m.fit exp val srt run g = Res.ok m' ∧ 0 < m'.classAttrCount ∧ m'.predict val bits srt pg run' what = Res.panic := by
  obtain ⟨m', n1, n2, ins, cls, a1, a2, a3, a4, a5, a6, a7, a8, _, a10, a11, _, a13, a14⟩ :=
    C72_fitted (exp := exp) (val := val) hsrt m run D R
  refine ⟨m', a1, by omega, ?_⟩
  have FW := floatGrid W.toNetData
  have hfl : ∀ a ∈ what.allAttributes, a ∉ what.allClassAttributes → a.isFloat = true := by
    intro a ha hac
    rw [W.one, List.mem_singleton] at hac
    exact W.numbers a ha hac
  refine predict_panic hsrt pg FW (R'.order 0) hrow W.one hcw W.presents.rows (R'.inputs _) a2 ?_
  intro fs sp cell hfs hsp hun
  have hins : ∀ a ∈ fs, a ∈ ins := by
    intro a ha
    have := (normal_floats FW hfl a).1 ((hfs a).1 ha)
    rw [W.one, List.mem_singleton] at this
    exact (a4.2 a).2 ((hsame a).2 this)
  rw [buildInput_spec (num := fun a => match unpackFloatBits (cell a) with | .ok u => val u | _ => 0) fs hsp]
  · rw [Res.bind_ok]
    apply maxLoop_panic _ _ _ (ins.length + cls.length)
    · simp only [List.mem_map, List.mem_range, a13, a14]
      exact ⟨cls.length, by omega, rfl⟩
    · rw [a10.size, hl]
      simp
  · intro a ha
    obtain ⟨u, hu⟩ := hun a ha
    exact ⟨u, hu, by rw [hu]⟩
  · intro a ha
    refine ⟨_, a11 a (hins a ha), ?_⟩
    have := List.idxOf_lt_length_of_mem (hins a ha)
    rw [a10.size]
    omega

/-- In particular, any network without hidden layers, trained twice on the same data. -/
theorem C72_fit_twice {exp : K → K} {val : U64 → K} {bits : K → U64} {srt : List Spec → List Spec}
    (hsrt : PositionSort srt) (pg : Nat) (m : MLNet K) (run run2 run' : NetRun K) {g what : Grid} {n nW : Nat} {c cw : Attr}
    {name : String} {vals : List String} (hl : m.layers = []) (D : ClassData g n (Conv.float run.fresh g.allAttributes) c)
    (hc : c.body = .cat name vals) (R : run.Allowed g) (D2 : ClassData g n (Conv.float run2.fresh g.allAttributes) c)
    (R2 : run2.Allowed g) (W : ClassData what nW (Conv.float run'.fresh what.allAttributes) cw) (hcw : cw.isCat = true)
    (R' : run'.Allowed what) (hrow : 0 < nW) (hsame : ∀ a, (a ∈ g.allAttributes ∧ a ≠ c) ↔ a ∈ what.allAttributes ∧ a ≠ cw) :
    ∃ m' m'', m.fit exp val srt run g = Res.ok m' ∧ m'.fit exp val srt run2 g = Res.ok m'' ∧
      m''.predict val bits srt pg run' what = Res.panic := by
  obtain ⟨m', n1, n2, ins, cls, a1, a2, a3, a4, a5, a6, _, _, _, _, _, _, _, a14⟩ :=
    C72_fitted (exp := exp) (val := val) hsrt m run D R
  have hlen : cls.length = if vals.length ≤ 2 then 1 else vals.length := by
    rw [a6.length_eq, outs_length D hc]
  have hpos : 0 < m'.classAttrCount := by
    rw [a14, hlen]; split <;> omega
  obtain ⟨m'', b1, _, b3⟩ := C72_second_fit (exp := exp) (val := val) (bits := bits) hsrt pg m' run2 run' (by rw [a3, hl]) hpos D2 R2 W
    hcw R' hrow hsame
  exact ⟨m', m'', a1, b1, b3⟩

/-- Data with an input that is not a number: conversion makes new attributes each time, which the network does not know, and
`Predict` panics. Here the addresses are those of no attribute the network knows. -/
theorem C72_other_inputs {val : U64 → K} {bits : K → U64} {srt : List Spec → List Spec}
    (hsrt : PositionSort srt) (pg : Nat) (m : MLNet K) (run : NetRun K) {what : Grid} {nW : Nat} {cw b : Attr} {n2 : Network K}
    (hnet : m.network = some n2) (W : NetData what nW (Conv.float run.fresh what.allAttributes))
    (hone : what.allClassAttributes = [cw]) (hcw : cw.isCat = true) (R : run.Allowed what) (hrow : 0 < nW)
    (hb : b ∈ what.allAttributes) (hbc : b ≠ cw) (hbf : b.isFloat = false)
    (hnew : ∀ a i, m.attrs.get? a ≠ none → a.ptr ≠ run.fresh i) : m.predict val bits srt pg run what = Res.panic := by
  have FW := floatGrid W
  refine predict_panic hsrt pg FW (R.order 0) hrow hone hcw W.presents.rows (R.inputs _) hnet ?_
  intro fs sp cell hfs hsp hun
  obtain ⟨x, hx⟩ := List.exists_mem_of_ne_nil _ (FW.some b hb)
  have hp := of_mem_outputs hx
  have hxp : ∃ i, x.ptr = run.fresh i := by
    rcases trainFloat_fresh run.fresh what.allAttributes Conv.empty 0 _ hp with h | h | h
    · simp [Conv.empty] at h
    · simp only at h; rw [hbf] at h; cases h
    · exact h
  have hxn : x ∈ (convertToFloatInsts run.fresh what).normalAttrs := by
    obtain ⟨_, _, _, k2⟩ := C27_references (convertToFloatInsts run.fresh what).allAttributes
      (convertToFloatInsts run.fresh what).allClassAttributes _ _ (List.Perm.refl _) (List.Perm.refl _)
    refine (k2 x).2 ⟨(FW.mem x).2 ⟨_, hp, rfl⟩, ?_⟩
    intro hcl
    obtain ⟨q, hq, hq1, hq2⟩ := (FW.cls x).1 hcl
    have := FW.inj _ hp q hq hq2
    rw [← this, hone, List.mem_singleton] at hq1
    exact hbc hq1
  rw [buildInput_panic fs hsp hun ((hfs x).2 hxn)]
  · rfl
  · by_contra hne
    obtain ⟨i, hi⟩ := hxp
    exact hnew x i hne hi

end

section Examples
private def xa : Attr := ⟨0, .float "x" 2⟩
private def ca : Attr := ⟨1, .cat "c" ["p", "q", "r"]⟩
private def nOps : List Op := [.add xa, .add ca, .extend 3, .set 0 0 (packU64 f64One), .set 1 1 (stored 1), .set 1 2 (stored 2),
  .addClass ca]
private def nVal (u : U64) : Rat := if u = f64One then 1 else 0
private def nExp (v : Rat) : Rat := if v < 0 then 1 / (1 - v) else 1 + v
private def nNet (layers : List Nat) : MLNet Rat := { newMLNet layers with maxIterations := 1 }
private def revRun (draw : Nat → Rat) : NetRun Rat := ⟨fun i => 100 + i, id, List.reverse, draw, fun _ => [0, 1, 2]⟩
private def idRun (draw : Nat → Rat) : NetRun Rat := ⟨fun i => 100 + i, id, id, draw, fun _ => [0, 1, 2]⟩
private def draw1 (i : Nat) : Rat := if i = 3 then 50 else 10
private def draw2 (i : Nat) : Rat := if i = 15 ∨ i = 8 ∨ i = 11 ∨ i = 14 then 50 else 10

/-- After one iteration, row 0 is given the value 0, although the neuron `hi` has a greater activation than the neuron `lo`. -/
private def wrongRow (layers : List Nat) (run : NetRun Rat) (g : Grid) (lo hi : Nat) : Bool :=
  match (nNet layers).fit nExp nVal id run g with
  | .ok m => match m.network, m.predict nVal (fun _ => 0#64) id 4096 (idRun fun _ => 0) g with
    | some n, .ok d => decide ((Grid.dense d).cell ca 0 = stored 0 ∧ lo < n.size ∧ hi < n.size ∧
        n.activate (2 + layers.length) (placed (g.number nVal) 0 [xa] 0) lo <
          n.activate (2 + layers.length) (placed (g.number nVal) 0 [xa] 0) hi)
    | _, _ => false
  | _ => false

theorem layered_example : ∃ g : Grid, ClassData g 3 (Conv.float (fun i => 100 + i) g.allAttributes) ca ∧ g.allAttributes = [xa, ca] ∧
    g.RowOrder [0, 1, 2] ∧ wrongRow [] (revRun draw1) g 3 1 = true ∧ wrongRow [3] (idRun draw2) g 4 6 = true ∧
    (convertToFloatInsts (fun i => 100 + i) g).allClassAttributes =
      outputs (Conv.float (fun i => 100 + i) g.allAttributes).attrs ca := by
  have hw : ∃ st, run 4096 nOps = Res.ok st ∧ (∀ op ∈ nOps, basicOp op = true) ∧
      (addedAttrs nOps).Pairwise (fun a b => a.equals b = false) ∧ totalRows nOps = 3 ∧
      st.d.allClassAttributes = [ca] ∧ st.d.allAttributes = [xa, ca] ∧ st.d.maxRow = 3 ∧
      (∀ r ∈ List.range 3, (Grid.dense st.d).cell ca r = stored r) ∧
      ((Conv.float (fun i => 100 + i) [xa, ca]).attrs.map fun p => p.new.name).Nodup ∧
      wrongRow [] (revRun draw1) (.dense st.d) 3 1 = true ∧ wrongRow [3] (idRun draw2) (.dense st.d) 4 6 = true ∧
      (convertToFloatInsts (fun i => 100 + i) (.dense st.d)).allClassAttributes =
        outputs (Conv.float (fun i => 100 + i) (Grid.dense st.d).allAttributes).attrs ca := by
    refine ⟨_, rfl, ?_, ?_, ?_, ?_, ?_, ?_, ?_, ?_, ?_, ?_, ?_⟩
    all_goals decide +kernel
  obtain ⟨st, hrun, hb, hd, h3, hcl, hall, hmax, hcells, hnames, w1, w2, w3⟩ := hw
  have D := denseOK_run hb hrun hd
  rw [h3] at D
  have hall' : (Grid.dense st.d).allAttributes = [xa, ca] := hall
  have hro : (Grid.dense st.d).RowOrder [0, 1, 2] := by
    show [0, 1, 2] = List.range st.d.maxRow
    rw [hmax]; rfl
  refine ⟨.dense st.d, ⟨⟨D.presents, ?_, ?_, D.typed, ?_, ?_⟩, hcl, ?_, ?_⟩, hall', hro, w1, w2, w3⟩
  · unfold Grid.distinct
    rw [hall']
    decide
  · intro c hc
    have : c ∈ st.d.allClassAttributes := hc
    rw [hcl, List.mem_singleton] at this
    subst this
    rw [hall']
    simp
  · intro a ha name vals hbody
    rw [hall'] at ha
    simp only [List.mem_cons, List.not_mem_nil, or_false] at ha
    rcases ha with rfl | rfl
    · simp [xa] at hbody
    · simp only [ca, AttrBody.cat.injEq] at hbody
      obtain ⟨_, rfl⟩ := hbody
      refine ⟨by decide, by decide, ?_⟩
      intro r hr
      exact ⟨r, by simpa using hr, hcells r (List.mem_range.2 hr)⟩
  · rw [hall']
    exact hnames
  · intro a ha hac
    rw [hall'] at ha
    simp only [List.mem_cons, List.not_mem_nil, or_false] at ha
    rcases ha with rfl | rfl
    · rfl
    · exact absurd rfl hac
  · exact ⟨xa, by rw [hall']; simp, by decide⟩

theorem nExp_pos (v : Rat) : 0 < nExp v := by
  unfold nExp
  split
  · next h => exact div_pos one_pos (by linarith)
  · next h => linarith [not_lt.1 h]

theorem inputsOf_example {g : Grid} (hall : g.allAttributes = [xa, ca]) {ins : List Attr} (h : InputsOf g ca ins) : ins = [xa] := by
  obtain ⟨h1, h2⟩ := h
  have hm : ∀ a, a ∈ ins ↔ a ∈ [xa] := by
    intro a
    rw [h2 a, hall]
    constructor
    · rintro ⟨ha, hc⟩
      simp only [List.mem_cons, List.not_mem_nil, or_false] at ha ⊢
      rcases ha with h | h
      · exact h
      · exact absurd h hc
    · intro ha
      rw [List.mem_singleton] at ha
      subst ha
      exact ⟨by simp, by decide⟩
  have := (List.perm_ext_iff_of_nodup h1 (by simp : [xa].Nodup)).2 hm
  exact List.perm_singleton.1 this

/-- How a wrong row refutes the claim. -/
theorem wrongRow_refutes {layers : List Nat} {ordered : Prop} {run : NetRun Rat} {g : Grid} {lo hi j : Nat}
    (hrun : run.fresh = fun i => 100 + i) (D : ClassData g 3 (Conv.float (fun i => 100 + i) g.allAttributes) ca)
    (hall : g.allAttributes = [xa, ca]) (R : run.Allowed g) (R' : (idRun fun _ => 0).Allowed g)
    (hord : ordered → run.classes (convertToFloatInsts run.fresh g).allClassAttributes =
      outputs (Conv.float run.fresh g.allAttributes).attrs ca)
    (hlo : neuronOf (1 + layers.sum) (run.classes (convertToFloatInsts run.fresh g).allClassAttributes)
      (outputs (Conv.float run.fresh g.allAttributes).attrs ca) 0 = lo)
    (hhi : neuronOf (1 + layers.sum) (run.classes (convertToFloatInsts run.fresh g).allClassAttributes)
      (outputs (Conv.float run.fresh g.allAttributes).attrs ca) j = hi) (hj : j < 3)
    (hw : wrongRow layers run g lo hi = true) : ¬ C72_greatest Rat layers ordered := by
  intro hall'
  have hps : PositionSort id :=
    ⟨List.range, fun n => List.Perm.refl _, fun l => (filterMap_range_getElem? l).symm⟩
  have D' : ClassData g 3 (Conv.float run.fresh g.allAttributes) ca := by rw [hrun]; exact D
  obtain ⟨m', n2, ins, d, a1, a2, a3, a4, _, _, a7⟩ := hall' nExp nVal (fun _ => 0#64) id 4096 (nNet layers) run (idRun fun _ => 0) g g 3 3 ca
    ca "c" "c" ["p", "q", "r"] ["p", "q", "r"] nExp_pos hps rfl rfl D' rfl (by decide) R D rfl R' (fun a => Iff.rfl) hord
  obtain ⟨m'', n2', ins', d', b1, b2, b3, b4, _⟩ := C72_reads nExp_pos (val := nVal) (bits := fun _ => 0#64) hps 4096 (nNet layers) run
    (idRun fun _ => 0) rfl D' rfl R D rfl R' (fun a => Iff.rfl)
  rw [a1, Res.ok.injEq] at b1
  subst b1
  rw [a2, Option.some.injEq] at b2
  subst b2
  have e := inputsOf_example hall a3
  subst e
  have e' := inputsOf_example hall b3
  subst e'
  unfold wrongRow at hw
  rw [a1] at hw
  simp only [a2, a4] at hw
  obtain ⟨c1, c2, c3, c4⟩ := of_decide_eq_true hw
  obtain ⟨F, f1, i, i1, i2, i3⟩ := a7 0 (by decide)
  rw [i2] at c1
  have hi0 : i = 0 := by
    have : i < 3 := i1
    interval_cases i
    · rfl
    · exact absurd c1 (by decide)
    · exact absurd c1 (by decide)
  subst hi0
  have h1 := i3 j hj
  simp only [List.length_cons, List.length_nil, Nat.zero_add] at h1
  rw [hlo, hhi] at h1
  have hff := b4.layered.feedForward (placed (g.number nVal) 0 [xa] 0) (show layers.length + 1 ≤ 2 + layers.length by omega)
  have u := C92_unique b4.layered f1 hff
  rw [u lo c2, u hi c3] at h1
  exact absurd c4 (not_lt.2 h1)

/-- The order in which a map lists its keys is arbitrary, and in other orders than that of the values the claim is false. -/
theorem C72_not_any_order : ¬ C72_greatest Rat [] False := by
  obtain ⟨g, D, hall, hro, w1, _, w3⟩ := layered_example
  have hc : (revRun draw1).classes (convertToFloatInsts (revRun draw1).fresh g).allClassAttributes =
      (outputs (Conv.float (fun i => 100 + i) [xa, ca]).attrs ca).reverse := by
    show (convertToFloatInsts (fun i => 100 + i) g).allClassAttributes.reverse = _
    rw [w3, hall]
  refine wrongRow_refutes (run := revRun draw1) (lo := 3) (hi := 1) (j := 2) rfl D hall
    ⟨fun l => List.Perm.refl _, fun l => List.reverse_perm l, fun _ => hro⟩
    ⟨fun l => List.Perm.refl _, fun l => List.Perm.refl _, fun _ => hro⟩ False.elim ?_ ?_ (by decide) w1
  · rw [hc, hall]
    decide +kernel
  · rw [hc, hall]
    decide +kernel

/-- With a hidden layer of three neurons the claim is false, even in the order of the values. -/
theorem C72_not_hidden : ¬ C72_greatest Rat [3] True := by
  obtain ⟨g, D, hall, hro, _, w2, w3⟩ := layered_example
  have hc : (idRun draw2).classes (convertToFloatInsts (idRun draw2).fresh g).allClassAttributes =
      outputs (Conv.float (fun i => 100 + i) [xa, ca]).attrs ca := by
    show (convertToFloatInsts (fun i => 100 + i) g).allClassAttributes = _
    rw [w3, hall]
  refine wrongRow_refutes (run := idRun draw2) (lo := 4) (hi := 6) (j := 2) rfl D hall
    ⟨fun l => List.Perm.refl _, fun l => List.Perm.refl _, fun _ => hro⟩
    ⟨fun l => List.Perm.refl _, fun l => List.Perm.refl _, fun _ => hro⟩ (fun _ => by rw [hc, hall]; rfl) ?_ ?_ (by decide) w2
  · rw [hc, hall]
    decide +kernel
  · rw [hc, hall]
    decide +kernel

/-- The hypotheses of the theorems above are met by the example, with its three rows of the classes p, q and r. -/
example : ∃ (g : Grid) (run : NetRun Rat), ClassData g 3 (Conv.float run.fresh g.allAttributes) ca ∧ run.Allowed g ∧
    nVal f64One = 1 ∧ nVal 0#64 = 0 ∧ (∃ a ∈ g.allAttributes, a ∉ g.allClassAttributes) ∧
    run.classes (convertToFloatInsts run.fresh g).allClassAttributes = outputs (Conv.float run.fresh g.allAttributes).attrs ca := by
  obtain ⟨g, D, hall, hro, _, _, w3⟩ := layered_example
  refine ⟨g, idRun draw1, D, ⟨fun l => List.Perm.refl _, fun l => List.Perm.refl _, fun _ => hro⟩, by decide +kernel, by decide +kernel,
    ⟨xa, by rw [hall]; simp, by rw [D.one]; decide⟩, w3⟩

private def ya : Attr := ⟨1, .float "y" 2⟩
private def fOps : List Op := [.add xa, .add ya, .extend 2, .set 0 0 (packU64 f64One), .set 1 1 (packU64 f64One), .addClass ya]

/-- Two rows with the inputs 1 and 0 and the classes 0 and 1 meet the hypotheses of `C72_float_partial`. -/
example : ∃ (g : Grid) (run : NetRun Rat), ClassData g 2 (Conv.float run.fresh g.allAttributes) ya ∧ ya.isFloat = true ∧
    run.Allowed g ∧ g.number nVal xa 0 = 1 ∧ g.number nVal ya 0 = 0 ∧ g.number nVal ya 1 = 1 := by
  have hw : ∃ st, run 4096 fOps = Res.ok st ∧ (∀ op ∈ fOps, basicOp op = true) ∧
      (addedAttrs fOps).Pairwise (fun a b => a.equals b = false) ∧ totalRows fOps = 2 ∧
      st.d.allClassAttributes = [ya] ∧ st.d.allAttributes = [xa, ya] ∧ st.d.maxRow = 2 ∧
      ((Conv.float (fun i => 100 + i) [xa, ya]).attrs.map fun p => p.new.name).Nodup ∧
      (Grid.dense st.d).number nVal xa 0 = 1 ∧ (Grid.dense st.d).number nVal ya 0 = 0 ∧ (Grid.dense st.d).number nVal ya 1 = 1 := by
    refine ⟨_, rfl, ?_, ?_, ?_, ?_, ?_, ?_, ?_, ?_, ?_, ?_⟩
    all_goals decide +kernel
  obtain ⟨st, hrun, hb, hd, h3, hcl, hall, hmax, hnames, w1, w2, w3⟩ := hw
  have D := denseOK_run hb hrun hd
  rw [h3] at D
  have hall' : (Grid.dense st.d).allAttributes = [xa, ya] := hall
  have hro : (Grid.dense st.d).RowOrder [0, 1] := by
    show [0, 1] = List.range st.d.maxRow
    rw [hmax]; rfl
  refine ⟨.dense st.d, ⟨fun i => 100 + i, id, id, fun _ => 1, fun _ => [0, 1]⟩, ⟨⟨D.presents, ?_, ?_, D.typed, ?_, ?_⟩, hcl, ?_, ?_⟩, rfl,
    ⟨fun l => List.Perm.refl _, fun l => List.Perm.refl _, fun _ => hro⟩, w1, w2, w3⟩
  · unfold Grid.distinct
    rw [hall']
    decide
  · intro c hc
    have : c ∈ st.d.allClassAttributes := hc
    rw [hcl, List.mem_singleton] at this
    subst this
    rw [hall']
    simp
  · intro a ha name vals hbody
    rw [hall'] at ha
    simp only [List.mem_cons, List.not_mem_nil, or_false] at ha
    rcases ha with rfl | rfl
    · simp [xa] at hbody
    · simp [ya] at hbody
  · rw [hall']
    exact hnames
  · intro a ha hac
    rw [hall'] at ha
    simp only [List.mem_cons, List.not_mem_nil, or_false] at ha
    rcases ha with rfl | rfl
    · rfl
    · exact absurd rfl hac
  · exact ⟨xa, by rw [hall']; simp, by decide⟩

private def ua : Attr := ⟨0, .cat "u" ["s", "t"]⟩
private def uOps : List Op := [.add ua, .add ca, .extend 1, .addClass ca]

/-- A categorical input meets the hypotheses of `C72_other_inputs`, for a network trained on the very same data. -/
example : ∃ (g : Grid) (m : MLNet Rat) (n2 : Network Rat) (run : NetRun Rat), m.network = some n2 ∧
    NetData g 1 (Conv.float run.fresh g.allAttributes) ∧ g.allClassAttributes = [ca] ∧ run.Allowed g ∧ ua ∈ g.allAttributes ∧
    (∃ run0 : NetRun Rat, (nNet []).fit nExp nVal id run0 g = Res.ok m) ∧
    ∀ a i, m.attrs.get? a ≠ none → a.ptr ≠ run.fresh i := by
  have hw : ∃ st, run 4096 uOps = Res.ok st ∧ (∀ op ∈ uOps, basicOp op = true) ∧
      (addedAttrs uOps).Pairwise (fun a b => a.equals b = false) ∧ totalRows uOps = 1 ∧
      st.d.allClassAttributes = [ca] ∧ st.d.allAttributes = [ua, ca] ∧ st.d.maxRow = 1 ∧
      ((Conv.float (fun i => 100 + i) [ua, ca]).attrs.map fun p => p.new.name).Nodup ∧
      (Grid.dense st.d).cell ua 0 = stored 0 ∧ (Grid.dense st.d).cell ca 0 = stored 0 := by
    refine ⟨_, rfl, ?_, ?_, ?_, ?_, ?_, ?_, ?_, ?_, ?_⟩
    all_goals decide +kernel
  obtain ⟨st, hrun, hb, hd, h3, hcl, hall, hmax, hnames, w1, w2⟩ := hw
  have D := denseOK_run hb hrun hd
  rw [h3] at D
  have hall' : (Grid.dense st.d).allAttributes = [ua, ca] := hall
  have hro : (Grid.dense st.d).RowOrder [0] := by
    show [0] = List.range st.d.maxRow
    rw [hmax]; rfl
  have hnd : ∀ fr : Nat → Nat, ((Conv.float fr [ua, ca]).attrs.map fun p => p.new.name) =
      ((Conv.float (fun i => 100 + i) [ua, ca]).attrs.map fun p => p.new.name) := fun fr => rfl
  have N : ∀ fr : Nat → Nat, NetData (.dense st.d) 1 (Conv.float fr (Grid.dense st.d).allAttributes) := by
    intro fr
    refine ⟨D.presents, ?_, ?_, D.typed, ?_, ?_⟩
    · unfold Grid.distinct
      rw [hall']
      decide
    · intro c hc
      have : c ∈ st.d.allClassAttributes := hc
      rw [hcl, List.mem_singleton] at this
      subst this
      rw [hall']
      simp
    · intro a ha name vals hbody
      rw [hall'] at ha
      simp only [List.mem_cons, List.not_mem_nil, or_false] at ha
      rcases ha with rfl | rfl
      · simp only [ua, AttrBody.cat.injEq] at hbody
        obtain ⟨_, rfl⟩ := hbody
        refine ⟨by decide, by decide, fun r hr => ⟨0, by decide, ?_⟩⟩
        rw [show r = 0 by omega]; exact w1
      · simp only [ca, AttrBody.cat.injEq] at hbody
        obtain ⟨_, rfl⟩ := hbody
        refine ⟨by decide, by decide, fun r hr => ⟨0, by decide, ?_⟩⟩
        rw [show r = 0 by omega]; exact w2
    · rw [hall', hnd]
      exact hnames
  have hps : PositionSort id :=
    ⟨List.range, fun n => List.Perm.refl _, fun l => (filterMap_range_getElem? l).symm⟩
  let r0 : NetRun Rat := ⟨fun i => 100 + i, id, id, fun _ => 1, fun _ => [0]⟩
  let r1 : NetRun Rat := ⟨fun i => 200 + i, id, id, fun _ => 1, fun _ => [0]⟩
  have R0 : r0.Allowed (.dense st.d) := ⟨fun l => List.Perm.refl _, fun l => List.Perm.refl _, fun _ => hro⟩
  have hcm : ∀ a ∈ (Grid.dense st.d).allAttributes, a.isFloat = true → False := by
    intro a ha hf
    rw [hall'] at ha
    simp only [List.mem_cons, List.not_mem_nil, or_false] at ha
    rcases ha with rfl | rfl <;> cases hf
  obtain ⟨n1, n2, _, _, _, _, s5⟩ := fit_layers (exp := nExp) (val := nVal) (m := nNet []) hps (floatGrid (N r0.fresh)) R0.order rfl rfl
    (R0.inputs _) (R0.classes _) ⟨ua, by rw [hall']; simp, by show ua ∉ st.d.allClassAttributes; rw [hcl]; decide⟩
  refine ⟨.dense st.d, _, n2, r1, rfl, N r1.fresh, hcl, ⟨fun l => List.Perm.refl _, fun l => List.Perm.refl _, fun _ => hro⟩,
    by rw [hall']; simp, ⟨r0, s5⟩, ?_⟩
  intro a i ha he
  have hin : a ∈ (convertToFloatInsts r0.fresh (.dense st.d)).allAttributes := by
    have A := fitAttrs (floatGrid (N r0.fresh)) (R0.inputs _) (R0.classes _)
      ⟨ua, by rw [hall']; simp, by show ua ∉ st.d.allClassAttributes; rw [hcl]; decide⟩
    simp only at ha
    rw [enumerate_get _ _ _ A.clsNodup] at ha
    rw [A.mem]
    by_cases hc : a ∈ r0.classes (convertToFloatInsts r0.fresh (.dense st.d)).allClassAttributes
    · exact Or.inr hc
    · rw [if_neg hc, enumerate_get _ _ _ A.insNodup] at ha
      by_cases hi : a ∈ r0.inputs (convertToFloatInsts r0.fresh (.dense st.d)).normalAttrs
      · exact Or.inl hi
      · rw [if_neg hi] at ha
        exact absurd rfl ha
  have hsub : ∀ p ∈ (Conv.float r0.fresh [ua, ca]).attrs, p.new.ptr < 200 := by decide +kernel
  obtain ⟨p, hp, rfl⟩ := ((floatGrid (N r0.fresh)).mem a).1 hin
  rw [hall'] at hp
  have := hsub p hp
  have : p.new.ptr = 200 + i := he
  omega

end Examples

end Golearn
