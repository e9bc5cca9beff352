import Verif.Proofs.LibGrid
import Verif.Props.C78

/-! # C94: linear support vector machines and logistic regressions are trained one against the rest and predict the side -/

namespace Golearn

section
variable {K : Type} [Field K] [LinearOrder K]

/-- What a model chooses for a row is well defined and is what liblinear returns for the row's positive part. -/
theorem libPredict_chooses (m : LModel K) (x : List K) (hcl : m.nrClass = m.label.length) (h0 : m.label ≠ [])
    (hb : m.bias < 0) (hx : x.length ≤ m.nrFeature) :
    ∃ l, libPredict m x = Res.ok l ∧ Chooses m (positivePart x) l := by
  by_cases h2 : m.label.length = 2
  · match hl : m.label, h2 with
    | [l0, l1], _ =>
      refine ⟨_, C78_two_classes m x l0 l1 (by rw [hcl, hl]; rfl) hl hb hx, ?_, ?_⟩
      · intro a b hab
        rw [hl] at hab
        cases hab
        rfl
      · intro hne
        rw [hl] at hne
        exact absurd rfl hne
  · obtain ⟨i, l, h1, h3, h4⟩ := C78_more_classes m x (by rw [hcl]; exact h2) hcl.symm h0 hb hx
    refine ⟨l, h3, ?_, ?_⟩
    · intro a b hab
      rw [hab] at h2
      exact absurd rfl h2
    · intro _
      rw [hcl] at h4
      exact ⟨i, h1, h4⟩

theorem svcPredict_chooses {val : U64 → K} {enc : Int → U64} {srt : List Spec → List Spec} (hsrt : PositionSort srt) {pg : Nat}
    {m : LModel K} (hcl : m.nrClass = m.label.length) (h0 : m.label ≠ []) (hb : m.bias < 0)
    {what : Grid} {k : Nat} {orderW : List Nat} {cw : Attr} (P : what.Presents k) (T : what.typed k)
    (ho : what.RowOrder orderW) (hc : what.allClassAttributes = [cw]) (hcf : cw.isFloat = true) {fs : List Attr}
    (hfs : fs.Perm what.nonClassFloats) (hsp : ∀ sp : Attr → Spec, srt (what.nonClassFloats.map sp) = fs.map sp)
    (hx : fs.length ≤ m.nrFeature) :
    ∃ d, svcPredict val enc srt pg orderW m what = Res.ok d ∧
      LinearPrediction enc m k cw (fun r => positivePart (what.point val fs r)) d := by
  have hlen : ∀ r, (what.point val fs r).length = fs.length := by intro r; simp [Grid.point]
  choose lab h1 h2 using fun r => libPredict_chooses m (what.point val fs r) hcl h0 hb (by rw [hlen]; exact hx)
  obtain ⟨d, d1, d2, d3, d4⟩ := svcPredict_spec (enc := enc) (pg := pg) hsrt P T ho hc hcf hfs hsp
    (lab := lab) (fun r _ => h1 r)
  exact ⟨d, d1, d2, d3, fun r hr => ⟨lab r, h2 r, d4 r hr⟩⟩

/-- Fitting a linear support vector machine to data with one float class attribute and at least one row succeeds. The model
is trained, for each label, on every row exactly once with whether it has the label, with the numbers of the row, the solver
of the parameters, and the penalty times the weight of the label. Predicting for data with no more float columns
gives every row the label the model chooses for the row's positive part. The columns are those of the data to predict, in
their own order. -/
theorem C94_svc [IsStrictOrderedRing K] (solve : Solver K) (toInt : K → Int) (fo : FloatOps) (half : U64) (val : U64 → K)
    (enc : Int → U64) (srt : List Spec → List Spec) (hsrt : PositionSort srt) (pg : Nat) (order0 order1 order2 : List Nat) (g : Grid)
    (n : Nat) (hn : n ≠ 0) (P : g.Presents n) (T : g.typed n) (ho1 : g.RowOrder order1) (ho2 : g.RowOrder order2) (cls : Attr)
    (hc : g.allClassAttributes = [cls]) (hcin : cls ∈ g.allAttributes) (hcf : cls.isFloat = true) (lr : Svc K) (weights : List K)
    (hw : (lr.params.weights = some weights ∧ weights ≠ []) ∨
      (lr.params.weights = none ∧ lr.params.auto = false ∧ weights = [1, 1])) :
    ∃ fs : List Attr, fs.Perm g.nonClassFloats ∧
      ∃ m, svcFit solve toInt fo half val srt order0 order1 order2 lr g = Res.ok m ∧
        LinearFit solve toInt val g n cls fs lr.param weights m ∧
        ∀ (what : Grid) (k : Nat) (cw : Attr) (orderW : List Nat), what.Presents k → what.typed k → what.RowOrder orderW →
          what.allClassAttributes = [cw] → cw.isFloat = true → what.nonClassFloats.length ≤ g.nonClassFloats.length + 1 →
          ∃ fw : List Attr, fw.Perm what.nonClassFloats ∧ ∃ d, svcPredict val enc srt pg orderW m what = Res.ok d ∧
            LinearPrediction enc m k cw (fun r => positivePart (what.point val fw r)) d := by
  obtain ⟨fs, hfs, hsp⟩ := positionSort_attrs hsrt g.nonClassFloats
  obtain ⟨m, nds, f1, f2, f3, f4, f5, f6⟩ := fit_spec solve toInt (val := val) (g := g) (cls := cls) (fs := fs) hn lr.param weights
    (by rw [neg_lt_zero]; exact one_pos)
  refine ⟨fs, hfs, m, ?_, ⟨nds, f2, f3, f6⟩, ?_⟩
  · have hwr : classWeights fo half srt order0 lr.params g = Res.ok weights ∧ weights ≠ [] := by
      unfold classWeights
      rcases hw with ⟨h1, h2⟩ | ⟨h1, h2, h3⟩
      · rw [h1]
        exact ⟨rfl, h2⟩
      · rw [h1, h2, h3]
        refine ⟨?_, by simp⟩
        simp only [Bool.false_eq_true, if_false]
        unfold weightsFixed
        rw [hc]
        simp only
        rw [if_pos hcf]
    unfold svcFit
    rw [hwr.1, Res.bind_ok, problemVec_spec P T ho1 hfs hsp, Res.bind_ok, linLabelVec_spec hsrt P T ho2 hc hcin hcf, Res.bind_ok]
    simp only [if_neg hwr.2]
    exact f1
  · intro what k cw orderW Pw Tw how hcw hcwf hlen
    obtain ⟨fw, hfw, hspw⟩ := positionSort_attrs hsrt what.nonClassFloats
    have h0 : m.label ≠ [] := by
      intro h
      have := (f6.occur (toInt (g.number val cls 0))).2
        (List.mem_map.2 ⟨0, List.mem_range.2 (Nat.pos_of_ne_zero hn), rfl⟩)
      rw [h] at this
      exact absurd this (by simp)
    obtain ⟨d, d1, d2⟩ := svcPredict_chooses (enc := enc) (val := val) (pg := pg) hsrt f6.classes h0 f4 Pw Tw how hcw hcwf hfw hspw
      (by rw [f5, hfw.length_eq, hfs.length_eq]; exact hlen)
    exact ⟨fw, hfw, d, d1, d2⟩

/-- The same holds of a logistic regression, which gives all labels the weight 1. -/
theorem C94_logistic [IsStrictOrderedRing K] (solve : Solver K) (toInt : K → Int) (val : U64 → K)
    (enc : Int → U64) (srt : List Spec → List Spec) (hsrt : PositionSort srt) (pg : Nat) (order1 order2 : List Nat) (g : Grid)
    (n : Nat) (hn : n ≠ 0) (P : g.Presents n) (T : g.typed n) (ho1 : g.RowOrder order1) (ho2 : g.RowOrder order2) (cls : Attr)
    (hc : g.allClassAttributes = [cls]) (hcin : cls ∈ g.allAttributes) (hcf : cls.isFloat = true) (param : LParam K) :
    ∃ fs : List Attr, fs.Perm g.nonClassFloats ∧
      ∃ m, logisticFit solve toInt val srt order1 order2 param g = Res.ok m ∧
        LinearFit solve toInt val g n cls fs param [] m ∧
        ∀ (what : Grid) (k : Nat) (cw : Attr) (orderW : List Nat), what.Presents k → what.typed k → what.RowOrder orderW →
          what.allClassAttributes = [cw] → cw.isFloat = true → what.nonClassFloats.length ≤ g.nonClassFloats.length + 1 →
          ∃ fw : List Attr, fw.Perm what.nonClassFloats ∧ ∃ d, svcPredict val enc srt pg orderW m what = Res.ok d ∧
            LinearPrediction enc m k cw (fun r => positivePart (what.point val fw r)) d := by
  obtain ⟨fs, hfs, hsp⟩ := positionSort_attrs hsrt g.nonClassFloats
  obtain ⟨m, nds, f1, f2, f3, f4, f5, f6⟩ := fit_spec solve toInt (val := val) (g := g) (cls := cls) (fs := fs) hn param []
    (by rw [neg_lt_zero]; exact one_pos)
  refine ⟨fs, hfs, m, ?_, ⟨nds, f2, f3, f6⟩, ?_⟩
  · unfold logisticFit
    rw [problemVec_spec P T ho1 hfs hsp, Res.bind_ok, linLabelVec_spec hsrt P T ho2 hc hcin hcf, Res.bind_ok]
    exact f1
  · intro what k cw orderW Pw Tw how hcw hcwf hlen
    obtain ⟨fw, hfw, hspw⟩ := positionSort_attrs hsrt what.nonClassFloats
    have h0 : m.label ≠ [] := by
      intro h
      have := (f6.occur (toInt (g.number val cls 0))).2
        (List.mem_map.2 ⟨0, List.mem_range.2 (Nat.pos_of_ne_zero hn), rfl⟩)
      rw [h] at this
      exact absurd this (by simp)
    obtain ⟨d, d1, d2⟩ := svcPredict_chooses (enc := enc) (val := val) (pg := pg) hsrt f6.classes h0 f4 Pw Tw how hcw hcwf hfw hspw
      (by rw [f5, hfw.length_eq, hfs.length_eq]; exact hlen)
    exact ⟨fw, hfw, d, d1, d2⟩

omit [LinearOrder K] in
/-- Without weights every label has the weight 1. -/
theorem C94_no_weights (l : Int) : svcWeight ([] : List K) l = 1 := by
  unfold svcWeight
  split <;> simp

/-- Data without exactly one float class attribute makes both panic. -/
theorem C94_class (solve : Solver K) (toInt : K → Int) (val : U64 → K) (srt : List Spec → List Spec)
    (order1 order2 : List Nat) (g : Grid) (param : LParam K) (rows : List (List K)) (hp : problemVec val srt order1 g = Res.ok rows)
    (hc : ∀ c, g.allClassAttributes = [c] → c.isFloat = false) :
    logisticFit solve toInt val srt order1 order2 param g = Res.panic := by
  have : linLabelVec val srt order2 g = Res.panic := by
    unfold linLabelVec labelVec
    split
    · rfl
    · next h =>
      split at h
      · next c hcc =>
        rw [hc c hcc] at h
        simp at h
      · exact absurd rfl h
  unfold logisticFit
  rw [hp, Res.bind_ok, this, Res.bind_panic]

end

section Examples
private def aX : Attr := ⟨0, .float "x" 2⟩
private def aY : Attr := ⟨1, .float "y" 2⟩
private def ops : List Op :=
  [.add aX, .add aY, .addClass aY, .extend 4, .set 0 1 (packU64 2), .set 0 2 (packU64 3), .set 0 3 (packU64 1),
   .set 1 0 (packU64 7), .set 1 1 (packU64 5), .set 1 2 (packU64 5), .set 1 3 (packU64 7)]
private def val (u : U64) : Rat := u.toNat
/-- A solver that returns in the first weight twice the first penalty plus the second, with the sign of the first row. -/
private def solve : Solver Rat := fun sub _ _ cp cn _ => (if (sub.map Prod.snd).head? = some true then 1 else -1) * (2 * cp + cn)

/-- Rows 0, 2, 3, 1 with labels 7, 5, 5, 7: rows 0 and 3 come first, as the positive ones, and the label 7 is chosen if the
weight 6 times the number is positive. -/
example : ((run 4096 ops).bind fun st =>
    (logisticFit solve (fun y => y.num) val id (List.range 4) (List.range 4) ⟨0, 2, 1⟩ (.dense st.d)).bind fun m =>
      (svcPredict val (fun i => BitVec.ofInt 64 i) id 4096 (List.range 4) m (.dense st.d)).map fun d =>
        (m.label, m.w 0, (Grid.dense d).cell aY 0, (Grid.dense d).cell aY 1)) =
    Res.ok ([7, 5], 6, packU64 5, packU64 7) := by decide +kernel

example : (groupClasses (fun y : Rat => y.num) [7, 5, 5, 7, 9, 5]).perm = [0, 3, 1, 2, 5, 4] := by decide +kernel
example : (groupClasses (fun y : Rat => y.num) [-1, 1, -1]).label = [1, -1] := by decide +kernel
end Examples

end Golearn
