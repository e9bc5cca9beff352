import Verif.Proofs.Perceptron
import Verif.Proofs.DenseTable
import Verif.Proofs.TreeExamples
import Mathlib.Data.Rat.Floor

/-! # C70: the perceptron writes the class of a row to that row -/

namespace Golearn

section
variable {K : Type} [Field K] [LinearOrder K]

/-- The whole claim: whenever a perceptron is trained and used on data sets with two classes, every row gets the second
class if it scores, and the first if not. -/
def C70_own_row (K : Type) [Field K] [LinearOrder K] : Prop :=
  ∀ (fo : FloatOps) (val : U64 → K) (srt : List Spec → List Spec), PositionSort srt →
    ∀ (p q : Perceptron K) (g what : Grid) (n n' : Nat) (c : Attr) (s0 s1 : String) (k k' : Nat → String),
      TwoClasses fo g n c s0 s1 k → TwoClasses fo what n' c s0 s1 k' →
      ∀ order, g.RowOrder order → p.fit fo val srt order g = Res.ok q →
      ∀ order', what.RowOrder order' → ∀ pg d, q.predict fo val pg srt order' what = Res.ok (some d) →
      ∃ fs, fs.Perm what.nonClassFloats ∧ ∀ r, r < n' →
        (q.Positive (what.point val fs r) → getClass fo (.dense d) r = Res.ok s1) ∧
        (¬ q.Positive (what.point val fs r) → getClass fo (.dense d) r = Res.ok s0)

/-- The perceptron trained on a data set keeps the number of weights and the threshold, and training succeeds if there
are at least as many numeric attributes as weights. -/
theorem C70_fit {fo : FloatOps} {val : U64 → K} {srt : List Spec → List Spec} (hsrt : PositionSort srt) (p : Perceptron K)
    {g : Grid} {n : Nat} {c : Attr} {s0 s1 : String} {k : Nat → String} (T : TwoClasses fo g n c s0 s1 k)
    (hw : p.weights.length ≤ g.nonClassFloats.length) {order : List Nat} (ho : g.RowOrder order) :
    ∃ q, p.fit fo val srt order g = Res.ok q ∧ q.weights.length = p.weights.length ∧ q.threshold = p.threshold ∧
      q.data = some g := by
  obtain ⟨fs, fs1, fs2⟩ := positionSort_attrs hsrt g.nonClassFloats
  obtain ⟨q, h1, h2, h3⟩ := epochs_ok ((List.range n).map fun r => (k r, g.point val fs r)) 10
    { p with trainError := 1 / 10 } (by
      intro x hx
      obtain ⟨r, _, rfl⟩ := List.mem_map.1 hx
      simp only [Grid.point, List.length_map, fs1.length_eq]
      exact hw)
  refine ⟨{ q.average with data := some g },
    by simp only [Perceptron.fit, percData_spec T ho fs1 fs2, Res.bind_ok, h1, Res.map_ok], ?_, h3, rfl⟩
  exact (average_length q).trans h2

/-- Training does not look at the classes: two data sets with the same numbers give the same weights, threshold and
counters, whatever the classes of their rows. -/
theorem C70_ignores_labels {fo : FloatOps} {val : U64 → K} {srt : List Spec → List Spec} (hsrt : PositionSort srt)
    (p : Perceptron K) {g g' : Grid} {n : Nat} {c c' : Attr} {s0 s1 s0' s1' : String} {k k' : Nat → String}
    (T : TwoClasses fo g n c s0 s1 k) (T' : TwoClasses fo g' n c' s0' s1' k')
    (hattrs : g.nonClassFloats = g'.nonClassFloats)
    (hsame : ∀ a ∈ g.nonClassFloats, ∀ r, r < n → g.number val a r = g'.number val a r)
    {order order' : List Nat} (ho : g.RowOrder order) (ho' : g'.RowOrder order') {q q' : Perceptron K}
    (h : p.fit fo val srt order g = Res.ok q) (h' : p.fit fo val srt order' g' = Res.ok q') :
    { q with data := none } = { q' with data := none } := by
  obtain ⟨fs, fs1, fs2⟩ := positionSort_attrs hsrt g.nonClassFloats
  simp only [Perceptron.fit, percData_spec T ho fs1 fs2, Res.bind_ok, Res.map_eq_ok] at h
  have hp := percData_spec (val := val) (srt := srt) T' ho' (fs := fs) (by rw [← hattrs]; exact fs1)
    (by rw [← hattrs]; exact fs2)
  simp only [Perceptron.fit, hp, Res.bind_ok, Res.map_eq_ok] at h'
  obtain ⟨x, h1, rfl⟩ := h
  obtain ⟨x', h1', rfl⟩ := h'
  rw [epochs_labels _ ((List.range n).map fun r => (k' r, g'.point val fs r)) (by
    rw [List.map_map, List.map_map]
    apply List.map_congr_left
    intro r hr
    simp only [Function.comp, Grid.point]
    apply List.map_congr_left
    intro a ha
    exact hsame a (fs1.subset ha) r (List.mem_range.1 hr))] at h1
  rw [h1] at h1'
  cases h1'
  rfl

/-- The threshold of a perceptron is what was given to the constructor as the learning rate, and training does not change
it. -/
theorem C70_threshold {fo : FloatOps} {val : U64 → K} {srt : List Spec → List Spec} (hsrt : PositionSort srt)
    (features : Nat) (learningRate startingThreshold trainError : K) {g : Grid} {n : Nat} {c : Attr} {s0 s1 : String}
    {k : Nat → String} (T : TwoClasses fo g n c s0 s1 k) (hw : features ≤ g.nonClassFloats.length) {order : List Nat}
    (ho : g.RowOrder order) {q : Perceptron K}
    (h : (newPerceptron features learningRate startingThreshold trainError).fit fo val srt order g = Res.ok q) :
    q.threshold = learningRate := by
  obtain ⟨q', h1, _, h3, _⟩ := C70_fit (val := val) hsrt (newPerceptron features learningRate startingThreshold trainError) T
    (by simpa [newPerceptron] using hw) ho
  rw [h] at h1
  cases h1
  exact h3

variable [IsStrictOrderedRing K]

/-- What `Predict` does for data of at least two rows, with the attributes of the training data: every row but the second
gets the second class if it scores and the first if not. The second row gets the second class only if it and all rows
after it score, and the first class otherwise. -/
theorem C70_predict_partial {fo : FloatOps} {val : U64 → K} {srt : List Spec → List Spec} (hsrt : PositionSort srt)
    (p : Perceptron K) {train what : Grid} (ht : p.data = some train) {inter : List Attr}
    (hcomp : checkCompatible what train = some inter) {n pp : Nat} {nm s0 s1 : String} {k : Nat → String}
    (T : TwoClasses fo what n ⟨pp, .cat nm [s0, s1]⟩ s0 s1 k) (hn : 2 ≤ n)
    (hw : p.weights.length ≤ what.nonClassFloats.length)
    {order : List Nat} (ho : what.RowOrder order) (pg : Nat) :
    ∃ d fs, p.predict fo val pg srt order what = Res.ok (some d) ∧ (Grid.dense d).size.2 = n ∧
      fs.Perm what.nonClassFloats ∧
      (∀ r, r < n → r ≠ 1 → (p.Positive (what.point val fs r) → getClass fo (.dense d) r = Res.ok s1) ∧
        (¬ p.Positive (what.point val fs r) → getClass fo (.dense d) r = Res.ok s0)) ∧
      ((∀ r, 1 ≤ r → r < n → p.Positive (what.point val fs r)) → getClass fo (.dense d) 1 = Res.ok s1) ∧
      ((∃ r, 1 ≤ r ∧ r < n ∧ ¬ p.Positive (what.point val fs r)) → getClass fo (.dense d) 1 = Res.ok s0) := by
  classical
  obtain ⟨fs, fs1, fs2⟩ := positionSort_attrs hsrt what.nonClassFloats
  obtain ⟨ret, g1, g2, g3⟩ := generate_spec pg T.table.rows T.cls
  obtain ⟨d, w1, w2, w3⟩ := write_spec p hn (a := ⟨pp, .cat nm [s0, s1]⟩) (fun r => (k r, what.point val fs r)) (by
      intro r _
      simp only [Grid.point, List.length_map, fs1.length_eq]
      exact hw) n 0 (by omega) ret g2 (by
      intro r hr
      rw [g3 r hr, if_neg]
      · decide
      · unfold percRow
        split
        · rintro ⟨h, _⟩; omega
        · rintro ⟨h, _⟩; omega)
  rw [← List.range_eq_range'] at w1
  have hget : ∀ r, r < n → ∀ b : Prop, (percRow (fun j => p.Positive (what.point val fs j)) n r ↔ b) →
      (b → getClass fo (.dense d) r = Res.ok s1) ∧ (¬ b → getClass fo (.dense d) r = Res.ok s0) := by
    intro r hr b hb
    have e := w2.getClass (fo := fo) r
    rw [w3 r hr, Res.bind_ok] at e
    constructor
    · intro h
      rw [e, if_pos (hb.2 h)]
      exact catGetString_pack (i := 1) (by decide) rfl
    · intro h
      rw [e, if_neg (fun h' => h (hb.1 h'))]
      exact catGetString_pack (i := 0) (by decide) rfl
  refine ⟨d, fs, ?_, w2.rows, fs1, ?_, ?_, ?_⟩
  · simp only [Perceptron.predict, ht, percData_spec T ho fs1 fs2, Res.bind_ok, hcomp, g1, g2.classes, g2.lookup, Res.orPanic,
      w1, Res.map_ok]
  · intro r hr h1
    exact hget r hr _ (by unfold percRow; rw [if_neg h1]; exact ⟨fun h => h.2, fun h => ⟨hr, h⟩⟩)
  · intro h
    exact (hget 1 (by omega) (∀ r, 1 ≤ r → r < n → p.Positive (what.point val fs r))
      (by unfold percRow; rw [if_pos rfl]; exact ⟨fun h => h.2, fun h => ⟨by omega, h⟩⟩)).1 h
  · rintro ⟨r, h1, h2, h3⟩
    exact (hget 1 (by omega) (∀ r, 1 ≤ r → r < n → p.Positive (what.point val fs r))
      (by unfold percRow; rw [if_pos rfl]; exact ⟨fun h => h.2, fun h => ⟨by omega, h⟩⟩)).2 (fun h => h3 (h r h1 h2))

omit [IsStrictOrderedRing K] in
/-- An untrained perceptron panics, and one that was trained on other attributes gives nothing. -/
theorem C70_refuses {fo : FloatOps} {val : U64 → K} {srt : List Spec → List Spec} (hsrt : PositionSort srt)
    (p : Perceptron K) (what : Grid) {order : List Nat} (pg : Nat) :
    (p.data = none → p.predict fo val pg srt order what = Res.panic) ∧
    (∀ train n c s0 s1 k, p.data = some train → TwoClasses fo what n c s0 s1 k → what.RowOrder order →
      checkCompatible what train = none → p.predict fo val pg srt order what = Res.ok none) := by
  constructor
  · intro h
    simp only [Perceptron.predict, h]
  · intro train n c s0 s1 k h T ho hc
    obtain ⟨fs, fs1, fs2⟩ := positionSort_attrs hsrt what.nonClassFloats
    simp only [Perceptron.predict, h, percData_spec T ho fs1 fs2, Res.bind_ok, hc]
end

section Examples
private def fa : Attr := ⟨0, .float "a" 2⟩
private def cc : Attr := ⟨1, .cat "c" ["x", "y"]⟩
private def ops1 : List Op := [.add fa, .add cc, .extend 3, .set 0 1 (packU64 4), .set 1 1 (packU64 1), .addClass cc]
private def ops2 : List Op := [.add fa, .add cc, .extend 3, .set 0 1 (packU64 4), .addClass cc]
private def fo0 : FloatOps := ⟨fun _ _ => "", fun _ _ => false⟩
private def v0 (u : U64) : Rat := (u.toNat : Rat)
private def lab (r : Nat) : String := if r = 1 then "y" else "x"

/-- Data of three rows, of which the second has the number 4 and the others 0: training on it succeeds, and the result
scores the second row only. -/
theorem perc_example : ∃ (g g' : Grid) (q : Perceptron Rat), TwoClasses fo0 g 3 cc "x" "y" lab ∧
    TwoClasses fo0 g' 3 cc "x" "y" (fun _ => "x") ∧ g.nonClassFloats = [fa] ∧ g'.nonClassFloats = [fa] ∧
    (∀ r, r < 3 → g.number v0 fa r = if r = 1 then 4 else 0) ∧
    (∀ r, r < 3 → g'.number v0 fa r = if r = 1 then 4 else 0) ∧
    checkCompatible g g = some [fa, cc] ∧
    (newPerceptron 1 (1 / 2) 0 1 : Perceptron Rat).fit fo0 v0 (fun l => l) [0, 1, 2] g = Res.ok q ∧ g.RowOrder [0, 1, 2] ∧
    q.data = some g ∧ q.weights = [1830 / 961] ∧ q.threshold = 1 / 2 := by
  have hw : ∃ st st', run 4096 ops1 = Res.ok st ∧ (∀ op ∈ ops1, basicOp op = true) ∧
      (addedAttrs ops1).Pairwise (fun a b => a.equals b = false) ∧ totalRows ops1 = 3 ∧
      st.d.allClassAttributes = [cc] ∧ (Grid.dense st.d).nonClassFloats = [fa] ∧ cc ∈ st.d.allAttributes ∧
      (∀ r ∈ List.range 3, (Grid.dense st.d).number v0 fa r = if r = 1 then 4 else 0) ∧
      (∀ r ∈ List.range 3, cc.getString fo0 ((Grid.dense st.d).cell cc r) = Res.ok (lab r)) ∧
      checkCompatible (.dense st.d) (.dense st.d) = some [fa, cc] ∧ st.d.maxRow = 3 ∧
      run 4096 ops2 = Res.ok st' ∧ (∀ op ∈ ops2, basicOp op = true) ∧
      (addedAttrs ops2).Pairwise (fun a b => a.equals b = false) ∧ totalRows ops2 = 3 ∧
      st'.d.allClassAttributes = [cc] ∧ (Grid.dense st'.d).nonClassFloats = [fa] ∧ cc ∈ st'.d.allAttributes ∧
      (∀ r ∈ List.range 3, (Grid.dense st'.d).number v0 fa r = if r = 1 then 4 else 0) ∧
      (∀ r ∈ List.range 3, cc.getString fo0 ((Grid.dense st'.d).cell cc r) = Res.ok "x") := by
    refine ⟨_, _, rfl, ?_, ?_, ?_, ?_, ?_, ?_, ?_, ?_, ?_, ?_, rfl, ?_, ?_, ?_, ?_, ?_, ?_, ?_, ?_⟩
    all_goals decide +kernel
  obtain ⟨st, st', hrun, hb, hd, h3, hcl, hfl, hcm, hnum, hl, hcomp, hmax, hrun', hb', hd', h3', hcl', hfl', hcm', hnum', hl'⟩ :=
    hw
  have D := denseOK_run hb hrun hd
  rw [h3] at D
  have D' := denseOK_run hb' hrun' hd'
  rw [h3'] at D'
  have T : TwoClasses fo0 (.dense st.d) 3 cc "x" "y" lab :=
    ⟨D.presents, D.typed, hcl, ⟨"c", rfl⟩, hcm, fun r hr => hl r (List.mem_range.2 hr)⟩
  have hro : (Grid.dense st.d).RowOrder [0, 1, 2] := by
    show [0, 1, 2] = List.range st.d.maxRow
    rw [hmax]; rfl
  have hps : PositionSort fun l => l :=
    ⟨List.range, fun n => List.Perm.refl _, fun l => (filterMap_range_getElem? l).symm⟩
  have hdata := percData_spec (val := v0) (srt := fun l => l) T hro (fs := (Grid.dense st.d).nonClassFloats)
    (List.Perm.refl _) (fun _ => rfl)
  have hlist : (List.range 3).map (fun r => (lab r, (Grid.dense st.d).point v0 (Grid.dense st.d).nonClassFloats r)) =
      [("x", [0]), ("y", [4]), ("x", [0])] := by
    have e0 := hnum 0 (by decide)
    have e1 := hnum 1 (by decide)
    have e2 := hnum 2 (by decide)
    simp only [Grid.point, hfl, List.map_cons, List.map_nil, List.range_succ, List.range_zero, List.nil_append,
      List.cons_append, e0, e1, e2]
    rfl
  rw [hlist] at hdata
  have hq : ∃ q : Perceptron Rat, Perceptron.epochs [("x", [0]), ("y", [4]), ("x", [0])] 10
      { (newPerceptron 1 (1 / 2) 0 1 : Perceptron Rat) with trainError := 1 / 10 } = Res.ok q ∧
      q.average.weights = [1830 / 961] ∧ q.average.threshold = 1 / 2 := by
    have hc : (match Perceptron.epochs [("x", [0]), ("y", [4]), ("x", [0])] 10
        { (newPerceptron 1 (1 / 2) 0 1 : Perceptron Rat) with trainError := 1 / 10 } with
      | Res.ok q => decide (q.average.weights = [1830 / 961] ∧ q.average.threshold = 1 / 2)
      | _ => false) = true := by decide +kernel
    split at hc
    · rename_i q hq
      exact ⟨q, hq, of_decide_eq_true hc⟩
    · cases hc
  obtain ⟨q, q1, q2, q3⟩ := hq
  refine ⟨.dense st.d, .dense st'.d, { q.average with data := some (.dense st.d) }, T,
    ⟨D'.presents, D'.typed, hcl', ⟨"c", rfl⟩, hcm', fun r hr => hl' r (List.mem_range.2 hr)⟩, hfl, hfl',
    fun r hr => hnum r (List.mem_range.2 hr), fun r hr => hnum' r (List.mem_range.2 hr), hcomp, ?_, hro, rfl, q2, q3⟩
  simp only [Perceptron.fit, hdata, Res.bind_ok, q1, Res.map_ok]

/-- Another perceptron, trained on data in which only the second row scores: the second row does not get the second
class, because the third row overwrites it. So the whole claim is false. -/
theorem C70_not_own_row : ¬ C70_own_row Rat := by
  intro hall
  obtain ⟨g, _, q, T, _, hfl, _, hnum, _, hcomp, hfit, hro, hdata, hqw, hqt⟩ := perc_example
  have hps : PositionSort fun l => l :=
    ⟨List.range, fun n => List.Perm.refl _, fun l => (filterMap_range_getElem? l).symm⟩
  obtain ⟨d, fs, h1, _, h3, _, _, h6⟩ := C70_predict_partial (fo := fo0) (val := v0) hps q hdata hcomp T (by decide)
    (by rw [hqw, hfl]; decide) hro 4096
  obtain ⟨fs', h3', h4⟩ := hall fo0 v0 (fun l => l) hps _ q g g 3 3 cc "x" "y" lab lab T T _ hro hfit _ hro 4096 d h1
  rw [hfl] at h3 h3'
  have e := List.perm_singleton.1 h3
  have e' := List.perm_singleton.1 h3'
  subst e
  subst e'
  have hpt : ∀ r, r < 3 → g.point v0 [fa] r = [if r = 1 then 4 else 0] := by
    intro r hr
    simp only [Grid.point, List.map_cons, List.map_nil, hnum r hr]
  have c0 := h6 ⟨2, by decide, by decide, by
    rw [hpt 2 (by decide), Perceptron.Positive, hqw, hqt]
    decide +kernel⟩
  have c1 := (h4 1 (by decide)).1 (by
    rw [hpt 1 (by decide), Perceptron.Positive, hqw, hqt]
    decide +kernel)
  rw [c0] at c1
  exact absurd c1 (by decide)

/-- The two data sets of the example have the same numbers and different classes. -/
example : ∃ g g' : Grid, TwoClasses fo0 g 3 cc "x" "y" lab ∧ TwoClasses fo0 g' 3 cc "x" "y" (fun _ => "x") ∧
    g.nonClassFloats = g'.nonClassFloats ∧
    ∀ a ∈ g.nonClassFloats, ∀ r, r < 3 → g.number v0 a r = g'.number v0 a r := by
  obtain ⟨g, g', _, T, T', hfl, hfl', hnum, hnum', _⟩ := perc_example
  refine ⟨g, g', T, T', hfl.trans hfl'.symm, ?_⟩
  intro a ha r hr
  rw [hfl, List.mem_singleton] at ha
  subst ha
  rw [hnum r hr, hnum' r hr]
end Examples

end Golearn
