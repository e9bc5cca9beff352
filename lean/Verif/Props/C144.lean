import Verif.Proofs.Refit
import Verif.Props.C70
import Verif.Props.C72
import Mathlib.Data.Rat.Floor

/-! # C144: a model that is fitted again is that of its last training data -/

namespace Golearn

/-! ## Models that forget -/

section
variable {R : Type} [Field R] [LinearOrder R]

/-- The k-nearest-neighbours classifier forgets earlier tables. -/
theorem C144_knn (M : KnnMetrics R) (e : Grid → Grid → KnnEnv R) (c : Grid → Grid → KnnChoices R) :
    Forgets (knnOps M e c) KnnModel.Same := by
  apply forgets_of
  · intro m m' fresh g hs h
    simp only [knnOps, Res.ok.injEq] at h
    subst h
    exact hs
  · intro m fresh g m' ⟨h1, h2, h3, h4, h5⟩ h
    simp only [knnOps, Res.ok.injEq] at h
    subst h
    refine ⟨_, rfl, ?_⟩
    intro what
    obtain ⟨a, b, c, d, e, f⟩ := m
    obtain ⟨a', b', c', d', e', f'⟩ := fresh
    simp only at h1 h2 h3 h4 h5
    subst h1; subst h2; subst h3; subst h4; subst h5
    rfl
end

/-- So do decision trees and random trees. -/
theorem C144_trees (e : Grid → TreeEnv) (e' : Grid → Id3Env) (prune : Bool) (pct : Int) (p : Grid → PredEnv) :
    Forgets (randomTreeOps e p) (fun _ _ => True) ∧ Forgets (id3Ops e' prune pct p) (fun _ _ => True) :=
  ⟨forgets_of (fun _ _ _ _ _ _ => trivial) fun _ _ _ m' _ h => ⟨m', h, fun _ => rfl⟩,
    forgets_of (fun _ _ _ _ _ _ => trivial) fun _ _ _ m' _ h => ⟨m', h, fun _ => rfl⟩⟩

section
variable {K : Type} [Field K] [LinearOrder K]

/-- Naive Bayes predicts as if it had only seen the last table, whatever was in it before. -/
theorem C144_naive_bayes (e : NbEnv K) (hC : ∀ g l, (e.ordC g l).Perm l) (hP : ∀ g r l, (e.ordP g r l).Perm l) :
    Forgets (nbOps e) (fun _ _ => True) := by
  apply forgets_of (fun _ _ _ _ _ _ => trivial)
  intro m fresh g m' _ h
  obtain ⟨⟨nb', h1, h2⟩, _⟩ := nbFit_old (hC g) h fresh.condProb
  refine ⟨nb', h1, ?_⟩
  intro what
  simp only [nbOps, nbPredict_alike h2 e.log e.low e.fo e.parse e.pg e.srt (e.order what) (e.ordP what) (hP what) what]
  cases nbPredict e.log e.low e.fo e.parse e.pg e.srt (e.order what) (e.ordP what) nb' what <;> rfl

/-- But it does not drop what it learnt: the probabilities of classes that are not in the last table are still there, and are written to
file with the rest. -/
theorem C144_naive_bayes_stale (e : NbEnv K) (hC : ∀ g l, (e.ordC g l).Perm l) (nb nb' : NB K) (g : Grid)
    (h : (nbOps e).fit nb g = Res.ok nb') (c : String) (hc : c ∉ nb'.inst.map Prod.fst) : nb'.condProb.get? c = nb.condProb.get? c :=
  (nbFit_old (hC g) h []).2 c hc

/-! ## The perceptron -/

/-- The whole claim for the perceptron. -/
def C144_perceptron_full (K : Type) [Field K] [LinearOrder K] : Prop :=
  ∀ (fo : FloatOps) (val : U64 → K) (pg : Nat) (srt : List Spec → List Spec) (order : Grid → List Nat), PositionSort srt →
    (∀ g : Grid, g.RowOrder (order g)) → Forgets (percOps fo val pg srt order) Eq

/-- What a call of `Fit` does to a perceptron in any state. The counter and the edges are not reset but go on: by ten for each row, and
the counter by one more. If there are rows, each weight is a number of the last row times the learning rate, with one sign or the other,
averaged twice with the counter and the edges. So the earlier tables only matter by their number of rows and by the sign. -/
theorem C144_perceptron {fo : FloatOps} {val : U64 → K} {srt : List Spec → List Spec} (hsrt : PositionSort srt) (p q : Perceptron K)
    {g : Grid} {n : Nat} {c : Attr} {s0 s1 : String} {k : Nat → String} (T : TwoClasses fo g n c s0 s1 k) {order : List Nat}
    (ho : g.RowOrder order) (h : p.fit fo val srt order g = Res.ok q) :
    q.count = p.count + (10 * n : Nat) + 1 ∧ q.edges = p.edges.map (· + ((10 * n : Nat) : K)) ∧ q.weights.length = p.weights.length ∧
      q.threshold = p.threshold ∧ q.learningRate = p.learningRate ∧
      ∃ fs, fs.Perm g.nonClassFloats ∧ (0 < n → ∃ s : K, (s = 1 ∨ s = -1) ∧
        ∀ i f x, i < p.weights.length → q.edges[i]? = some f → (g.point val fs (n - 1))[i]? = some x →
          q.weights[i]? = some (((q.count - 1) * (((q.count - 2) * (p.learningRate * s * x) + f) / (f + 1)) + f) / (f + 1))) := by
  obtain ⟨fs, fs1, fs2⟩ := positionSort_attrs hsrt g.nonClassFloats
  unfold Perceptron.fit at h
  rw [percData_spec T ho fs1 fs2, Res.bind_ok] at h
  obtain ⟨q1, h1, rfl⟩ := Res.map_eq_ok.1 h
  obtain ⟨a1, a2, a3, a4, a5, _, a7⟩ := percEpochs_spec 10 h1
  simp only [List.length_map, List.length_range] at a1 a2 a3 a4 a5 a7
  have ec : ({ q1.average with data := some g } : Perceptron K).count = q1.count + 1 := rfl
  have ee : ({ q1.average with data := some g } : Perceptron K).edges = q1.edges := rfl
  refine ⟨by rw [ec, a1], by rw [ee, a2], ?_, a5, a4, fs, fs1, ?_⟩
  · rw [show ({ q1.average with data := some g } : Perceptron K).weights = q1.average.weights from rfl, average_length, a3]
  · intro hn
    have hlast : ((List.range n).map fun r => (k r, g.point val fs r)).getLast? = some (k (n - 1), g.point val fs (n - 1)) := by
      rw [List.getLast?_map, List.getLast?_range, if_neg (by omega)]
      rfl
    obtain ⟨s, s1, s2⟩ := a7 _ hlast (by omega)
    refine ⟨s, s1, ?_⟩
    intro i f x hi hf hx
    rw [ee] at hf
    have hw : q1.weights[i]? = some (((q1.count - 1) * (p.learningRate * s * x) + f) / (f + 1)) := by
      rw [s2]
      unfold lastWeights
      apply percAverages_get _ _ _ _ _ _ hf
      rw [List.getElem?_map, List.getElem?_take, if_pos hi, hx]
      rfl
    have := percAverages_get q1.count q1.edges q1.weights i f _ hf hw
    rw [ec, show q1.count + 1 - 1 = q1.count by ring, show q1.count + 1 - 2 = q1.count - 1 by ring]
    exact this

/-- After any number of fits the counter has seen every row of every table ten times. -/
theorem C144_perceptron_count {fo : FloatOps} {val : U64 → K} {srt : List Spec → List Spec} (hsrt : PositionSort srt) (pg : Nat)
    {order : Grid → List Nat} (ho : ∀ g : Grid, g.RowOrder (order g)) (p q : Perceptron K) (gs : List (Grid × Nat))
    (T : ∀ x ∈ gs, ∃ c s0 s1 k, TwoClasses fo x.1 x.2 c s0 s1 k)
    (hfit : ∀ x ∈ gs, p.weights.length ≤ x.1.nonClassFloats.length)
    (h : (percOps fo val pg srt order).fits p (gs.map Prod.fst) = Res.ok q) :
    q.count = p.count + (10 * (gs.map Prod.snd).sum + gs.length : Nat) ∧
      q.edges = p.edges.map (· + ((10 * (gs.map Prod.snd).sum : Nat) : K)) := by
  induction gs generalizing p with
  | nil =>
    simp only [List.map_nil, ClassifierOps.fits, Res.ok.injEq] at h
    subst h
    simp
  | cons x gs ih =>
    obtain ⟨c, s0, s1, k, Tx⟩ := T x List.mem_cons_self
    obtain ⟨p1, f1, f2, _, _⟩ := C70_fit (val := val) hsrt p Tx (hfit x List.mem_cons_self) (ho x.1)
    have hf : (percOps fo val pg srt order).fit p x.1 = Res.ok p1 := f1
    simp only [List.map_cons, ClassifierOps.fits, hf] at h
    obtain ⟨i1, i2⟩ := ih p1 (fun y hy => T y (List.mem_cons_of_mem _ hy))
      (fun y hy => by rw [f2]; exact hfit y (List.mem_cons_of_mem _ hy)) h
    obtain ⟨b1, b2, _⟩ := C144_perceptron hsrt p p1 Tx (ho x.1) f1
    refine ⟨?_, ?_⟩
    · rw [i1, b1]
      simp only [List.map_cons, List.sum_cons, List.length_cons]
      push_cast
      ring
    · rw [i2, b2, List.map_map]
      congr 1
      funext e
      simp only [Function.comp, List.map_cons, List.sum_cons]
      push_cast
      ring

/-! ## The discretising filters -/

/-- A binning filter that is trained again, after other attributes were chosen or not, is the filter that is trained once. -/
theorem C144_binning [FloorRing K] (val : U64 → K) {g : Grid} {n : Nat} (P : g.Presents n) (chosen : List Attr)
    (hsub : ∀ a ∈ chosen, a ∈ g.allAttributes) (order : List Nat) (old : GoMap Attr (Range K)) :
    (∀ m, binTrain val g chosen order = Res.ok m → ∃ m', binRetrain val g chosen order old = Res.ok m' ∧
      ∀ fmt bins all fresh, binFilter val fmt bins all chosen fresh m' = binFilter val fmt bins all chosen fresh m) ∧
    (∀ m', binRetrain val g chosen order old = Res.ok m' → ∃ m, binTrain val g chosen order = Res.ok m) := by
  have e : ∀ x, binTrain val g chosen order = x ↔ binRetrain val g chosen order [] = x := fun x => Iff.rfl
  constructor
  · intro m h
    obtain ⟨m', h1, h2⟩ := binRetrain_agree val P chosen hsub order [] old m ((e _).1 h)
    refine ⟨m', h1, ?_⟩
    intro fmt bins all fresh
    unfold binFilter
    rw [binTransform_agree val bins chosen h2]
    congr 1
    apply discAttrs_agree
    intro a ha
    unfold binNewLabels
    rw [h2 a ha]
  · intro m' h
    obtain ⟨m, h1, _⟩ := binRetrain_agree val P chosen hsub order old [] m' h
    exact ⟨m, (e _).2 h1⟩

/-- So is a ChiMerge filter. -/
theorem C144_chimerge (fo : FloatOps) (val : U64 → K) (below : Nat → K → Bool) (minrows maxrows : Int) {g : Grid} {n : Nat}
    (P : g.Presents n) (chosen : List Attr) (hsub : ∀ a ∈ chosen, a ∈ g.allAttributes) (order : List Nat)
    (old : GoMap Attr (List (FreqEntry K))) :
    (∀ m, chiTrain fo val below minrows maxrows g order chosen = Res.ok m →
      ∃ m', chiRetrain fo val below minrows maxrows g order chosen old = Res.ok m' ∧
        ∀ fmt all fresh, chiFilter val fmt all chosen fresh m' = chiFilter val fmt all chosen fresh m) ∧
    (∀ m', chiRetrain fo val below minrows maxrows g order chosen old = Res.ok m' →
      ∃ m, chiTrain fo val below minrows maxrows g order chosen = Res.ok m) := by
  constructor
  · intro m h
    obtain ⟨specs, h1, h2⟩ := Res.bind_eq_ok.1 h
    obtain ⟨m', h3, h4⟩ := chiTrainLoop_agree fo val below minrows maxrows g order specs [] old m h2
    have hmap := specs_chosen P hsub h1
    have hag : ∀ a ∈ chosen, m.get? a = m'.get? a := fun a ha => h4 a (Or.inr (hmap ▸ ha))
    refine ⟨m', by unfold chiRetrain; rw [h1, Res.bind_ok, h3], ?_⟩
    intro fmt all fresh
    unfold chiFilter
    congr 1
    · apply discAttrs_agree
      intro a ha
      unfold chiLabels
      rw [hag a ha]
    · funext a x raw
      unfold chiTransform
      by_cases ha : a ∈ chosen
      · rw [if_pos ha, if_pos ha, hag a ha]
      · rw [if_neg ha, if_neg ha]
  · intro m' h
    obtain ⟨specs, h1, h2⟩ := Res.bind_eq_ok.1 h
    obtain ⟨m, h3, _⟩ := chiTrainLoop_agree fo val below minrows maxrows g order specs old [] m' h2
    exact ⟨m, by unfold chiTrain; rw [h1, Res.bind_ok, h3]⟩
end

/-! ## The conversion filters -/

/-- A conversion filter that is trained again keeps the columns of the first call and adds those of all attributes once more: each column
of the first call is there twice. The values of the first columns are those of the filter that was trained once. -/
theorem C144_binary_filter (fresh : Nat → Nat) (k : Nat) (attrs more : List Attr) :
    (Conv.binaryAgain fresh (Conv.trainBinary fresh Conv.empty 0 attrs) k (attrs ++ more)).attrs.map (fun p => (p.old, p.new.body)) =
      attrs.flatMap (fun a => (outputBodies .bin Attr.isBin a).map fun b => (a, b)) ++
      (attrs ++ more).flatMap (fun a => (outputBodies .bin Attr.isBin a).map fun b => (a, b)) ∧
    ∀ p ∈ (Conv.binary fresh attrs).attrs, ∀ raw,
      (Conv.binaryAgain fresh (Conv.trainBinary fresh Conv.empty 0 attrs) k (attrs ++ more)).transform p.old p.new raw =
        (Conv.binary fresh attrs).transform p.old p.new raw := by
  constructor
  · have h := (keeps_binary fresh).columns' (attrs ++ more) (Conv.trainBinary fresh Conv.empty 0 attrs) k
    rw [(keeps_binary fresh).columns attrs Conv.empty 0] at h
    exact h
  · intro p hp raw
    have ha : p.old ∈ attrs := by
      rcases trains_old (trains_binary fresh) attrs Conv.empty 0 p hp with h | h
      · cases h
      · exact h
    obtain ⟨⟨q, b⟩, nw⟩ := p
    cases b with
    | float _ _ => rfl
    | bin _ => rfl
    | cat nm vs =>
      show (Conv.catBit _ _ _ _).map _ = (Conv.catBit _ _ _ _).map _
      rw [catBit_again (trains_binary fresh) ha rfl]

/-- The same for the filter that makes numbers. -/
theorem C144_float_filter (fresh : Nat → Nat) (k : Nat) (attrs more : List Attr) :
    (Conv.floatAgain fresh (Conv.trainFloat fresh Conv.empty 0 attrs) k (attrs ++ more)).attrs.map (fun p => (p.old, p.new.body)) =
      attrs.flatMap (fun a => (outputBodies (fun n => .float n 2) Attr.isFloat a).map fun b => (a, b)) ++
      (attrs ++ more).flatMap (fun a => (outputBodies (fun n => .float n 2) Attr.isFloat a).map fun b => (a, b)) ∧
    ∀ p ∈ (Conv.float fresh attrs).attrs, ∀ raw,
      (Conv.floatAgain fresh (Conv.trainFloat fresh Conv.empty 0 attrs) k (attrs ++ more)).transform p.old p.new raw =
        (Conv.float fresh attrs).transform p.old p.new raw := by
  constructor
  · have h := (keeps_float fresh).columns' (attrs ++ more) (Conv.trainFloat fresh Conv.empty 0 attrs) k
    rw [(keeps_float fresh).columns attrs Conv.empty 0] at h
    exact h
  · intro p hp raw
    have ha : p.old ∈ attrs := by
      rcases trains_old (trains_float fresh) attrs Conv.empty 0 p hp with h | h
      · cases h
      · exact h
    obtain ⟨⟨q, b⟩, nw⟩ := p
    cases b with
    | float _ _ => rfl
    | bin _ => rfl
    | cat nm vs =>
      show (Conv.catBit _ _ _ _).map _ = (Conv.catBit _ _ _ _).map _
      rw [catBit_again (trains_float fresh) ha rfl]

/-! ## Networks -/

/-- The whole claim for networks. -/
def C144_net_full (K : Type) [Field K] [LinearOrder K] : Prop :=
  ∀ (exp : K → K) (val : U64 → K) (bits : K → U64) (srt : List Spec → List Spec) (pg : Nat) (fitRun predRun : Grid → NetRun K),
    (∀ v, 0 < exp v) → PositionSort srt → (∀ g, (fitRun g).Allowed g) → (∀ g, (predRun g).Allowed g) →
    Forgets (netOps exp val bits srt pg fitRun predRun) Eq

section Examples

private theorem idSort : PositionSort (id : List Spec → List Spec) :=
  ⟨List.range, fun n => List.Perm.refl _, fun l => (filterMap_range_getElem? l).symm⟩

/-- A network does not forget: fitted twice to the same table, it panics instead of predicting. -/
theorem C144_net : ¬ C144_net_full Rat := by
  intro hall
  obtain ⟨g, D, _, ho, _⟩ := layered_example
  let run : Grid → NetRun Rat := fun g => ⟨fun i => 100 + i, id, id, fun _ => 0, fun _ => someOrder g⟩
  have R : ∀ g, (run g).Allowed g := fun g => ⟨fun _ => List.Perm.refl _, fun _ => List.Perm.refl _, fun _ => someOrder_rowOrder g⟩
  have hF := hall (fun _ => 1) (fun _ => 0) (fun _ => 0#64) id 4096 run run (fun _ => one_pos) idSort R R
  let m : MLNet Rat := newMLNet []
  obtain ⟨m1, m2, h1, h2, h3⟩ := C72_fit_twice (exp := fun _ => 1) (val := fun _ => 0) (bits := fun _ => 0#64) idSort 4096 m (run g) (run g)
    (run g) (g := g) (what := g) rfl D rfl (R g) D (R g) D rfl (R g) (by decide) (fun _ => Iff.rfl)
  obtain ⟨m', n2, ins, d, a1, _, _, _, a5, _⟩ := C72_reads (exp := fun _ => 1) (fun _ => one_pos) (val := fun _ => 0) (bits := fun _ => 0#64)
    idSort 4096 m (run g) (run g) (g := g) (what := g) rfl D rfl (R g) D rfl (R g) (fun _ => Iff.rfl)
  obtain ⟨m'', b1, b2⟩ := hF m m rfl [g] g m1 m2 (by
    have : (netOps (fun _ => 1) (fun _ => 0) (fun _ => 0#64) id 4096 run run).fit m g = Res.ok m1 := h1
    simp only [ClassifierOps.fits, this]) h2
  have e : m'' = m' := by
    have : m.fit (fun _ => 1) (fun _ => 0) id (run g) g = Res.ok m'' := b1
    rw [a1] at this
    simpa using this.symm
  subst e
  have := b2 g
  simp only [netOps, h3, a5, Res.map_ok] at this
  cases this

private def fa : Attr := ⟨0, .float "a" 2⟩
private def cc : Attr := ⟨1, .cat "c" ["x", "y"]⟩
private def pOps (u v : U64) : List Op := [.add fa, .add cc, .extend 2, .set 0 0 (packU64 u), .set 0 1 (packU64 v), .addClass cc]
private def fo0 : FloatOps := ⟨fun _ _ => "", fun _ _ => false⟩
private def v0 (u : U64) : Rat := (u.toNat : Rat)
private def p0 : Perceptron Rat := newPerceptron 1 (1 / 2) 0 1

/-- Fitted to the first table and then to the second, the perceptron gives row 0 of the second the value 1, and fitted to the second
only the value 0. -/
private def differ (g1 g2 : Grid) : Bool :=
  match p0.fit fo0 v0 id [0, 1] g1 with
  | .ok p1 =>
    match p1.fit fo0 v0 id [0, 1] g2, p0.fit fo0 v0 id [0, 1] g2 with
    | .ok p2, .ok q =>
      match p2.predict fo0 v0 4096 id [0, 1] g2, q.predict fo0 v0 4096 id [0, 1] g2 with
      | .ok (some d), .ok (some d') => decide ((Grid.dense d).cell cc 0 = stored 1 ∧ (Grid.dense d').cell cc 0 = stored 0)
      | _, _ => false
    | _, _ => false
  | _ => false

private theorem perc_tables : ∃ d1 d2 : Dense, d1.maxRow = 2 ∧ d2.maxRow = 2 ∧
    TwoClasses fo0 (.dense d1) 2 cc "x" "y" (fun _ => "x") ∧ TwoClasses fo0 (.dense d2) 2 cc "x" "y" (fun _ => "x") ∧
    (Grid.dense d1).nonClassFloats = [fa] ∧ (Grid.dense d2).nonClassFloats = [fa] ∧
    differ (.dense d1) (.dense d2) = true := by
  have hw : ∃ st st', run 4096 (pOps 0 0) = Res.ok st ∧ run 4096 (pOps 1 2) = Res.ok st' ∧
      (∀ op ∈ pOps 0 0, basicOp op = true) ∧ (∀ op ∈ pOps 1 2, basicOp op = true) ∧
      (addedAttrs (pOps 0 0)).Pairwise (fun a b => a.equals b = false) ∧ (addedAttrs (pOps 1 2)).Pairwise (fun a b => a.equals b = false) ∧
      totalRows (pOps 0 0) = 2 ∧ totalRows (pOps 1 2) = 2 ∧
      st.d.allClassAttributes = [cc] ∧ st'.d.allClassAttributes = [cc] ∧ cc ∈ st.d.allAttributes ∧ cc ∈ st'.d.allAttributes ∧
      (∀ r ∈ List.range 2, cc.getString fo0 ((Grid.dense st.d).cell cc r) = Res.ok "x") ∧
      (∀ r ∈ List.range 2, cc.getString fo0 ((Grid.dense st'.d).cell cc r) = Res.ok "x") ∧ st.d.maxRow = 2 ∧ st'.d.maxRow = 2 ∧
      (Grid.dense st.d).nonClassFloats = [fa] ∧ (Grid.dense st'.d).nonClassFloats = [fa] ∧
      differ (.dense st.d) (.dense st'.d) = true := by
    refine ⟨_, _, rfl, rfl, ?_, ?_, ?_, ?_, ?_, ?_, ?_, ?_, ?_, ?_, ?_, ?_, ?_, ?_, ?_, ?_, ?_⟩
    all_goals decide +kernel
  obtain ⟨st, st', r1, r2, b1, b2, e1, e2, t1, t2, c1, c2, k1, k2, l1, l2, m1, m2, f1, f2, w⟩ := hw
  have D1 := denseOK_run b1 r1 e1
  have D2 := denseOK_run b2 r2 e2
  rw [t1] at D1
  rw [t2] at D2
  exact ⟨st.d, st'.d, m1, m2, ⟨D1.presents, D1.typed, c1, ⟨"c", rfl⟩, k1, fun r hr => l1 r (List.mem_range.2 hr)⟩,
    ⟨D2.presents, D2.typed, c2, ⟨"c", rfl⟩, k2, fun r hr => l2 r (List.mem_range.2 hr)⟩, f1, f2, w⟩

/-- The perceptron does not forget: after a table of zeros it gives the rows of another table other classes. -/
theorem C144_perceptron_not : ¬ C144_perceptron_full Rat := by
  intro hall
  obtain ⟨d1, d2, m1, m2, _, _, _, _, w⟩ := perc_tables
  have hF := hall fo0 v0 4096 id someOrder idSort someOrder_rowOrder
  have o1 : someOrder (.dense d1) = [0, 1] := by unfold someOrder; rw [m1]; rfl
  have o2 : someOrder (.dense d2) = [0, 1] := by unfold someOrder; rw [m2]; rfl
  unfold differ at w
  split at w
  · rename_i q1 h1
    split at w
    · rename_i q2 q h2 h3
      split at w
      · rename_i x y h4 h5
        obtain ⟨w1, w2⟩ := of_decide_eq_true w
        obtain ⟨q', f1, f2⟩ := hF p0 p0 rfl [.dense d1] (.dense d2) q1 q2
          (by
            have : (percOps fo0 v0 4096 id someOrder).fit p0 (.dense d1) = Res.ok q1 := by
              simp only [percOps, o1, h1]
            simp only [ClassifierOps.fits, this])
          (by simp only [percOps, o2, h2])
        simp only [percOps, o2, h3, Res.ok.injEq] at f1
        subst f1
        have := f2 (.dense d2)
        simp only [percOps, o2, h4, h5, Res.bind_ok, Res.map_ok, Res.ok.injEq, Grid.dense.injEq] at this
        rw [this, w2] at w1
        exact absurd w1 (by decide)
      · cases w
    · cases w
  · cases w

/-- The hypotheses of the theorems about the perceptron are met: two tables of two rows. -/
example : ∃ g1 g2 : Grid, (∀ x ∈ [(g1, 2), (g2, 2)], ∃ c s0 s1 k, TwoClasses fo0 x.1 x.2 c s0 s1 k) ∧
    (∀ x ∈ [(g1, 2), (g2, 2)], p0.weights.length ≤ x.1.nonClassFloats.length) ∧ (∀ g : Grid, g.RowOrder (someOrder g)) ∧
    ∃ q, (percOps fo0 v0 4096 id someOrder).fits p0 [g1, g2] = Res.ok q ∧ q.count = 42 := by
  obtain ⟨d1, d2, _, _, T1, T2, f1, f2, _⟩ := perc_tables
  have hT : ∀ x ∈ [(Grid.dense d1, 2), (Grid.dense d2, 2)], ∃ c s0 s1 k, TwoClasses fo0 x.1 x.2 c s0 s1 k := by
    intro x hx
    simp only [List.mem_cons, List.not_mem_nil, or_false] at hx
    rcases hx with rfl | rfl
    · exact ⟨_, _, _, _, T1⟩
    · exact ⟨_, _, _, _, T2⟩
  have hl : ∀ x ∈ [(Grid.dense d1, 2), (Grid.dense d2, 2)], p0.weights.length ≤ x.1.nonClassFloats.length := by
    intro x hx
    simp only [List.mem_cons, List.not_mem_nil, or_false] at hx
    rcases hx with rfl | rfl
    · rw [f1]; decide
    · rw [f2]; decide
  refine ⟨_, _, hT, hl, someOrder_rowOrder, ?_⟩
  obtain ⟨p1, g1, g2, _⟩ := C70_fit (val := v0) idSort p0 T1 (by rw [f1]; decide) (someOrder_rowOrder _)
  obtain ⟨p2, g3, _⟩ := C70_fit (val := v0) idSort p1 T2 (by rw [f2, g2]; decide) (someOrder_rowOrder _)
  have h : (percOps fo0 v0 4096 id someOrder).fits p0 ([(Grid.dense d1, 2), (Grid.dense d2, 2)].map Prod.fst) = Res.ok p2 := by
    have a : (percOps fo0 v0 4096 id someOrder).fit p0 (.dense d1) = Res.ok p1 := g1
    have b : (percOps fo0 v0 4096 id someOrder).fit p1 (.dense d2) = Res.ok p2 := g3
    simp only [List.map_cons, List.map_nil, ClassifierOps.fits, a, b]
  obtain ⟨i1, _⟩ := C144_perceptron_count (val := v0) idSort 4096 someOrder_rowOrder p0 p2 _ hT hl h
  refine ⟨p2, h, ?_⟩
  rw [i1]
  simp only [List.map_cons, List.map_nil, List.length_cons, List.length_nil, List.sum_cons, List.sum_nil]
  decide +kernel

private def ba : Attr := ⟨0, .bin "b"⟩
private def bOps (cls : U64) : List Op := [.add ba, .add cc, .extend 1, .set 0 0 [1#8], .set 1 0 (packU64 cls), .addClass cc]

/-- Fitted to a table with the class x only, and then to one with the class y only, naive Bayes still has the probabilities of x. -/
private def stale (g1 g2 : Grid) : Bool :=
  match nbFit (K := Rat) fo0 id [0] id [] g1 with
  | .ok nb =>
    match nbFit fo0 id [0] id nb.condProb g2 with
    | .ok nb' => decide (nb'.inst.map Prod.fst = ["y"] ∧ nb'.condProb.get? "x" = some [1] ∧ nb'.condProb.get? "y" = some [1])
    | _ => false
  | _ => false

/-- The hypotheses of the theorems about naive Bayes are met. -/
example : ∃ st st', run 4096 (bOps 0) = Res.ok st ∧ run 4096 (bOps 1) = Res.ok st' ∧ stale (.dense st.d) (.dense st'.d) = true := by
  refine ⟨_, _, rfl, rfl, ?_⟩
  decide +kernel

/-- The hypotheses of the theorems about the discretising filters are met, by a table whose column has the numbers 1 and 2 and a filter
that was trained on other numbers. -/
example : ∃ st, run 4096 (pOps 1 2) = Res.ok st ∧ (Grid.dense st.d).Presents 2 ∧ (∀ a ∈ [fa], a ∈ (Grid.dense st.d).allAttributes) ∧
    binTrain v0 (.dense st.d) [fa] [0, 1] = Res.ok [(fa, ⟨some 1, some 2⟩)] ∧
    binRetrain v0 (.dense st.d) [fa] [0, 1] [(cc, ⟨some 0, some 3⟩), (fa, ⟨some 7, some 9⟩)] =
      Res.ok [(cc, ⟨some 0, some 3⟩), (fa, ⟨some 1, some 2⟩)] ∧
    (chiTrain fo0 v0 (fun _ _ => true) 0 0 (.dense st.d) [0, 1] [fa]).isOk = true := by
  have hw : ∃ st, run 4096 (pOps 1 2) = Res.ok st ∧ (∀ op ∈ pOps 1 2, basicOp op = true) ∧
      (addedAttrs (pOps 1 2)).Pairwise (fun a b => a.equals b = false) ∧ totalRows (pOps 1 2) = 2 ∧
      (∀ a ∈ [fa], a ∈ (Grid.dense st.d).allAttributes) ∧
      binTrain v0 (.dense st.d) [fa] [0, 1] = Res.ok [(fa, ⟨some 1, some 2⟩)] ∧
      binRetrain v0 (.dense st.d) [fa] [0, 1] [(cc, ⟨some 0, some 3⟩), (fa, ⟨some 7, some 9⟩)] =
        Res.ok [(cc, ⟨some 0, some 3⟩), (fa, ⟨some 1, some 2⟩)] ∧
      (chiTrain fo0 v0 (fun _ _ => true) 0 0 (.dense st.d) [0, 1] [fa]).isOk = true := by
    refine ⟨_, rfl, ?_, ?_, ?_, ?_, ?_, ?_, ?_⟩
    all_goals decide +kernel
  obtain ⟨st, h1, h2, h3, h4, h5⟩ := hw
  have D := denseOK_run h2 h1 h3
  rw [h4] at D
  exact ⟨st, h1, D.presents, h5⟩

/-- A filter that converts a category of three values, trained twice, has six columns, and the second three have the names of the first. -/
example : (Conv.floatAgain (fun i => 10 + i) (Conv.trainFloat (fun i => 10 + i) Conv.empty 0 [⟨0, .cat "x" ["p", "q", "r"]⟩]) 3
    [⟨0, .cat "x" ["p", "q", "r"]⟩]).attrs.map (fun p => (p.new.ptr, p.new.name)) =
    [(10, "x_p"), (11, "x_q"), (12, "x_r"), (13, "x_p"), (14, "x_q"), (15, "x_r")] := by decide +kernel

end Examples

end Golearn
