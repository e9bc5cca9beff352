import Verif.Proofs.MultiSvc
import Verif.Props.C79

/-! # C122: the linear support vector classifier for several classes -/

namespace Golearn

section
variable {K : Type} [Field K] [LinearOrder K]

/-- The constructor succeeds exactly for a documented combination whose form is the one asked for, and keeps what it was given; otherwise it
panics. -/
theorem C122_constructor (loss penalty : String) (dual : Bool) (c eps : K) (weights : Option (GoMap String K)) :
    (∀ s, svcTable loss penalty dual = some (s, dual) → newMultiSvc loss penalty dual c eps weights =
      Res.ok ⟨{ solver := s, weights := none, c := c, eps := eps, auto := false, dual := dual }, weights⟩) ∧
    ((∀ s, svcTable loss penalty dual ≠ some (s, dual)) → newMultiSvc loss penalty dual c eps weights = Res.panic) := by
  constructor
  · intro s h
    obtain ⟨h1, h2⟩ := C79_documented (K := K) ⟨0, none, c, eps, false, dual⟩ loss penalty s dual h
    unfold newMultiSvc
    simp only
    rw [h2.2 rfl, h1]
  · intro h
    have := C79_accepts_partial (K := K) ⟨0, none, c, eps, false, dual⟩ loss penalty
    simp only at this
    unfold newMultiSvc
    simp only
    split
    · rfl
    · next h' => exact absurd (this.1 h') (by rintro ⟨s, hs⟩; exact h s hs)

/-- The full property: after fitting, one linear model per class has been trained to tell the class from the others, and every row of data with
the attributes of the training data gets the first class whose model claims the row. -/
def MultiSvcFaithful (K : Type) [Field K] [LinearOrder K] : Prop :=
  ∀ (e : MultiEnv K) (g : Grid) (n : Nat) (c : Attr) (nm : String) (vs : List String) (lab : Nat → String) (conf : MultiConf K),
    e.Ok → MultiData e.fo g n c nm vs lab → n ≠ 0 → 2 ≤ vs.length → conf.params.auto = false →
    (∀ ws, conf.weights = some ws → (ws.map Prod.fst).Nodup) →
    ∃ fs : List Attr, fs.Perm g.nonClassFloats ∧ ∃ models : String → LModel K,
      (∀ s ∈ vs, TellsClass e.solve e.val g n lab fs ⟨conf.params.solver, conf.params.c, conf.params.eps⟩ (conf.weightsFor s) s (models s)) ∧
      ∃ m, multiFit e conf g = Res.ok m ∧
        ∀ (what : Grid) (k : Nat), MultiInput g what k c c nm vs → what.allAttributes = g.allAttributes →
          ∃ d, multiPredict e m what = Res.ok d ∧ d.maxRow = k ∧ d.allClassAttributes = [c] ∧
            ∀ r, r < k → ∃ j s, vs[j]? = some s ∧ getClass e.fo (.dense d) r = Res.ok s ∧
              FirstClaim vs.length (fun i => ∃ t, vs[i]? = some t ∧ Chooses (models t) (what.point e.val fs r) 1) j

/-- What holds of data that was read separately as well as of data with the attributes of the training data. Each row gets the value that has, in
the data's own list, the number of the first class whose model claims the row, with its negative numbers replaced by 0. -/
theorem C122_number [IsStrictOrderedRing K] (e : MultiEnv K) (g : Grid) (n : Nat) (c : Attr) (nm : String) (vs : List String) (lab : Nat → String)
    (conf : MultiConf K) (E : e.Ok) (D : MultiData e.fo g n c nm vs lab) (hn : n ≠ 0) (h2 : 2 ≤ vs.length) (hauto : conf.params.auto = false)
    (hws : ∀ ws, conf.weights = some ws → (ws.map Prod.fst).Nodup) :
    ∃ fs : List Attr, fs.Perm g.nonClassFloats ∧ ∃ models : String → LModel K,
      (∀ s ∈ vs, TellsClass e.solve e.val g n lab fs ⟨conf.params.solver, conf.params.c, conf.params.eps⟩ (conf.weightsFor s) s (models s)) ∧
      ∃ m, multiFit e conf g = Res.ok m ∧
        ∀ (what : Grid) (k : Nat) (cw : Attr) (nm' : String) (vs' : List String), MultiInput g what k c cw nm' vs' →
          ∃ fw : List Attr, fw.Perm what.nonClassFloats ∧ (what.nonClassFloats = g.nonClassFloats → fw = fs) ∧
          ∃ d, multiPredict e m what = Res.ok d ∧ d.maxRow = k ∧ d.allClassAttributes = [cw] ∧
            ∀ r, r < k → ∃ j, FirstClaim vs.length
                (fun i => ∃ t, vs[i]? = some t ∧ Chooses (models t) (positivePart (what.point e.val fw r)) 1) j ∧
              getClass e.fo (.dense d) r = (match vs'[j]? with | some s => Res.ok s | none => Res.panic) := by
  obtain ⟨fs, hfs, hsp, models, h3, m, hm, h4⟩ := multi_fit E D hn h2 conf hauto hws
  refine ⟨fs, hfs, models, fun s hs => (h3 s hs).1, m, hm, ?_⟩
  intro what k cw nm' vs' W
  obtain ⟨fw, hfw, hspw⟩ : ∃ fw : List Attr, fw.Perm what.nonClassFloats ∧ (∀ sp : Attr → Spec, e.srt (what.nonClassFloats.map sp) = fw.map sp) ∧
      (what.nonClassFloats = g.nonClassFloats → fw = fs) := by
    by_cases heq : what.nonClassFloats = g.nonClassFloats
    · exact ⟨fs, by rw [heq]; exact hfs, by rw [heq]; exact hsp, fun _ => rfl⟩
    · obtain ⟨fw, h5, h6⟩ := positionSort_attrs E.sort what.nonClassFloats
      exact ⟨fw, h5, h6, fun h => absurd h heq⟩
  exact ⟨fw, hfw, hspw.2, multi_predict E D hn conf h3 hm h4 W hfw hspw.1⟩

/-- For data with the attributes of the training data every row gets a class. The models see the row with its negative numbers replaced by 0.
Missing: rows with negative numbers are not judged by all of their numbers. -/
theorem C122_predicts_partial [IsStrictOrderedRing K] (e : MultiEnv K) (g : Grid) (n : Nat) (c : Attr) (nm : String) (vs : List String)
    (lab : Nat → String) (conf : MultiConf K) (E : e.Ok) (D : MultiData e.fo g n c nm vs lab) (hn : n ≠ 0) (h2 : 2 ≤ vs.length)
    (hauto : conf.params.auto = false) (hws : ∀ ws, conf.weights = some ws → (ws.map Prod.fst).Nodup) :
    ∃ fs : List Attr, fs.Perm g.nonClassFloats ∧ ∃ models : String → LModel K,
      (∀ s ∈ vs, TellsClass e.solve e.val g n lab fs ⟨conf.params.solver, conf.params.c, conf.params.eps⟩ (conf.weightsFor s) s (models s)) ∧
      ∃ m, multiFit e conf g = Res.ok m ∧
        ∀ (what : Grid) (k : Nat), MultiInput g what k c c nm vs → what.allAttributes = g.allAttributes →
          ∃ d, multiPredict e m what = Res.ok d ∧ d.maxRow = k ∧ d.allClassAttributes = [c] ∧
            ∀ r, r < k → ∃ j s, vs[j]? = some s ∧ getClass e.fo (.dense d) r = Res.ok s ∧
              FirstClaim vs.length (fun i => ∃ t, vs[i]? = some t ∧ Chooses (models t) (positivePart (what.point e.val fs r)) 1) j ∧
              ((∀ x ∈ what.point e.val fs r, 0 ≤ x) →
                FirstClaim vs.length (fun i => ∃ t, vs[i]? = some t ∧ Chooses (models t) (what.point e.val fs r) 1) j) := by
  obtain ⟨fs, hfs, models, h3, m, hm, h4⟩ := C122_number e g n c nm vs lab conf E D hn h2 hauto hws
  refine ⟨fs, hfs, models, h3, m, hm, ?_⟩
  intro what k W hat
  obtain ⟨fw, _, hfw, d, d1, d2, d3, d4⟩ := h4 what k c nm vs W
  have heq : what.nonClassFloats = g.nonClassFloats := by
    unfold Grid.nonClassFloats
    rw [hat, W.classAttr, D.classAttr]
  rw [hfw heq] at d4
  refine ⟨d, d1, d2, d3, fun r hr => ?_⟩
  obtain ⟨j, j1, j2⟩ := d4 r hr
  rw [List.getElem?_eq_getElem j1.1] at j2
  refine ⟨j, vs[j]'j1.1, List.getElem?_eq_getElem j1.1, j2, j1, fun hpos => ?_⟩
  have : positivePart (what.point e.val fs r) = what.point e.val fs r := by
    unfold positivePart
    conv_rhs => rw [← List.map_id (what.point e.val fs r)]
    exact List.map_congr_left fun x hx => max_eq_left (hpos x hx)
  rwa [this] at j1

/-- A class that has no weight although weights are configured is trained with the weight 0. -/
theorem C122_unlisted (conf : MultiConf K) (ws : GoMap String K) (hw : conf.weights = some ws) (s : String) (hs : s ∉ ws.map Prod.fst) :
    conf.weightsFor s = [(ws.map Prod.snd).sum, 0] := by
  unfold MultiConf.weightsFor
  rw [hw]
  simp only [sideWeights]
  rw [get?_eq_none_of_not_mem hs, List.filter_eq_self.2]
  · rfl
  · intro p hp
    simp only [ne_eq, decide_not, Bool.not_eq_eq_eq_not, Bool.not_true, decide_eq_false_iff_not]
    rintro rfl
    exact hs (List.mem_map_of_mem hp)

/-- Fitting on data without rows succeeds, and predicting then crashes for every data with a categorical class. -/
theorem C122_no_rows (e : MultiEnv K) (g : Grid) (p : Nat) (nm : String) (vs : List String) (conf : MultiConf K)
    (hcl : g.allClassAttributes = [⟨p, .cat nm vs⟩]) (hnd : vs.Nodup) (hb : vs.length ≤ 2 ^ 64) (h2 : 2 ≤ vs.length) (h0 : g.size.2 = 0) :
    ∃ m, multiFit e conf g = Res.ok m ∧ ∀ (what : Grid) (q : Nat) (nm' : String) (vs' : List String),
      what.allClassAttributes = [⟨q, .cat nm' vs'⟩] → multiPredict e m what = Res.panic := by
  have hfit : ∃ m, multiFit e conf g = Res.ok m := by
    obtain ⟨v, v1, v2⟩ := ovaHighest_eq vs hnd hb
    have hv0 : v ≠ 0#64 := by
      rintro rfl
      simp at v2
      omega
    unfold multiFit OneVsAll.fit
    rw [hcl]
    simp only [v1, Res.bind_ok, if_neg hv0]
    obtain ⟨cs, c1, _⟩ := mapRes_forall₂ (R := fun _ _ => True)
      (f := ovaTrain (e.train conf) vs g fun i =>
        (⟨ovaAttrs e.fresh g.allAttributes ⟨p, .cat nm vs⟩, ⟨p, .cat nm vs⟩, BitVec.ofNat 64 i⟩ : OvaFilter).filter (e.ordF i))
      (List.range (v.toNat + 1)) (by
        intro i hi
        have hi : i < vs.length := by have := List.mem_range.1 hi; omega
        simp only [ovaTrain, List.getElem?_eq_getElem hi, if_pos h0, MultiEnv.train]
        exact ⟨_, rfl, trivial⟩)
    rw [c1]
    exact ⟨_, rfl⟩
  obtain ⟨m, hm⟩ := hfit
  refine ⟨m, hm, ?_⟩
  intro what q nm' vs' hc
  obtain ⟨_, f1, f2, f3, f4, f5⟩ := ova_fit hcl rfl hnd hb hm
  obtain ⟨f, f6, f7⟩ := f5 0 vs[0] (List.getElem?_eq_getElem (by omega))
  rw [if_pos h0] at f7
  simp only [MultiEnv.train, Res.ok.injEq] at f7
  subst f7
  obtain ⟨ret, g1, _, _⟩ := generate_spec e.pg (g := what) rfl hc
  unfold multiPredict OneVsAll.predict
  rw [g1, Res.bind_ok, if_neg (by
    rintro (h | ⟨_, h⟩)
    · omega
    · rw [h] at f1; simp at f1; omega), List.range_succ_eq_map, mapRes]
  simp only [OneVsAll.ask, f4 0 (by omega), f6, Res.bind_panic]
end

section Example
private def aA : Attr := ⟨0, .float "a" 2⟩
private def aB : Attr := ⟨1, .float "b" 2⟩
private def aC : Attr := ⟨2, .cat "c" ["x", "y"]⟩
private def trainOps : List Op :=
  [.add aA, .add aB, .add aC, .addClass aC, .extend 2, .set 0 0 (packU64 1), .set 1 0 (packU64 1), .set 0 1 (packU64 2), .set 1 1 (packU64 2),
   .set 2 1 (packU64 1)]
private def whatOps : List Op :=
  [.add aA, .add aB, .add aC, .addClass aC, .extend 2, .set 0 0 (packU64 (-3)), .set 1 0 (packU64 1), .set 0 1 (packU64 0), .set 1 1 (packU64 5)]
private def val (u : U64) : Rat := if u = f64One then 1 else u.toInt
/-- A solver whose weights are the sum of the rows of the first label less the sum of the others. -/
private def solve : Solver Rat := fun sub _ _ _ _ j => (sub.map fun p => (if p.2 then 1 else -1) * entry p.1 j).sum
private def anOrder : Grid → List Nat
  | .dense d => List.range d.maxRow
  | .view src _ rows _ mask => if mask then (rows.getD []).map Prod.fst else anOrder src
  | .filt _ src _ _ => anOrder src
private theorem anOrder_ok : ∀ g : Grid, g.RowOrder (anOrder g)
  | .dense _ => rfl
  | .view src _ _ _ mask => by
    cases mask
    · simpa [Grid.RowOrder, anOrder] using anOrder_ok src
    · simp [Grid.RowOrder, anOrder]
  | .filt _ src _ _ => by simpa [Grid.RowOrder, anOrder] using anOrder_ok src
private def env : MultiEnv Rat where
  solve := solve
  toInt q := q.num
  fo := ⟨fun _ _ => "", fun _ _ => false⟩
  half := 0
  val := val
  enc i := if i = 1 then 1 else 0
  num u := some (u.toInt : Rat)
  srt := id
  pg := 4096
  order0 := anOrder
  order1 := anOrder
  order2 := anOrder
  orderP := anOrder
  ordF _ l := l
  ordP _ l := l
  fresh _ := 9
private theorem env_ok : env.Ok where
  sort := ⟨List.range, fun _ => List.Perm.refl _, fun l => (filterMap_range_getElem? l).symm⟩
  order0 := anOrder_ok
  order1 := anOrder_ok
  order2 := anOrder_ok
  orderP := anOrder_ok
  ordF _ l := List.Perm.refl l
  ordP _ l := List.Perm.refl l
  one := by decide +kernel
  zero := by decide +kernel
  readsOne := by decide +kernel
  readsZero := by decide +kernel
private def conf : MultiConf Rat := ⟨⟨3, none, 1, 1, false, true⟩, some [("x", 3), ("y", 2)]⟩

example : newMultiSvc "l1" "l2" true (1 : Rat) 1 (some [("x", 3), ("y", 2)]) = Res.ok conf :=
  (C122_constructor "l1" "l2" true (1 : Rat) 1 _).1 3 rfl

example : newMultiSvc "l1" "l2" false (1 : Rat) 1 none = Res.panic :=
  (C122_constructor "l1" "l2" false (1 : Rat) 1 _).2 (by intro s h; simp [svcTable] at h)

example : conf.weightsFor "x" = [2, 3] := by decide +kernel

private theorem tables : ∃ st sw : St,
    MultiData env.fo (.dense st.d) 2 aC "c" ["x", "y"] (fun r => if r = 0 then "x" else "y") ∧
    MultiInput (.dense st.d) (.dense sw.d) 2 aC aC "c" ["x", "y"] ∧ (Grid.dense sw.d).allAttributes = (Grid.dense st.d).allAttributes ∧
    (Grid.dense st.d).nonClassFloats = [aA, aB] ∧
    ((Grid.dense st.d).number env.val aA 0 = 1 ∧ (Grid.dense st.d).number env.val aB 0 = 1 ∧
      (Grid.dense st.d).number env.val aA 1 = 2 ∧ (Grid.dense st.d).number env.val aB 1 = 2 ∧
      (Grid.dense sw.d).number env.val aA 0 = -3 ∧ (Grid.dense sw.d).number env.val aB 0 = 1) ∧
    ((multiFit env conf (.dense st.d)).bind fun m => (multiPredict env m (.dense sw.d)).bind fun d =>
      getClass env.fo (.dense d) 0) = Res.ok "y" := by
  have h1 : ∃ st sw, run 4096 trainOps = Res.ok st ∧ (∀ op ∈ trainOps, basicOp op = true) ∧
      (addedAttrs trainOps).Pairwise (fun a b => a.equals b = false) ∧ totalRows trainOps = 2 ∧
      run 4096 whatOps = Res.ok sw ∧ (∀ op ∈ whatOps, basicOp op = true) ∧
      (addedAttrs whatOps).Pairwise (fun a b => a.equals b = false) ∧ totalRows whatOps = 2 ∧
      st.d.allAttributes = [aA, aB, aC] ∧ sw.d.allAttributes = [aA, aB, aC] ∧ st.d.allClassAttributes = [aC] ∧ sw.d.allClassAttributes = [aC] ∧
      getClass env.fo (.dense st.d) 0 = Res.ok "x" ∧ getClass env.fo (.dense st.d) 1 = Res.ok "y" ∧
      (Grid.dense st.d).nonClassFloats = [aA, aB] ∧ (Grid.dense sw.d).nonClassFloats = [aA, aB] ∧
      (Grid.dense st.d).number env.val aA 0 = 1 ∧ (Grid.dense st.d).number env.val aB 0 = 1 ∧
      (Grid.dense st.d).number env.val aA 1 = 2 ∧ (Grid.dense st.d).number env.val aB 1 = 2 ∧
      (Grid.dense sw.d).number env.val aA 0 = -3 ∧ (Grid.dense sw.d).number env.val aB 0 = 1 ∧
      ((multiFit env conf (.dense st.d)).bind fun m => (multiPredict env m (.dense sw.d)).bind fun d =>
        getClass env.fo (.dense d) 0) = Res.ok "y" := by
    refine ⟨_, _, rfl, ?_, ?_, ?_, rfl, ?_, ?_, ?_, ?_, ?_, ?_, ?_, ?_, ?_, ?_, ?_, ?_, ?_, ?_, ?_, ?_, ?_, ?_⟩ <;> decide +kernel
  obtain ⟨st, sw, a1, a2, a3, a4, b1, b2, b3, b4, c1, c2, c3, c4, c5, c6, c7, c8, c9, c10, c11, c12, c13, c14, c15⟩ := h1
  have D := denseOK_run a2 a1 a3
  have W := denseOK_run b2 b1 b3
  rw [a4] at D
  rw [b4] at W
  refine ⟨st, sw, ?_, ?_, c2.trans c1.symm, c7, ⟨c9, c10, c11, c12, c13, c14⟩, c15⟩
  · refine ⟨D.presents, D.typed, D.1, c3, ?_, rfl, by decide, by decide, ?_, ?_⟩
    · show aC ∈ st.d.allAttributes
      rw [c1]; simp
    · intro r hr
      rcases (by omega : r = 0 ∨ r = 1) with rfl | rfl
      · exact c5
      · exact c6
    · intro a ha pr
      have ha : a ∈ st.d.allAttributes := ha
      rw [c1] at ha
      simp only [List.mem_cons, List.not_mem_nil, or_false] at ha
      rcases ha with rfl | rfl | rfl <;> simp [aA, aB, aC]
  · refine ⟨W.presents, W.typed, W.1, c4, ?_, rfl, ?_, Or.inl ⟨c2.trans c1.symm, rfl⟩⟩
    · show aC ∈ sw.d.allAttributes
      rw [c2]; simp
    · rw [c7, c8]; simp

/-- The hypotheses of the theorems are met by two rows with two numbers each, and by weights for both classes. -/
example : ∃ g what, MultiData env.fo g 2 aC "c" ["x", "y"] (fun r => if r = 0 then "x" else "y") ∧ env.Ok ∧
    MultiInput g what 2 aC aC "c" ["x", "y"] ∧ what.allAttributes = g.allAttributes ∧ (∀ ws, conf.weights = some ws → (ws.map Prod.fst).Nodup) := by
  obtain ⟨st, sw, h1, h2, h3, _⟩ := tables
  refine ⟨_, _, h1, env_ok, h2, h3, ?_⟩
  intro ws h
  simp only [conf, Option.some.injEq] at h
  subst h
  decide

/-- It is false of the code: a row with a negative number gets the other class. -/
theorem C122_refuted : ¬ MultiSvcFaithful Rat := by
  intro H
  obtain ⟨st, sw, D, W, hat, hnf, ⟨n1, n2, n3, n4, n5, n6⟩, hcode⟩ := tables
  obtain ⟨fs, hfs, models, h1, m, hm, h2⟩ := H env (.dense st.d) 2 aC "c" ["x", "y"] _ conf env_ok D (by decide) (by decide) rfl (by
    intro ws h
    simp only [conf, Option.some.injEq] at h
    subst h
    decide)
  obtain ⟨d, d1, _, _, d2⟩ := h2 _ 2 W hat
  obtain ⟨j, s, j1, j2, j3⟩ := d2 0 (by decide)
  rw [hm, Res.bind_ok, d1, Res.bind_ok, j2, Res.ok.injEq] at hcode
  rw [hnf] at hfs
  have hlen : fs.length = 2 := hfs.length_eq
  have hp0 : (Grid.dense st.d).point env.val fs 0 = [1, 1] := by
    match fs, hlen with
    | [u, v], _ =>
      have hu : u ∈ [aA, aB] := hfs.subset (by simp)
      have hv : v ∈ [aA, aB] := hfs.subset (by simp)
      simp only [List.mem_cons, List.not_mem_nil, or_false] at hu hv
      rcases hu with rfl | rfl <;> rcases hv with rfl | rfl <;> simp [Grid.point, n1, n2]
  have hp1 : (Grid.dense st.d).point env.val fs 1 = [2, 2] := by
    match fs, hlen with
    | [u, v], _ =>
      have hu : u ∈ [aA, aB] := hfs.subset (by simp)
      have hv : v ∈ [aA, aB] := hfs.subset (by simp)
      simp only [List.mem_cons, List.not_mem_nil, or_false] at hu hv
      rcases hu with rfl | rfl <;> rcases hv with rfl | rfl <;> simp [Grid.point, n3, n4]
  have hpw : (Grid.dense sw.d).point env.val fs 0 = [-3, 1] ∨ (Grid.dense sw.d).point env.val fs 0 = [1, -3] := by
    match fs, hlen with
    | [u, v], _ =>
      have hu : u ∈ [aA, aB] := hfs.subset (by simp)
      have hv : v ∈ [aA, aB] := hfs.subset (by simp)
      have hnd : [u, v].Nodup := hfs.nodup_iff.2 (by decide)
      simp only [List.mem_cons, List.not_mem_nil, or_false] at hu hv
      rcases hu with rfl | rfl <;> rcases hv with rfl | rfl <;> simp [Grid.point, n5, n6] at hnd ⊢
  obtain ⟨nds, t1, t2, T⟩ := h1 "x" (by simp)
  match nds, t1 with
  | [nd0, nd1], _ =>
    obtain ⟨x0, y0, r0⟩ := t2 0 (by decide)
    obtain ⟨x1, y1, r1⟩ := t2 1 (by decide)
    simp only [List.getElem?_cons_zero, List.getElem?_cons_succ, Option.some.injEq] at y0 y1
    subst y0 y1
    rw [hp0] at r0
    rw [hp1] at r1
    have e0 : ∀ k, k < 2 → entry nd0 k = 1 := by
      intro k hk
      rw [r0.2.2 k hk]
      rcases (by omega : k = 0 ∨ k = 1) with rfl | rfl <;> rfl
    have e1 : ∀ k, k < 2 → entry nd1 k = 2 := by
      intro k hk
      rw [r1.2.2 k hk]
      rcases (by omega : k = 0 ∨ k = 1) with rfl | rfl <;> rfl
    have hlabs : ((List.range 2).map fun r => if (if r = 0 then "x" else "y") = "x" then (1 : Int) else 0) = [1, 0] := by decide
    rw [hlabs] at T
    have hmem : ∀ l, l ∈ (models "x").label ↔ l ∈ [(1 : Int), 0] := T.occur
    have hperm := (List.perm_ext_iff_of_nodup T.nodup (by decide : [(1 : Int), 0].Nodup)).2 hmem
    have hll : (models "x").label.length = 2 := hperm.length_eq
    have hw : ∀ l0 l1, (models "x").label = [l0, l1] → (l0 = 1 ∧ l1 = 0 ∧ ∀ k, k < 2 → (models "x").w k = -1) ∨
        (l0 = 0 ∧ l1 = 1 ∧ ∀ k, k < 2 → (models "x").w k = 1) := by
      intro l0 l1 hl
      obtain ⟨sub, s1, s2⟩ := T.two l0 l1 hl
      have hsum : ∀ k, (models "x").w k = ((oneVsRest [nd0, nd1] [1, 0] l0).map fun p => (if p.2 then (1 : Rat) else -1) * entry p.1 k).sum := by
        intro k
        rw [s2]
        exact (s1.map _).sum_eq
      have h0 : l0 ∈ (models "x").label := by rw [hl]; simp
      have h1 : l1 ∈ (models "x").label := by rw [hl]; simp
      have hne : l0 ≠ l1 := by
        have := T.nodup
        rw [hl] at this
        simpa using this
      rw [hmem] at h0 h1
      simp only [List.mem_cons, List.not_mem_nil, or_false] at h0 h1
      rcases h0 with rfl | rfl
      · refine Or.inl ⟨rfl, by omega, fun k hk => ?_⟩
        rw [hsum]
        simp [oneVsRest, e0 k hk, e1 k hk]
        norm_num
      · refine Or.inr ⟨rfl, by omega, fun k hk => ?_⟩
        rw [hsum]
        simp [oneVsRest, e0 k hk, e1 k hk]
        norm_num
    have hch : Chooses (models "x") ((Grid.dense sw.d).point env.val fs 0) 1 := by
      refine ⟨?_, fun h => absurd hll h⟩
      intro l0 l1 hl
      have hwe : ∀ x, (models "x").w 0 = x → (models "x").w 1 = x → weigh (models "x").w ((Grid.dense sw.d).point env.val fs 0) = -2 * x := by
        intro x q0 q1
        rcases hpw with h | h <;> rw [h] <;> simp [weigh, List.range_succ, q0, q1] <;> ring
      rcases hw l0 l1 hl with ⟨rfl, rfl, w⟩ | ⟨rfl, rfl, w⟩
      · rw [hwe _ (w 0 (by decide)) (w 1 (by decide)), if_pos (by norm_num)]
      · rw [hwe _ (w 0 (by decide)) (w 1 (by decide)), if_neg (by norm_num)]
    have hj : j = 0 := by
      rcases j3.2 with ⟨_, h⟩ | ⟨h, _⟩
      · by_contra hne
        exact h 0 (Nat.pos_of_ne_zero hne) ⟨"x", rfl, hch⟩
      · exact h
    rw [hj] at j1
    simp at j1
    rw [← j1] at hcode
    revert hcode
    decide
end Example

end Golearn
