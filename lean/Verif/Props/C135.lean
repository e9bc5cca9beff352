import Verif.Proofs.ForestEval

/-! # C135: what is measured when a random forest is evaluated -/

namespace Golearn

section
variable {K : Type} [Field K] [LinearOrder K] [IsStrictOrderedRing K]

theorem part_normal {g : Grid} {cls : Attr} {v : Grid} {rows : List Nat} (V : Part g cls v rows) (hc : g.allClassAttributes = [cls]) :
    v.normalAttrs.Perm g.normalAttrs := by
  have h1 := C27_references v.allAttributes v.allClassAttributes _ _ (List.Perm.refl _) (List.Perm.refl _)
  have h2 := C27_references g.allAttributes g.allClassAttributes _ _ (List.Perm.refl _) (List.Perm.refl _)
  refine (List.perm_ext_iff_of_nodup h1.2.1 h2.2.1).2 fun a => ?_
  rw [h1.2.2.2, h2.2.2.2, V.classAttr, hc, V.attrs.mem_iff]

theorem forest_answers {e : ForestRun K} {g : Grid} {n : Nat} {lab : Nat → String} {val : U64 → K} {S : U64 → Prop} {q : Nat} {nm : String}
    {vs : List String} {features size : Nat} (E : e.Ok val S g.normalAttrs.length features size)
    (D : TreeData e.fo g n lab ⟨q, .cat nm vs⟩) (hS : g.FloatsIn n S) (hb : vs.length + n ≤ 2 ^ 64) (hsize : 0 < size)
    (hfeat : features ≤ g.normalAttrs.length) :
    AnswersWith e.fo (forestOps e features size) (fun _ => True) g n ⟨q, .cat nm vs⟩ (fun tr _ => tr ≠ [])
      (GrownFrom e.fo g ⟨q, .cat nm vs⟩ lab features size) (Elects (g.branch e.fo) size) := by
  intro s train test tr te _ hT hE hn hr htr
  have hr1 : ∀ r ∈ tr, r < n := fun r h => hr r (by simp [h])
  have hr2 : ∀ r ∈ te, r < n := fun r h => hr r (by simp [h])
  have hnorm := part_normal hT D.classAttr
  have T1 := treeData_shows D hr1 htr hT.presents hT.attrs hT.cells hT.width hT.classAttr
  have S1 : train.FloatsIn tr.length S := by
    intro a ha hf i hi
    have ha := hT.attrs.subset ha
    rw [hT.cells a ha i hi]
    exact hS a ha hf _ (hr1 _ (List.getElem_mem hi))
  have E1 : (e.env train).Ok tr.length val S := hT.presents.rows ▸ E.env train
  have hfit : forestFit train features size = Res.ok (features, size) := by
    unfold forestFit
    rw [hnorm.length_eq, if_neg (by omega)]
  have hfo := E.envFo train
  have G := C121_grows (e.env train) train tr.length (fun i => lab (tr.getD i 0)) ⟨q, .cat nm vs⟩ val S E1 (hfo ▸ T1) S1 features size
    e.fuel hfit (fun i j hi => by rw [hnorm.length_eq]; exact E.positions train i j hi) (fun i hi => E.enough train i hi)
  have G' : ∀ i, ∃ (sel : List Attr) (t : Tree), i < size →
      (forestTree (e.env train) features e.fuel train i = some (Res.ok (sel ++ [⟨q, .cat nm vs⟩], t)) ∧
      (sel.Pairwise fun a b => a.equals b = false) ∧ (∀ a ∈ sel, a ∈ train.allAttributes ∧ a ≠ ⟨q, .cat nm vs⟩) ∧
      (0 < features → sel.length = features) ∧ (features = 0 → ∀ a ∈ train.allAttributes, a ≠ ⟨q, .cat nm vs⟩ → a ∈ sel) ∧
      t.FitsSample (train.branch e.fo) (fun i => lab (tr.getD i 0)) ((e.env train).rows i) tr.length ∧
      t.AllRules fun r => r.attr ∈ sel) := by
    intro i
    by_cases hi : i < size
    · obtain ⟨sel, t, h⟩ := G i hi
      rw [hfo] at h
      exact ⟨sel, t, fun _ => h⟩
    · exact ⟨[], .leaf [] "", fun h => absurd h hi⟩
  choose sel t G' using G'
  have htr0 : 0 < tr.length := List.length_pos_of_ne_nil htr
  -- training
  have hmap : mapRes (fun i => ((forestTree (e.env train) features e.fuel train i).getD Res.panic).orPanic) (List.range size) =
      Res.ok ((List.range size).map fun i => (sel i ++ [⟨q, .cat nm vs⟩], t i)) := by
    apply mapRes_of_ok
    intro i hi
    rw [(G' i (List.mem_range.1 hi)).1]
    rfl
  set attrsOf : Nat → List Attr := fun i =>
    (((List.range size).map fun i => (sel i ++ [(⟨q, .cat nm vs⟩ : Attr)], t i)).map Prod.fst).getD i [] with hattrs
  have hattrs' : ∀ i, i < size → attrsOf i = sel i ++ [⟨q, .cat nm vs⟩] := by
    intro i hi
    simp [hattrs, List.getD, hi]
  obtain ⟨R1, R2⟩ := fit_runs (attrs := attrsOf) (pick := e.fitPick train) size (fun k s h => E.fitPick train k attrsOf s h)
  set fs := (FitState.start size).runBy attrsOf (e.fitPick train) (3 * size + 1) 0 with hfs
  have hsel : ∀ i, fs.selected.get? i = if i < size then some (sel i ++ [⟨q, .cat nm vs⟩]) else none := by
    intro i
    rw [R2 i]
    by_cases hi : i < size
    · rw [if_pos hi, if_pos hi, hattrs' i hi]
    · rw [if_neg hi, if_neg hi]
  have htrain : forestTrain e features size train = Res.ok ((List.range size).map t, fs.selected) := by
    unfold forestTrain
    rw [hmap]
    simp only [Res.bind_ok]
    rw [← hattrs, ← hfs, if_pos R1, List.map_map]
    rfl
  -- asking
  have hte : te.length ≤ n := by
    have h := ((List.nodup_append.1 hn).2.1.subperm (l₂ := List.range n) fun r h => List.mem_range.2 (hr2 r h)).length_le
    simpa using h
  have Ty := hE.typed D.typed hr2
  have Re : test.Readable e.fo te.length := by
    intro a ha i hi
    have ha := hE.attrs.subset ha
    rw [hE.cells a ha i hi]
    exact D.readable a ha _ (hr2 _ (List.getElem_mem hi))
  have W : TreeInput e.fo test te.length train.allAttributes :=
    ⟨hE.presents, Ty, Re, ⟨q, nm, vs, hE.classAttr, by omega⟩,
      fun a ha => ⟨a, hE.attrs.symm.subset (hT.attrs.subset ha), C28_equals_refl a, rfl⟩⟩
  have hgrown : GrownForest (e.env train) features e.fuel size train (fun i => sel i ++ [⟨q, .cat nm vs⟩]) t :=
    fun i hi => (G' i hi).1
  obtain ⟨ans, p1, p2⟩ := forest_predicts E1 (hfo ▸ T1) S1 hgrown (what := test) (m := te.length) (hfo.symm ▸ W) (hE.distinct D.distinct)
    ⟨_, hE.classAttr, C28_equals_refl _⟩ (p := e.pred test) (fun i => by rw [hfo]; exact E.pred test i) (srt := e.srt) E.sort hsel
  rw [hfo] at p1 p2
  set b := treesBag (e.pred test) ((List.range size).map t) fs.selected with hbdef
  have hlen : b.classifiers.length = size := by simp [hbdef, treesBag]
  set pl := b.pipeline e.fo e.srt e.cpus (e.ord test) test with hpl
  obtain ⟨more, m1, m2⟩ := pl.runBy_exec (e.pick test) (pl.start []) (by
    intro sched s h hd k
    exact E.pick test k pl s rfl hlen ((C64_no_deadlock p1 E.sort E.cpus (E.rowOrder test) h).2 hd)) (5 * size + e.cpus + 4) 0 (pl.start []) [] rfl
  rw [List.nil_append] at m1
  have hdone : (pl.runBy (e.pick test) (5 * size + e.cpus + 4) 0 (pl.start [])).pos = .done := by
    rcases m2 with h | h
    · exact h
    · refine (C64_terminates p1 E.sort E.cpus (E.rowOrder test) m1).2.2 ?_
      rw [hlen, h]
  obtain ⟨d, d1, d2, d3⟩ := C65_majority (parse := e.parse) (pg := e.pg) p1 E.sort hE.presents.rows hE.classAttr (by omega)
    (by rw [hlen]; exact hsize) E.cpus (E.rowOrder test) (E.rowsOrder test) (E.classOrder test) m1 hdone
  rw [hlen] at d3
  have hask : forestAsk e ((List.range size).map t) fs.selected test = Res.ok d := by
    unfold forestAsk
    simp only [List.length_map, List.length_range]
    rw [← hbdef, ← hpl, if_pos hdone]
    exact d1
  refine ⟨some ((List.range size).map t, fs.selected), some ((List.range size).map t, fs.selected), .dense d, t, ?_, ?_, trivial, d2, ?_, ?_⟩
  · simp only [forestOps, hfit, Res.bind_ok, htrain, Res.map_ok]
  · simp only [forestOps, hask, Res.map_ok]
  · intro i hi
    obtain ⟨_, g2, g3, g4, g5, g6, g7⟩ := G' i hi
    refine ⟨(e.env train).rows i, sel i, E1.drawn i, ?_, g7, g2, fun a ha => ⟨hT.attrs.subset (g3 a ha).1, (g3 a ha).2⟩, g4,
      fun h0 a ha hne => g5 h0 a (hT.attrs.symm.subset ha) hne⟩
    exact fitsSample_congr (E1.drawn i) (t i) g6
      (allRules_imp (fun r h j hj => branch_shows hT.cells r (hT.attrs.subset (g3 _ h).1) j hj) _ g7)
  · intro j hj
    obtain ⟨c, c1, c2, c3⟩ := d3 j hj
    refine ⟨c, ⟨fun i => ans i j, ?_, c2, ?_⟩, c1⟩
    · intro i hi
      obtain ⟨part, a1, a2⟩ := p2 i hi
      obtain ⟨a3, _⟩ := a2 j hj
      obtain ⟨_, g2, g3, g4, g5, g6, g7⟩ := G' i hi
      have hin : ∀ a ∈ sel i ++ [(⟨q, .cat nm vs⟩ : Attr)], a ∈ test.allAttributes := by
        intro a ha
        rcases List.mem_append.1 ha with h | h
        · exact hE.attrs.symm.subset (hT.attrs.subset (g3 a h).1)
        · rw [List.mem_singleton.1 h]; exact hE.classIn D.classIn
      obtain ⟨l, hl⟩ := hE.presents.resolve_total hin
      obtain ⟨r1, r2⟩ := hE.presents.resolves hin ⟨l, hl, E.sort l⟩
      have hpart : part = Grid.viewFromAttrs test (e.srt l) := by
        have : b.predictionInstances e.srt i test = Res.ok (Grid.viewFromAttrs test (e.srt l)) := by
          simp only [Bagged.predictionInstances, hbdef, treesBag, hsel i, if_pos hi, Option.getD_some, Grid.resolve, hl, Res.map_ok]
        rw [a1, Res.ok.injEq] at this
        exact this
      subst hpart
      obtain ⟨V1, V2⟩ := attrs_presents hE.presents (hE.distinct D.distinct) r2
      have hsub : ∀ a ∈ (e.srt l).map Spec.attr, a ∈ test.allAttributes := fun a ha => hin a (r1.mem_iff.1 ha)
      obtain ⟨c', k1, k2⟩ := treeClass_leads_sample (fo := e.fo) V1
        (fun a ha r hr => by rw [V2 a ha]; exact Ty a (hsub a ha) r hr)
        (fun a ha r hr => by rw [V2 a ha]; exact Re a (hsub a ha) r hr)
        (ord := (e.pred test i).ord j) ((E.pred test i).1.children j) hj (key := g.branch e.fo) (r' := te[j]) htr0 (t i) g6
        (allRules_imp (fun r h => by
          have hm : r.attr ∈ (e.srt l).map Spec.attr := r1.mem_iff.2 (List.mem_append_left _ h)
          refine ⟨hm, ?_⟩
          have h1 := branch_shows (fo := e.fo) hE.cells r (hT.attrs.subset (g3 _ h).1) j hj
          rw [List.getD_eq_getElem _ _ hj] at h1
          rw [← h1]
          unfold Grid.branch
          rw [V2 _ hm]) _ g7)
      rw [a3, Res.ok.injEq] at k1
      show (t i).Leads _ _ (ans i j)
      rw [k1]
      exact k2
    · intro c'
      have : ∀ c, ((List.range size).countP fun i => decide (ans i j = c)) = votesFor size ans j c := by
        intro c
        unfold votesFor
        rw [List.countP_eq_length_filter]
        congr 1
      rw [this, this]
      exact c3 c'

theorem grownFrom_known {fo : FloatOps} {draw : Nat → Nat} {n folds : Nat} (hdraw : ∀ i, i < n → draw i < folds) {f : Nat} (hf : f < folds)
    {g : Grid} {cls : Attr} {lab : Nat → String} {features size : Nat} {t : Nat → Tree}
    (h : GrownFrom fo g cls lab features size (otherRows draw n folds f) t) :
    ∃ known : List Nat, known.Perm ((List.range n).filter fun r => decide (draw r ≠ f)) ∧ GrownFrom fo g cls lab features size known t :=
  ⟨_, otherRows_perm hdraw hf, h⟩

instance : Nonempty (Nat → Tree) := ⟨fun _ => .leaf [] ""⟩

/-- Cross validation with `folds` folds of a random forest of `size` trees with `features` features each, on any table of training
data with exact numbers, for every random assignment of rows to folds that leaves a row outside each fold, all draws and all
schedules of the goroutines: it succeeds with one matrix for each fold, which counts exactly the rows of the fold, with their own
label and the label given to them. For each fold there is one forest, grown from the rows outside the fold only, and the label of
each row of the fold is elected by its trees. -/
theorem C135_forest (e : ForestRun K) (g : Grid) (n : Nat) (lab : Nat → String) (val : U64 → K) (S : U64 → Prop) (q : Nat) (nm : String)
    (vs : List String) (features size : Nat) (E : e.Ok val S g.normalAttrs.length features size)
    (D : TreeData e.fo g n lab ⟨q, .cat nm vs⟩) (hS : g.FloatsIn n S) (hb : vs.length + n ≤ 2 ^ 64) (hsize : 0 < size)
    (hfeat : features ≤ g.normalAttrs.length) (srt : List Spec → List Spec) (hsrt : ∀ l, (srt l).Perm l) (draw : Nat → Nat) (folds : Nat)
    (hdraw : ∀ i, i < n → draw i < folds) (hk : ∀ f, f < folds → ∃ r, r < n ∧ draw r ≠ f)
    (old : Option (List Tree × GoMap Nat (List Attr))) :
    ∃ ms, ∃ (c : Nat → String) (t : Nat → Nat → Tree), crossValidate e.fo srt (forestOps e features size) old g draw folds = Res.ok ms ∧
      ms.length = folds ∧
      (∀ f (h : f < ms.length), Counts ms[f] (((List.range n).filter fun r => decide (draw r = f)).map fun r => (lab r, c r))) ∧
      (∀ f, f < folds → ∃ known : List Nat, known.Perm ((List.range n).filter fun r => decide (draw r ≠ f)) ∧
        GrownFrom e.fo g ⟨q, .cat nm vs⟩ lab features size known (t f)) ∧
      ∀ r, r < n → Elects (g.branch e.fo) size (t (draw r)) r (c r) := by
  obtain ⟨ms, c, t, h1, h2, h3, h4, h5⟩ := crossValidate_with (forest_answers E D hS hb hsize hfeat) D.rows D.distinct D.classAttr D.classIn
    D.label hsrt hdraw (fun f hf => otherRows_ne hdraw hf (hk f hf)) (s := old) trivial
  exact ⟨ms, c, t, h1, h2, fun f h => foldRows_eq draw n f ▸ h3 f h, fun f hf => grownFrom_known hdraw hf (h4 f hf), h5⟩

/-- A split of dense instances into training and test data, training a random forest and evaluating it: unless there is no training
row, the matrix counts exactly the test rows, with their own label and the label elected by the trees of one forest, grown from the
training rows only. -/
theorem C135_split (e : ForestRun K) (d : Dense) (n : Nat) (DO : DenseOK n d) (lab : Nat → String) (val : U64 → K) (S : U64 → Prop)
    (q : Nat) (nm : String) (vs : List String) (features size : Nat) (E : e.Ok val S (Grid.dense d).normalAttrs.length features size)
    (D : TreeData e.fo (.dense d) n lab ⟨q, .cat nm vs⟩) (hS : (Grid.dense d).FloatsIn n S) (hb : vs.length + n ≤ 2 ^ 64) (hsize : 0 < size)
    (hfeat : features ≤ (Grid.dense d).normalAttrs.length) (srt : List Spec → List Spec) (hsrt : ∀ l, (srt l).Perm l)
    (draw coin : Nat → Nat) (hdraw : ∀ i, draw i ≤ i) (share : Int) (old : Option (List Tree × GoMap Nat (List Attr))) :
    ∃ train test src tr te, trainTestSplit srt draw coin share (.dense d) = Res.ok (train, test, src) ∧
      (tr ++ te).Perm (List.range n) ∧ tr.length = ((List.range n).countP fun i => decide ((coin i : Int) > share)) ∧
      (tr ≠ [] → ∃ s1 s2 gen cm, ∃ (c : Nat → String) (t : Nat → Tree), (forestOps e features size).fit old train = Res.ok s1 ∧
        (forestOps e features size).predict s1 test = Res.ok (s2, gen) ∧ getConfusionMatrix e.fo test gen = Res.ok cm ∧
        Counts cm (te.map fun r => (lab r, c r)) ∧ GrownFrom e.fo (.dense d) ⟨q, .cat nm vs⟩ lab features size tr t ∧
        ∀ r ∈ te, Elects ((Grid.dense d).branch e.fo) size t r (c r)) :=
  split_with (forest_answers E D hS hb hsize hfeat) DO D.classAttr D.classIn D.label hsrt draw coin hdraw share (s := old) trivial

/-- With more features than the data has attributes that are not class attributes, training and evaluating is refused. -/
theorem C135_features (e : ForestRun K) (fo : FloatOps) (g : Grid) (n : Nat) (cls : Attr) (P : g.Presents n) (hd : g.distinct)
    (hc : g.allClassAttributes = [cls]) (hin : cls ∈ g.allAttributes) (features size : Nat) (hfeat : g.normalAttrs.length < features)
    (srt : List Spec → List Spec) (hsrt : ∀ l, (srt l).Perm l) (draw : Nat → Nat) (folds : Nat) (hf : 0 < folds)
    (hdraw : ∀ i, i < n → draw i < folds) (old : Option (List Tree × GoMap Nat (List Attr))) :
    crossValidate fo srt (forestOps e features size) old g draw folds = Res.err := by
  obtain ⟨l, hl'⟩ := P.resolve_total (attrs := g.allAttributes) (fun a h => h)
  have hres : g.resolve srt g.allAttributes = Res.ok (srt l) := by
    unfold Grid.resolve
    rw [hl']
    rfl
  obtain ⟨hp, _⟩ := (C39_folds_partition draw n folds hdraw).2 0 hf
  have V := visible_part P hd hc hin hsrt hres (rows := otherRows draw n folds 0) fun r hr => List.mem_range.1 (hp.subset (by simp [hr]))
  have : (forestOps e features size).fit old (Grid.viewFromVisible g (otherRows draw n folds 0) (srt l)) = Res.err := by
    show (forestFit _ features size).bind _ = Res.err
    unfold forestFit
    rw [(part_normal V hc).length_eq, if_pos hfeat]
    rfl
  obtain ⟨m, rfl⟩ : ∃ m, folds = m + 1 := ⟨folds - 1, by omega⟩
  unfold crossValidate
  rw [if_neg (by omega), List.range_succ_eq_map]
  simp only [crossLoop, hres, Res.bind_ok, P.rows, this]
  rfl

end

/-! ## Schedulers -/

/-- A scheduler for `Fit`: the main goroutine if it can move, or else the first one that can. -/
def firstFitter (s : FitState) : Option Nat :=
  if (s.step (fun _ => []) none).isSome then none
  else (List.range s.fitters.length).find? fun i => (s.step (fun _ => []) (some i)).isSome

/-- A scheduler for `Predict`: the main goroutine if it can move, or else the collector, or else the first worker that can. -/
def firstThread (cpus models : Nat) (s : PipeState Grid (GoMap Nat (GoMap String Nat))) : Thread :=
  let p : Pipeline Grid (GoMap Nat (GoMap String Nat)) := ⟨cpus, models, fun _ => some none, fun _ t _ => some t⟩
  if (p.step s .main).isSome then .main
  else if (p.step s .collector).isSome then .collector
  else .worker (((List.range s.workers.length).find? fun w => (p.step s (.worker w)).isSome).getD 0)

theorem fitStep_attrs (a b : Nat → List Attr) (s : FitState) (t : Option Nat) : (s.step a t).isSome = (s.step b t).isSome := by
  cases t with
  | none => simp only [FitState.step]
  | some i =>
    simp only [FitState.step]
    split <;> rfl

theorem firstFitter_ok (attrs : Nat → List Attr) (s : FitState) (h : ∃ t s', s.step attrs t = some s') :
    ∃ s', s.step attrs (firstFitter s) = some s' := by
  rw [← Option.isSome_iff_exists]
  obtain ⟨t, s', h⟩ := h
  have h : (s.step attrs t).isSome := by rw [h]; rfl
  rw [fitStep_attrs attrs fun _ => []] at h ⊢
  unfold firstFitter
  by_cases hn : (s.step (fun _ => []) none).isSome = true
  · rw [if_pos hn]; exact hn
  · rw [if_neg hn]
    cases t with
    | none => exact absurd h hn
    | some i =>
      have hi : i < s.fitters.length := by
        by_contra hi
        simp only [FitState.step, List.getElem?_eq_none (Nat.le_of_not_lt hi)] at h
        cases h
      cases hf : (List.range s.fitters.length).find? fun i => (s.step (fun _ => []) (some i)).isSome with
      | none =>
        have := List.find?_eq_none.1 hf i (List.mem_range.2 hi)
        exact absurd h this
      | some j =>
        have := List.find?_some hf
        exact this

theorem step_isSome {V σ : Type} {p p' : Pipeline V σ} (h1 : p.cpus = p'.cpus) (h2 : p.models = p'.models) (s : PipeState V σ) (t : Thread) :
    (p.step s t).isSome = (p'.step s t).isSome := by
  unfold Pipeline.step
  split
  · rfl
  · cases t with
    | main =>
      simp only [Pipeline.mainStep, h1, h2]
    | worker w =>
      simp only [Pipeline.workerStep, h1]
      split
      · rfl
      · cases p.predict _ <;> cases p'.predict _ <;> rfl
      · rfl
      · rfl
      · rfl
    | collector =>
      simp only [Pipeline.collectorStep]
      split
      · split
        · cases p.count _ _ _ <;> cases p'.count _ _ _ <;> rfl
        · rfl
      · rfl

theorem firstThread_ok (p : Pipeline Grid (GoMap Nat (GoMap String Nat))) (s : PipeState Grid (GoMap Nat (GoMap String Nat)))
    (h : ∃ t s', p.step s t = some s') : ∃ s', p.step s (firstThread p.cpus p.models s) = some s' := by
  rw [← Option.isSome_iff_exists]
  obtain ⟨t, s', h⟩ := h
  have h : (p.step s t).isSome := by rw [h]; rfl
  rw [step_isSome (p := p) (p' := ⟨p.cpus, p.models, fun _ => some none, fun _ t _ => some t⟩) rfl rfl] at h ⊢
  unfold firstThread
  simp only
  split
  · assumption
  · rename_i n1
    split
    · assumption
    · rename_i n2
      cases t with
      | main => exact absurd h n1
      | collector => exact absurd h n2
      | worker w =>
        have hi : w < s.workers.length := by
          by_contra hi
          simp only [Pipeline.step, Pipeline.workerStep, List.getElem?_eq_none (Nat.le_of_not_lt hi)] at h
          split at h <;> cases h
        cases hf : (List.range s.workers.length).find? fun w =>
            ((⟨p.cpus, p.models, fun _ => some none, fun _ t _ => some t⟩ : Pipeline Grid (GoMap Nat (GoMap String Nat))).step s (.worker w)).isSome with
        | none => exact absurd h (List.find?_eq_none.1 hf w (List.mem_range.2 hi))
        | some j =>
          have := List.find?_some hf
          exact this

section Examples
private def aX : Attr := ⟨0, .cat "x" ["p", "q"]⟩
private def aY : Attr := ⟨1, .cat "y" ["u", "v"]⟩
private def aC : Attr := ⟨2, .cat "c" ["a", "b"]⟩
/-- Four rows: p, u, a twice and q, v, b twice. -/
private def opsT : List Op :=
  [.add aX, .add aY, .add aC, .addClass aC, .extend 4, .set 0 2 (packU64 1), .set 1 2 (packU64 1), .set 2 2 (packU64 1),
   .set 0 3 (packU64 1), .set 1 3 (packU64 1), .set 2 3 (packU64 1)]

private def fo0 : FloatOps := ⟨fun _ _ => "", fun u v => decide (v.toNat < u.toNat)⟩

private noncomputable def env0 (v : Grid) : ForestEnv ℝ where
  fo := (exEnv (Real.logb 2)).fo
  srt := id
  attrs _ l := l
  pick _ j := j % 2
  rows _ r := v.size.2 - 1 - r
  order _ _ := someOrder
  classes _ _ l := l
  rule _ _ := exEnv (Real.logb 2)

private noncomputable def run0 : ForestRun ℝ where
  env := env0
  fuel := 2
  fitPick _ _ := firstFitter
  pred _ _ := ⟨fo0, fun _ => none, 4096, id, id, someOrder, fun _ l => l⟩
  srt := id
  cpus := 2
  ord _ _ := someOrder
  pick _ _ := firstThread 2 3
  fo := fo0
  parse _ := none
  pg := 4096
  ordRows _ l := l
  ords _ _ l := l

private theorem run0_ok : run0.Ok natVal (fun u => u.toNat % 2 = 0) 2 2 3 where
  env v := {
    sort := fun _ => List.Perm.refl _
    attrs := fun _ _ => List.Perm.refl _
    drawn := fun _ r hr => by
      show v.size.2 - 1 - r < v.size.2
      omega
    rowOrder := fun _ _ => someOrder_rowOrder
    classOrder := fun _ _ _ => List.Perm.refl _
    rule := fun _ _ => ⟨exEnv_ok logb_logarithm, rfl, exEnv_exact _⟩ }
  envFo _ := rfl
  positions _ _ j _ := Nat.mod_lt j (by decide)
  enough _ _ _ := by
    show 2 ≤ ((List.range 2).map fun j => j % 2).dedup.length
    decide
  fitPick _ _ attrs s h := firstFitter_ok attrs s h
  pred _ _ := ⟨⟨fun _ => List.Perm.refl _, fun _ => List.Perm.refl _, someOrder_rowOrder, fun _ _ => List.Perm.refl _⟩, rfl⟩
  sort _ := List.Perm.refl _
  cpus := by decide
  rowOrder _ _ := someOrder_rowOrder
  pick _ _ p s h1 h2 h := by
    have := firstThread_ok p s h
    rw [h1, h2] at this
    exact this
  rowsOrder _ _ := List.Perm.refl _
  classOrder _ _ _ := List.Perm.refl _

/-- The hypotheses of `C135_forest` and `C135_split` hold for a forest of three trees with two features each and four rows, with the
rows of even number in one fold and the others in the other. -/
example : ∃ tr, run 4096 opsT = Res.ok tr ∧ DenseOK 4 tr.d ∧ (Grid.dense tr.d).normalAttrs.length = 2 ∧
    run0.Ok natVal (fun u => u.toNat % 2 = 0) (Grid.dense tr.d).normalAttrs.length 2 3 ∧
    TreeData run0.fo (.dense tr.d) 4 (fun r => ["a", "a", "b", "b"].getD r "") aC ∧
    (Grid.dense tr.d).FloatsIn 4 (fun u => u.toNat % 2 = 0) ∧ ∀ f, f < 2 → ∃ r, r < 4 ∧ r % 2 ≠ f := by
  have e : ((run 4096 opsT).map fun tr => (treeCheck fo0 tr.d 4 ["a", "a", "b", "b"] aC, evenCheck tr.d 4,
      (Grid.dense tr.d).normalAttrs.length)) = Res.ok (true, true, 2) := by decide +kernel
  obtain ⟨tr, htr, e⟩ := Res.map_eq_ok.1 e
  simp only [Prod.mk.injEq] at e
  have Dt := denseOK_run (pg := 4096) (ops := opsT) (by decide) htr (by decide)
  refine ⟨tr, htr, Dt, e.2.2, ?_, treeData_dense Dt e.1, floatsIn_even e.2.1, fun f hf => ⟨1 - f, by omega, by omega⟩⟩
  rw [e.2.2]
  exact run0_ok
end Examples

end Golearn
