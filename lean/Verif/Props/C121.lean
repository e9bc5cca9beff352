import Verif.Proofs.ForestPredict

/-! # C121: growing a random forest and predicting with it -/

namespace Golearn

section
variable {K : Type} [Field K] [LinearOrder K] [IsStrictOrderedRing K]

theorem treeEnv_ok {e : ForestEnv K} {n : Nat} {val : U64 → K} {S : U64 → Prop} (E : e.Ok n val S) (i : Nat) :
    (e.treeEnv i).Ok S := by
  refine ⟨E.sort, E.rowOrder i, E.classOrder i, ?_⟩
  intro p
  obtain ⟨h1, h2, h3⟩ := E.rule i p
  have := C50_information_gain_chooses (e.rule i p) h1 val S h3
  rw [h2] at this
  exact this

/-- What growing model `i` gives once its attributes are selected. -/
theorem forestTree_spec {e : ForestEnv K} {g : Grid} {n : Nat} {lab : Nat → String} {cls : Attr} {val : U64 → K}
    {S : U64 → Prop} (E : e.Ok n val S) (D : TreeData e.fo g n lab cls) (hS : g.FloatsIn n S) {features fuel i : Nat}
    {sel : List Attr}
    (hsel : trainingAttrs (e.attrs i g.normalAttrs) g.allClassAttributes features (e.pick i) fuel = some (Res.ok sel)) :
    ∃ t, forestTree e features fuel g i = some (Res.ok (sel, t)) ∧ t.FitsSample (g.branch e.fo) lab (e.rows i) n ∧
      (t.AllRules fun r => r.attr ∈ sel ∧ r.attr ≠ cls) ∧ (sel.length = 2 → ∃ d c, t = .leaf d c) ∧
      (2 < sel.length → (∀ a ∈ sel, a.isFloat = false) → ∀ d c, t = .leaf d c →
        ∀ p, p < n → ∀ q, q < n → lab (e.rows i p) = lab (e.rows i q)) := by
  obtain ⟨chosen, hc, hd, hin, hlen, hall⟩ := C66_grid D.distinct (E.attrs i _) hsel
  rw [D.classAttr] at hc hin hall
  have hselin : ∀ a ∈ sel, a ∈ g.allAttributes := by
    intro a ha
    rw [hc] at ha
    rcases List.mem_append.1 ha with h | h
    · exact (hin a h).1
    · rw [List.mem_singleton.1 h]; exact D.classIn
  have hseld : sel.Pairwise fun a b => a.equals b = false := by
    rw [hc, List.pairwise_append]
    refine ⟨hd, List.pairwise_singleton _ _, ?_⟩
    intro a ha b hb
    rw [List.mem_singleton.1 hb]
    cases he : a.equals cls with
    | false => rfl
    | true =>
      have := distinct_eq D.distinct (hin a ha).1 D.classIn he
      exact absurd (by rw [this]; simp) (hin a ha).2
  have hchne : chosen ≠ [] := by
    by_cases hk : features = 0
    · intro h0
      have hall' := hall hk
      have hn := distinct_nodup D.distinct
      have hw := D.wide
      have hevery : ∀ a ∈ g.allAttributes, a = cls := by
        intro a ha
        by_contra hne
        have := hall' a ha (by simpa using hne)
        rw [h0] at this; cases this
      match hl : g.allAttributes, hw with
      | x :: y :: rest, _ =>
        rw [hl] at hevery hn
        have h1 := hevery x (by simp)
        have h2 := hevery y (by simp)
        rw [h1, h2] at hn
        simp at hn
    · intro h0
      have := hlen (by omega)
      rw [h0] at this
      simp at this; omega
  obtain ⟨sp, hsp⟩ := D.rows.resolve_total hselin
  obtain ⟨r1, r2⟩ := D.rows.resolves hselin ⟨sp, hsp, E.sort sp⟩
  have hspd : ((e.srt sp).map Spec.attr).Pairwise fun a b => a.equals b = false := distinct_perm r1.symm hseld
  have hlen2 : (e.srt sp).length = sel.length := by
    have := r1.length_eq
    rwa [List.length_map] at this
  have H := isSample D r2 hspd (r1.mem_iff.2 (by rw [hc]; simp)) (by
    rw [hlen2, hc, List.length_append, List.length_singleton]
    have := List.length_pos_of_ne_nil hchne
    omega) (E.drawn i)
  have hw : (Grid.viewFromVisible g ((List.range n).map (e.rows i)) (e.srt sp)).allAttributes = (e.srt sp).map Spec.attr := rfl
  obtain ⟨q1, q2, q3⟩ := E.rule i []
  have H' := H
  rw [← q2] at H'
  obtain ⟨t, t1, t2, t3, t4, t5⟩ := sample_tree (e := e.treeEnv i) (treeEnv_ok E i) H hS (sample_rule q1 H' ⟨q3, hS⟩)
  rw [hw, List.length_map, hlen2] at t4 t5
  refine ⟨t, ?_, t2, allRules_imp (fun r h => ⟨r1.mem_iff.1 h.1, h.2⟩) t t3, t4, ?_⟩
  · unfold forestTree
    rw [hsel, Option.map_some, Res.bind_ok, trainingInstances_eq D.rows D.nonempty hsp, Res.bind_ok]
    rw [show inferID3 (e.treeEnv i) (Grid.viewFromAttrs (Grid.viewFromRows g _) (e.srt sp)) = Res.ok t from t1, Res.map_ok]
  · intro h2 hcat
    refine t5 h2 ?_
    have hcat' : ∀ a ∈ (e.srt sp).map Spec.attr, a.isFloat = false := fun a ha => hcat a (r1.mem_iff.1 ha)
    obtain ⟨rule, hr, _⟩ := C50_categorical (e.rule i []) q1 _ _ _ _ H'.data hcat'
    exact ⟨rule, (sample_rule_cat H' q1 hcat').trans hr⟩

/-- For all data with exact numbers, all draws of rows, and draws of attributes that hit enough positions: every model selects
`features` attributes (all of them for zero) and the class attribute, and its tree is grown. Its nodes describe the rows that
were drawn, except that the root sends them to the branches of other rows. -/
theorem C121_grows (e : ForestEnv K) (g : Grid) (n : Nat) (lab : Nat → String) (cls : Attr) (val : U64 → K) (S : U64 → Prop)
    (E : e.Ok n val S) (D : TreeData e.fo g n lab cls) (hS : g.FloatsIn n S) (features size fuel : Nat)
    (hf : forestFit g features size = Res.ok (features, size))
    (hpick : ∀ i j, i < size → e.pick i j < g.normalAttrs.length)
    (hmany : ∀ i, i < size → features ≤ ((List.range fuel).map (e.pick i)).dedup.length) :
    ∀ i, i < size → ∃ sel t, forestTree e features fuel g i = some (Res.ok (sel ++ [cls], t)) ∧
      (sel.Pairwise fun a b => a.equals b = false) ∧ (∀ a ∈ sel, a ∈ g.allAttributes ∧ a ≠ cls) ∧
      (0 < features → sel.length = features) ∧ (features = 0 → ∀ a ∈ g.allAttributes, a ≠ cls → a ∈ sel) ∧
      t.FitsSample (g.branch e.fo) lab (e.rows i) n ∧ t.AllRules fun r => r.attr ∈ sel := by
  intro i hi
  have hp := E.attrs i g.normalAttrs
  have hmem := (C27_references g.allAttributes g.allClassAttributes _ _ (List.Perm.refl _) hp).2.2.2
  have hnd := (C27_references g.allAttributes g.allClassAttributes _ _ (List.Perm.refl _) hp).2.1
  obtain ⟨sel, hsel⟩ := C66_ends (attrs := e.attrs i g.normalAttrs) (cls := g.allClassAttributes) (k := features)
    (draw := e.pick i) (fuel := fuel) (by
      refine List.Nodup.pairwise_of_forall_ne hnd ?_
      intro a ha b hb hne
      cases he : a.equals b with
      | false => rfl
      | true => exact absurd (distinct_eq D.distinct ((hmem a).1 ha).1 ((hmem b).1 hb).1 he) hne) (by
      intro h0
      have := hpick i 0 hi
      rw [← hp.length_eq, h0] at this
      simp at this)
    (fun j => by rw [hp.length_eq]; exact hpick i j hi) (hmany i hi)
  obtain ⟨chosen, hc, h1, h2, h3, h4⟩ := C66_grid D.distinct hp hsel
  rw [D.classAttr] at hc h2 h4
  subst hc
  obtain ⟨t, t1, t2, t3, _⟩ := forestTree_spec E D hS hsel
  refine ⟨chosen, t, t1, h1, fun a ha => ⟨(h2 a ha).1, by simpa using (h2 a ha).2⟩, h3,
    fun hk a ha hne => h4 hk a ha (by simpa using hne), t2, allRules_imp (fun r h => ?_) t t3⟩
  rcases List.mem_append.1 h.1 with h' | h'
  · exact h'
  · exact absurd (List.mem_singleton.1 h') h.2

/-- If the rows drawn are the rows of the data in their order, the tree fits the data. -/
theorem C121_identity (key : Rule → Nat → String) (lab : Nat → String) (n : Nat) (t : Tree)
    (h : t.FitsSample key lab id n) : t.Fits key lab (List.range n) := by
  cases t with
  | leaf d c => simpa [Tree.FitsSample, Tree.Fits] using h
  | split d c r keys child =>
    simp only [Tree.FitsSample, List.map_id, id_eq] at h
    obtain ⟨h1, ⟨p, hp, q, hq, hne⟩, h3, h4, h5⟩ := h
    refine ⟨h1, ⟨p, List.mem_range.2 hp, q, List.mem_range.2 hq, hne⟩, h3, ?_, h5⟩
    intro k
    rw [h4 k]
    simp only [List.mem_range]

/-- With one feature for each tree, every tree is a leaf: its answer, a most frequent label of the rows drawn, is the same for
all rows. -/
theorem C121_one_feature (e : ForestEnv K) (g : Grid) (n : Nat) (lab : Nat → String) (cls : Attr) (val : U64 → K)
    (S : U64 → Prop) (E : e.Ok n val S) (D : TreeData e.fo g n lab cls) (hS : g.FloatsIn n S) (fuel i : Nat) (sel : List Attr)
    (t : Tree) (h : forestTree e 1 fuel g i = some (Res.ok (sel, t))) :
    ∃ d c, t = .leaf d c ∧ Majority (((List.range n).map (e.rows i)).map lab) c := by
  have h' := h
  unfold forestTree at h'
  rw [Option.map_eq_some_iff] at h'
  obtain ⟨r, hr, h'⟩ := h'
  rw [Res.bind_eq_ok] at h'
  obtain ⟨sel', rfl, h'⟩ := h'
  obtain ⟨chosen, hc, _, _, h3, _⟩ := C66_grid D.distinct (E.attrs i _) hr
  obtain ⟨t', t1, t2, _, t4, _⟩ := forestTree_spec E D hS hr
  rw [h, Option.some.injEq, Res.ok.injEq, Prod.mk.injEq] at t1
  obtain ⟨_, rfl⟩ := t1
  obtain ⟨d, c, rfl⟩ := t4 (by
    rw [hc, D.classAttr, List.length_append, h3 (by omega)]; rfl)
  exact ⟨d, c, rfl, t2.1⟩

/-! ## Predicting -/

/-- The models of a forest have been fitted: model `i` selected the attributes `sel i` and grew the tree `t i`. -/
def GrownForest (e : ForestEnv K) (features fuel size : Nat) (g : Grid) (sel : Nat → List Attr) (t : Nat → Tree) : Prop :=
  ∀ i, i < size → forestTree e features fuel g i = some (Res.ok (sel i, t i))

/-- The predictions of a forest. `g` is the training data and `what` the data to predict, with the same attributes. Whatever
has been drawn, and however the goroutines of `Fit` were scheduled: every tree answers with a label that was drawn for it. -/
theorem forest_predicts {e : ForestEnv K} {g : Grid} {n : Nat} {lab : Nat → String} {cls : Attr} {val : U64 → K}
    {S : U64 → Prop} (E : e.Ok n val S) (D : TreeData e.fo g n lab cls) (hS : g.FloatsIn n S) {features size fuel : Nat}
    {sel : Nat → List Attr} {t : Nat → Tree} (hfit : GrownForest e features fuel size g sel t)
    {what : Grid} {m : Nat} (W : TreeInput e.fo what m g.allAttributes) (hd : what.distinct)
    (hcls : ∃ c, what.allClassAttributes = [c] ∧ c.equals cls = true)
    {p : Nat → PredEnv} (P : ∀ i, (p i).Ok ∧ (p i).fo = e.fo) {srt : List Spec → List Spec} (hsrt : ∀ l, (srt l).Perm l)
    {selected : GoMap Nat (List Attr)} (hselected : ∀ i, selected.get? i = if i < size then some (sel i) else none) :
    ∃ ans : Nat → Nat → String,
      (treesBag p ((List.range size).map t) selected).Predicts e.fo srt what m ans ∧
      ∀ i, i < size → ∃ part, (treesBag p ((List.range size).map t) selected).predictionInstances srt i what = Res.ok part ∧
        ∀ r, r < m → treeClass e.fo part ((p i).ord r) r (t i) = Res.ok (ans i r) ∧ ∃ q, q < n ∧ lab (e.rows i q) = ans i r := by
  have one : ∀ i, i < size → ∃ part, (treesBag p ((List.range size).map t) selected).predictionInstances srt i what = Res.ok part ∧
      TreeInput e.fo part m (sel i) ∧
      ∀ r, r < m → ∃ c, treeClass e.fo part ((p i).ord r) r (t i) = Res.ok c ∧ ∃ q, q < n ∧ lab (e.rows i q) = c := by
    intro i hi
    have h := hfit i hi
    have h' := h
    unfold forestTree at h'
    rw [Option.map_eq_some_iff] at h'
    obtain ⟨r, hr, h'⟩ := h'
    rw [Res.bind_eq_ok] at h'
    obtain ⟨sel', rfl, h'⟩ := h'
    obtain ⟨chosen, hc, _, hin, h3, _⟩ := C66_grid D.distinct (E.attrs i _) hr
    obtain ⟨t', t1, t2, t3, _⟩ := forestTree_spec E D hS hr
    rw [h, Option.some.injEq, Res.ok.injEq, Prod.mk.injEq] at t1
    obtain ⟨hs, ht⟩ := t1
    rw [D.classAttr] at hc
    rw [← hs] at hc t3
    rw [← ht] at t2 t3
    have hselin : ∀ a ∈ sel i, a ∈ g.allAttributes := by
      intro a ha
      rw [hc] at ha
      rcases List.mem_append.1 ha with h | h
      · exact (hin a h).1
      · rw [List.mem_singleton.1 h]; exact D.classIn
    obtain ⟨specs, s1, s2⟩ := part_input (cls := cls) W hd hselin (by rw [hc]; simp) hcls hsrt
    refine ⟨Grid.viewFromAttrs what specs, ?_, s2, ?_⟩
    · simp only [Bagged.predictionInstances, treesBag, hselected i, if_pos hi, Option.getD_some, s1, Res.map_ok]
    · intro r hr
      have hA := answers_of_sample (as := sel i) D.nonempty t2 (allRules_imp (fun _ h => h.1) _ t3)
      exact treeClass_answers s2.rows s2.typed s2.readable s2.finds ((P i).1.children r) hr _ hA
  classical
  let ans : Nat → Nat → String := fun i r =>
    if h : i < size then if h' : r < m then Classical.choose ((Classical.choose_spec (one i h)).2.2 r h') else "" else ""
  have hans : ∀ i (hi : i < size), ∀ r, r < m → treeClass e.fo (Classical.choose (one i hi)) ((p i).ord r) r (t i) = Res.ok (ans i r) ∧
      ∃ q, q < n ∧ lab (e.rows i q) = ans i r := by
    intro i hi r hr
    have := Classical.choose_spec ((Classical.choose_spec (one i hi)).2.2 r hr)
    simp only [ans, dif_pos hi, dif_pos hr]
    exact this
  refine ⟨ans, ?_, fun i hi => ⟨_, (Classical.choose_spec (one i hi)).1, hans i hi⟩⟩
  intro i f hfi
  have hi : i < size := by
    have := (List.getElem?_eq_some_iff.1 hfi).1
    simpa [treesBag] using this
  have hfeq : f = fun l => (treePredict (p i) (t i) l).map Grid.dense := by
    simp only [treesBag] at hfi
    rw [List.getElem?_map, List.getElem?_zipIdx] at hfi
    simp [hi] at hfi
    exact hfi.symm
  obtain ⟨o1, o2, _⟩ := Classical.choose_spec (one i hi)
  obtain ⟨P1, P2⟩ := P i
  obtain ⟨d, d1, d2⟩ := treePredict_shows (e := p i) P1 (t := t i) (by rw [P2]; exact o2) (k := ans i) (by
    intro r hr
    rw [P2]
    exact (hans i hi r hr).1)
  rw [P2] at d2
  exact ⟨_, .dense d, o1, by rw [hfeq]; simp only [d1, Res.map_ok], d2⟩

/-- What holds, for all training data with exact numbers, all data to predict with the same attributes, all draws, and all
schedules of the goroutines of `Fit` and of `Predict`: nothing panics, `Predict` can always be brought to its end, and then
it returns one row for each row of the data, with a class that no other class beats in the number of trees that answer with
it; the answer of a tree is a label of a row that was drawn for it. Missing: that the trees fit the rows drawn, which is
false. -/
theorem C121_forest_partial (e : ForestEnv K) (g : Grid) (n : Nat) (lab : Nat → String) (cls : Attr) (val : U64 → K)
    (S : U64 → Prop) (E : e.Ok n val S) (D : TreeData e.fo g n lab cls) (hS : g.FloatsIn n S) (features size fuel : Nat)
    (hsize : 0 < size) (sel : Nat → List Attr) (t : Nat → Tree) (hfit : GrownForest e features fuel size g sel t)
    (fitSched : List (Option Nat)) (fs : FitState) (hfs : (FitState.start size).exec sel fitSched = some fs)
    (hover : fs.over = true)
    (what : Grid) (m : Nat) (W : TreeInput e.fo what m g.allAttributes) (hd : what.distinct)
    (hcls : ∃ c, what.allClassAttributes = [c] ∧ c.equals cls = true)
    (p : Nat → PredEnv) (P : ∀ i, (p i).Ok ∧ (p i).fo = e.fo) (srt : List Spec → List Spec) (hsrt : ∀ l, (srt l).Perm l)
    (cpus : Nat) (hc : 0 < cpus) (ord : Nat → Grid → List Nat) (hord : ∀ j (v : Grid), v.RowOrder (ord j v))
    (parse : String → Option U64) (pg : Nat) (ordRows : List Nat → List Nat) (hordRows : ∀ l, (ordRows l).Perm l)
    (ords : Nat → List String → List String) (hords : ∀ i l, (ords i l).Perm l) :
    ∃ ans : Nat → Nat → String,
      (∀ i, i < size → ∃ part, (treesBag p ((List.range size).map t) fs.selected).predictionInstances srt i what = Res.ok part ∧
        ∀ r, r < m → treeClass e.fo part ((p i).ord r) r (t i) = Res.ok (ans i r) ∧
          ∃ q, q < n ∧ lab (e.rows i q) = ans i r) ∧
      ∀ (sched : List Thread) (s : PipeState Grid (GoMap Nat (GoMap String Nat))),
        ((treesBag p ((List.range size).map t) fs.selected).pipeline e.fo srt cpus ord what).Reaches [] sched s →
        s.crashed = false ∧
        (∃ more s', ((treesBag p ((List.range size).map t) fs.selected).pipeline e.fo srt cpus ord what).exec s more = some s' ∧
          s'.pos = .done) ∧
        (s.pos = .done → ∃ d, Bagged.consensus e.fo parse pg ordRows ords what s.tally = Res.ok d ∧
          (Grid.dense d).size.2 = m ∧
          ∀ r, r < m → ∃ c, getClass e.fo (.dense d) r = Res.ok c ∧ (∃ i, i < size ∧ ans i r = c) ∧
            ∀ c', votesFor size ans r c' ≤ votesFor size ans r c) := by
  obtain ⟨ans, h1, h2⟩ := forest_predicts E D hS hfit W hd hcls P hsrt ((C66_fit_schedules sel size fitSched fs hfs).2.2 hover)
  obtain ⟨q, nm, vs, hcl, hroom⟩ := W.cls
  have hlen : (treesBag p ((List.range size).map t) fs.selected).classifiers.length = size := by simp [treesBag]
  refine ⟨ans, h2, ?_⟩
  intro sched s hs
  refine ⟨(C64_no_deadlock h1 hsrt hc hord hs).1, C64_completes h1 hsrt hc hord hs, ?_⟩
  intro hdone
  have := C65_majority (parse := parse) (pg := pg) h1 hsrt W.rows.rows hcl hroom (by rw [hlen]; exact hsize) hc hord hordRows hords hs hdone
  rw [hlen] at this
  exact this

end

/-! ## The samples are not learned -/

/-- The full property: every tree of a forest fits the rows that were drawn for it. -/
def ForestLearnsSamples : Prop :=
  ∀ (e : ForestEnv ℝ) (g : Grid) (n : Nat) (lab : Nat → String) (cls : Attr) (val : U64 → ℝ) (S : U64 → Prop),
    e.Ok n val S → TreeData e.fo g n lab cls → g.FloatsIn n S →
    ∀ (features fuel i : Nat) (sel : List Attr) (t : Tree), forestTree e features fuel g i = some (Res.ok (sel, t)) →
      t.Fits (g.branch e.fo) lab ((List.range n).map (e.rows i))

section Examples
private def aX : Attr := ⟨0, .cat "x" ["p", "q"]⟩
private def aY : Attr := ⟨1, .cat "y" ["u", "v"]⟩
private def aC : Attr := ⟨2, .cat "c" ["a", "b"]⟩
/-- Two rows: p, u, a and q, v, b. -/
private def opsT : List Op :=
  [.add aX, .add aY, .add aC, .addClass aC, .extend 2, .set 0 1 (packU64 1), .set 1 1 (packU64 1), .set 2 1 (packU64 1)]

/-- A forest whose models each draw the second row and then the first. -/
private noncomputable def swapForest : ForestEnv ℝ where
  fo := (exEnv (Real.logb 2)).fo
  srt := id
  attrs _ l := l
  pick _ j := j % 2
  rows _ r := if r = 0 then 1 else 0
  order _ _ := someOrder
  classes _ _ l := l
  rule _ _ := exEnv (Real.logb 2)

private theorem swap_ok : swapForest.Ok 2 natVal fun u => u.toNat % 2 = 0 where
  sort _ := List.Perm.refl _
  attrs _ _ := List.Perm.refl _
  drawn _ r hr := by
    show (if r = 0 then 1 else 0) < 2
    split <;> omega
  rowOrder _ _ := someOrder_rowOrder
  classOrder _ _ _ := List.Perm.refl _
  rule _ _ := ⟨exEnv_ok logb_logarithm, rfl, exEnv_exact _⟩

private def fo0 : FloatOps := ⟨fun _ _ => "", fun u v => decide (v.toNat < u.toNat)⟩
private theorem fo0_eq : swapForest.fo = fo0 := rfl

set_option synthInstance.maxSize 1000 in
private theorem swap_data : ∃ tr, run 4096 opsT = Res.ok tr ∧
    TreeData fo0 (.dense tr.d) 2 (fun r => ["a", "b"].getD r "") aC ∧
    (Grid.dense tr.d).FloatsIn 2 (fun u => u.toNat % 2 = 0) ∧
    TreeInput fo0 (.dense tr.d) 2 (Grid.dense tr.d).allAttributes ∧ (Grid.dense tr.d).distinct ∧
    (Grid.dense tr.d).allAttributes = [aX, aY, aC] ∧ (Grid.dense tr.d).normalAttrs = [aX, aY] ∧
    (∀ a ∈ [aX, aY], (Grid.dense tr.d).branch fo0 ⟨a, 0⟩ 0 ≠ (Grid.dense tr.d).branch fo0 ⟨a, 0⟩ 1) := by
  have e : ((run 4096 opsT).map fun tr =>
      (treeCheck fo0 tr.d 2 ["a", "b"] aC, inputCheck fo0 tr.d 2 tr.d.allAttributes, evenCheck tr.d 2, tr.d.allAttributes,
        (Grid.dense tr.d).normalAttrs, [aX, aY].all fun a =>
          decide ((Grid.dense tr.d).branch fo0 ⟨a, 0⟩ 0 ≠ (Grid.dense tr.d).branch fo0 ⟨a, 0⟩ 1))) =
      Res.ok (true, true, true, [aX, aY, aC], [aX, aY], true) := by decide +kernel
  obtain ⟨tr, htr, e⟩ := Res.map_eq_ok.1 e
  simp only [Prod.mk.injEq] at e
  have Dt := denseOK_run (pg := 4096) (ops := opsT) (by decide) htr (by decide)
  refine ⟨tr, htr, treeData_dense Dt e.1, floatsIn_even e.2.2.1, treeInput_dense Dt e.2.1, Dt.1, e.2.2.2.1, e.2.2.2.2.1, ?_⟩
  intro a ha
  exact of_decide_eq_true (List.all_eq_true.1 e.2.2.2.2.2 a ha)

private theorem swap_grows {g : Grid} (D : TreeData fo0 g 2 (fun r => ["a", "b"].getD r "") aC)
    (hS : g.FloatsIn 2 (fun u => u.toNat % 2 = 0)) (hn : g.normalAttrs = [aX, aY]) (i : Nat) :
    ∃ t, forestTree swapForest 2 2 g i = some (Res.ok ([aX, aY, aC], t)) := by
  have hsel : trainingAttrs (swapForest.attrs i g.normalAttrs) g.allClassAttributes 2 (swapForest.pick i) 2 =
      some (Res.ok [aX, aY, aC]) := by
    rw [D.classAttr, hn]
    show trainingAttrs [aX, aY] [aC] 2 (fun j => j % 2) 2 = _
    decide +kernel
  obtain ⟨t, h, _⟩ := forestTree_spec swap_ok (fo0_eq ▸ D) hS hsel
  exact ⟨t, h⟩

/-- It is false. The rows are p, u, a and q, v, b, and both are drawn, in the other order. Whichever attribute the root
tests, the branch of the first row is labelled with the class of the second, and the other way round. -/
theorem C121_refuted : ¬ ForestLearnsSamples := by
  intro F
  obtain ⟨tr, _, D, hS, _, _, _, hn, hne⟩ := swap_data
  set g := Grid.dense tr.d with hg
  have hsel : trainingAttrs (swapForest.attrs 0 g.normalAttrs) g.allClassAttributes 2 (swapForest.pick 0) 2 =
      some (Res.ok [aX, aY, aC]) := by
    rw [D.classAttr, hn]
    show trainingAttrs [aX, aY] [aC] 2 (fun j => j % 2) 2 = _
    decide +kernel
  obtain ⟨t, h1, h2, h3, _, h5⟩ := forestTree_spec swap_ok (fo0_eq ▸ D) hS hsel
  have hfit := F swapForest g 2 _ aC natVal _ swap_ok (fo0_eq ▸ D) hS 2 2 0 _ t h1
  cases t with
  | leaf d c =>
    have := h5 (by decide) (by decide) d c rfl 0 (by omega) 1 (by omega)
    exact absurd this (by decide)
  | split d c r keys child =>
    obtain ⟨_, _, _, k4, k5⟩ := h2
    obtain ⟨_, _, _, _, f5⟩ := hfit
    have hr : r.attr ∈ [aX, aY] := by
      have := h3.1
      simp only [List.mem_cons, List.not_mem_nil, or_false] at this ⊢
      rcases this.1 with h | h | h
      · exact Or.inl h
      · exact Or.inr h
      · exact absurd h this.2
    have hb : ∀ q, g.branch swapForest.fo r q = g.branch fo0 ⟨r.attr, 0⟩ q := by
      intro q
      have hf : r.attr.isFloat = false := by
        have : ∀ a ∈ [aX, aY], a.isFloat = false := by decide
        exact this _ hr
      unfold Grid.branch
      rw [hf]
      rfl
    have hd := hne r.attr hr
    rw [← hb 0, ← hb 1] at hd
    have hk := (k4 (g.branch swapForest.fo r 0)).2 ⟨0, by omega, rfl⟩
    have m1 := k5 _ hk
    have m2 := f5 _ hk
    have l1 : ((List.range 2).filter fun q => g.branch swapForest.fo r q == g.branch swapForest.fo r 0).map (swapForest.rows 0) = [1] := by
      have : List.range 2 = [0, 1] := rfl
      simp only [this, List.filter_cons, beq_self_eq_true, if_true, beq_eq_false_iff_ne.2 hd.symm, Bool.false_eq_true, if_false,
        List.filter_nil, List.map_cons, List.map_nil]
      rfl
    have l2 : (((List.range 2).map (swapForest.rows 0)).filter fun q =>
        g.branch swapForest.fo r q == g.branch swapForest.fo r 0) = [0] := by
      have : (List.range 2).map (swapForest.rows 0) = [1, 0] := rfl
      simp only [this, List.filter_cons, beq_self_eq_true, if_true, beq_eq_false_iff_ne.2 hd.symm, Bool.false_eq_true, if_false,
        List.filter_nil]
    rw [l1] at m1
    rw [l2] at m2
    generalize child (g.branch swapForest.fo r 0) = ch at m1 m2
    cases ch with
    | leaf d' c' =>
      have e1 := m1.1.1
      have e2 := m2.1.1
      simp only [List.map_cons, List.map_nil, List.mem_singleton] at e1 e2
      rw [e1] at e2
      exact absurd e2 (by decide)
    | split d' c' r' keys' child' =>
      obtain ⟨_, ⟨p, hp, q, hq, hpq⟩, _⟩ := m1
      rw [List.mem_singleton.1 hp, List.mem_singleton.1 hq] at hpq
      exact hpq rfl

/-- The conditions of `C121_grows` and of `C121_forest_partial` hold for this forest, its training data, and the same data to
predict. -/
example : ∃ tr, run 4096 opsT = Res.ok tr ∧ swapForest.Ok 2 natVal (fun u => u.toNat % 2 = 0) ∧
    TreeData swapForest.fo (.dense tr.d) 2 (fun r => ["a", "b"].getD r "") aC ∧
    (Grid.dense tr.d).FloatsIn 2 (fun u => u.toNat % 2 = 0) ∧ forestFit (.dense tr.d) 2 3 = Res.ok (2, 3) ∧
    (∀ i j, i < 3 → swapForest.pick i j < (Grid.dense tr.d).normalAttrs.length) ∧
    (∀ i, i < 3 → 2 ≤ ((List.range 2).map (swapForest.pick i)).dedup.length) ∧
    (∃ t, GrownForest swapForest 2 2 3 (.dense tr.d) (fun _ => [aX, aY, aC]) t) ∧
    (∃ fs, (FitState.start 3).exec (fun _ => [aX, aY, aC])
      [none, some 0, none, some 0, none, some 2, some 1, some 1, some 2, none] = some fs ∧ fs.over = true) ∧
    TreeInput swapForest.fo (.dense tr.d) 2 (Grid.dense tr.d).allAttributes ∧ (Grid.dense tr.d).distinct ∧
    (∃ c, (Grid.dense tr.d).allClassAttributes = [c] ∧ c.equals aC = true) := by
  obtain ⟨tr, htr, D, hS, W, hd, _, hn, _⟩ := swap_data
  refine ⟨tr, htr, swap_ok, fo0_eq ▸ D, hS, ?_, ?_, ?_, ?_, ?_, fo0_eq ▸ W, hd, aC, D.classAttr, by decide⟩
  · unfold forestFit
    rw [hn]; rfl
  · intro i j _
    rw [hn]
    exact Nat.mod_lt _ (by decide)
  · intro i _
    show 2 ≤ ((List.range 2).map fun j => j % 2).dedup.length
    decide
  · exact ⟨fun i => Classical.choose (swap_grows D hS hn i), fun i _ => Classical.choose_spec (swap_grows D hS hn i)⟩
  · refine ⟨_, rfl, rfl⟩
end Examples

end Golearn
