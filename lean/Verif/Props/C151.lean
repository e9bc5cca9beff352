import Verif.Proofs.Rebuild

/-! # C151: when training a decision tree again gives the same tree -/

namespace Golearn

section
variable {K : Type} [Field K] [LinearOrder K] [IsStrictOrderedRing K]

theorem catCells {e : RuleEnv K} {g : Grid} {n : Nat} (hcat : ∀ a ∈ g.allAttributes, a.isFloat = false) :
    g.ExactCells e n (fun _ => (0 : K)) (fun _ => False) ∧ g.NoRepeats n fun _ => (0 : K) := by
  refine ⟨⟨exactOn_false _ _, ?_⟩, ?_⟩
  · intro a ha hf; rw [hcat a ha] at hf; cases hf
  · intro a ha hf; rw [hcat a ha] at hf; cases hf

/-- The list of candidates that the generators choose from, without numeric attributes. -/
theorem cat_candidates {e : RuleEnv K} (E : e.Ok) {g : Grid} {n : Nat} {lab : Nat → String} {cls : Attr}
    (D : TreeData e.fo g n lab cls) (hcat : ∀ a ∈ g.allAttributes, a.isFloat = false) {V : Type} (f : Option K → Option V)
    (as : List Attr) (has : ∀ a ∈ as, a ∈ g.allAttributes) :
    mapRes (fun a => (localEntropy e g a).map fun p => (a, f p.1, p.2)) as =
      Res.ok (as.map fun a => (a, f (some (condEntropy e.lg lab (g.branch e.fo ⟨a, 0⟩) n)), (0 : U64))) :=
  mapRes_of_ok _ _ _ fun a ha => by rw [localEntropy_cat E D (has a ha) (hcat a (has a ha)), Res.map_ok]

omit [Field K] [LinearOrder K] [IsStrictOrderedRing K] in
theorem pickMax_val {V : Type} [LinearOrder V] {as : List Attr} {f : Attr → Option V} {rule : Rule}
    (h : (pickMax (as.map fun a => (a, f a, (0 : U64))) none).map Prod.snd = some rule) : rule.val = 0 := by
  rw [Option.map_eq_some_iff] at h
  obtain ⟨⟨v, r⟩, h1, rfl⟩ := h
  rcases ((pickMax_spec _ none).2 v r h1).1 with h | ⟨t, ht, _, rfl⟩
  · cases h
  · obtain ⟨a, _, rfl⟩ := List.mem_map.1 ht
    rfl

/-- The generators of information gain and of what the code calls the gain ratio choose an attribute with the greatest value,
for all rows with different labels and without numeric attributes. -/
theorem C151_picks (e : RuleEnv K) (E : e.Ok) :
    PicksBest e.fo (infoGainOf e.lg) (infoGain e) ∧ PicksBest e.fo (infoRatioOf e.lg) (gainRatioRule e) := by
  constructor
  · intro g n lab cls rule D hcat hmix hgen
    have hsub : ∀ a ∈ e.cands g.normalAttrs, a ∈ g.allAttributes := fun a ha =>
      (List.mem_filter.1 ((cands_mem E D.classAttr a).1 ha)).1
    constructor
    · obtain ⟨d, d1, _⟩ := baseEntropy_data (K := K) D
      unfold infoGain infoGainFrom at hgen
      cases hl : e.cands g.normalAttrs with
      | nil => exact absurd hl (cands_ne E D)
      | cons b bs =>
        rw [hl] at hgen hsub
        simp only [d1, Res.bind_ok] at hgen
        rw [cat_candidates E D hcat (fun o => subO (baseEntropy e.lg d) o) _ hsub, Res.map_ok] at hgen
        exact pickMax_val (f := fun a => subO (baseEntropy e.lg d) (some (condEntropy e.lg lab (g.branch e.fo ⟨a, 0⟩) n)))
          (Res.ok.inj hgen)
    · intro a ha
      obtain ⟨X, N⟩ := catCells (e := e) (n := n) hcat
      obtain ⟨r, h1, _, h3⟩ := C50_information_gain_partial e E g n lab cls D _ _ X N
      rw [hgen] at h1
      cases h1
      rw [infoGainOf_rows, infoGainOf_rows]
      exact (h3 rule rfl).2.2 _ ⟨a, ha, Or.inl ⟨hcat a (List.mem_filter.1 ha).1, fun _ _ => rfl⟩⟩
  · intro g n lab cls rule D hcat hmix hgen
    have hsub : ∀ a ∈ e.cands g.normalAttrs, a ∈ g.allAttributes := fun a ha =>
      (List.mem_filter.1 ((cands_mem E D.classAttr a).1 ha)).1
    constructor
    · obtain ⟨d, d1, _⟩ := baseEntropy_data (K := K) D
      unfold gainRatioRule gainRatioFrom at hgen
      cases hl : e.cands g.normalAttrs with
      | nil => exact absurd hl (cands_ne E D)
      | cons b bs =>
        rw [hl] at hgen hsub
        simp only [d1, Res.bind_ok] at hgen
        rw [cat_candidates E D hcat (fun o => gainRatio (baseEntropy e.lg d) o) _ hsub, Res.map_ok] at hgen
        exact pickMax_val (f := fun a => gainRatio (baseEntropy e.lg d) (some (condEntropy e.lg lab (g.branch e.fo ⟨a, 0⟩) n)))
          (Res.ok.inj hgen)
    · intro a ha
      obtain ⟨X, N⟩ := catCells (e := e) (n := n) hcat
      obtain ⟨r, h1, _, h3⟩ := C50_gain_ratio_partial e E g n lab cls D _ _ X N hmix
      rw [hgen] at h1
      cases h1
      rw [infoRatioOf_rows, infoRatioOf_rows]
      exact (h3 rule rfl).2.2 _ ⟨a, ha, Or.inl ⟨hcat a (List.mem_filter.1 ha).1, fun _ _ => rfl⟩⟩

/-- What is needed of a kind of generator. -/
theorem builds_ok {e : TreeEnv} {fo : FloatOps} {lg : K → K} {V : Type} [LinearOrder V] {score : List (String × String) → V}
    {kind : RuleEnv K → Grid → Res (Option Rule)}
    (hc : ∀ r : RuleEnv K, r.Ok → ChoosesAttribute r.fo (fun _ => False) (kind r))
    (hd : ∀ r : RuleEnv K, r.Ok → GivesUpOnDull r.fo (fun _ => (0 : K)) (fun _ => False) (kind r))
    (hp : ∀ r : RuleEnv K, r.Ok → r.lg = lg → PicksBest r.fo score (kind r))
    (B : e.Builds fo lg kind) :
    e.Ok (fun _ => False) ∧ (∀ p, GivesUpOnDull e.fo (fun _ => (0 : K)) (fun _ => False) (e.gen p)) ∧
      ∀ p, PicksBest e.fo score (e.gen p) := by
  refine ⟨⟨B.sort, B.rowOrder, B.classOrder, ?_⟩, ?_, ?_⟩
  · intro p
    obtain ⟨r, r1, r2, _, r4⟩ := B.rule p
    rw [r4, B.floats, ← r2]
    exact hc r r1
  · intro p
    obtain ⟨r, r1, r2, _, r4⟩ := B.rule p
    rw [r4, B.floats, ← r2]
    exact hd r r1
  · intro p
    obtain ⟨r, r1, r2, r3, r4⟩ := B.rule p
    rw [r4, B.floats, ← r2]
    exact hp r r1 r3

theorem gain_builds {e : TreeEnv} {fo : FloatOps} {lg : K → K} (B : e.Builds fo lg infoGain) :
    e.Ok (fun _ => False) ∧ (∀ p, GivesUpOnDull e.fo (fun _ => (0 : K)) (fun _ => False) (e.gen p)) ∧
      ∀ p, PicksBest e.fo (infoGainOf lg) (e.gen p) :=
  builds_ok (lg := lg) (fun r R => C50_information_gain_chooses r R _ _ (exactOn_false r fun _ => 0))
    (fun r R => (C139_gives_up r R _ _ (exactOn_false _ _)).1) (fun r R h => h ▸ (C151_picks r R).1) B

theorem ratio_builds {e : TreeEnv} {fo : FloatOps} {lg : K → K} (B : e.Builds fo lg gainRatioRule) :
    e.Ok (fun _ => False) ∧ (∀ p, GivesUpOnDull e.fo (fun _ => (0 : K)) (fun _ => False) (e.gen p)) ∧
      ∀ p, PicksBest e.fo (infoRatioOf lg) (e.gen p) :=
  builds_ok (lg := lg) (fun r R => C50_gain_ratio_chooses r R _ _ (exactOn_false r fun _ => 0))
    (fun r R => (C139_gives_up r R _ _ (exactOn_false _ _)).2.1) (fun r R h => h ▸ (C151_picks r R).2) B

theorem catFloats {g : Grid} {n : Nat} {S : U64 → Prop} (hcat : ∀ a ∈ g.allAttributes, a.isFloat = false) : g.FloatsIn n S := by
  intro a ha hf; rw [hcat a ha] at hf; cases hf

/-- For all training data without numeric attributes: every node of the tree that splits its rows tests an attribute with the
greatest gain, or gain ratio, for the rows that reach it, among the attributes not tested above it. -/
theorem C151_greedy (e : TreeEnv) (fo : FloatOps) (lg : K → K) (g : Grid) (n : Nat) (lab : Nat → String) (cls : Attr)
    (D : TreeData fo g n lab cls) (hcat : ∀ a ∈ g.allAttributes, a.isFloat = false) :
    (e.Builds fo lg infoGain → ∃ t, inferID3 e g = Res.ok t ∧
      t.Greedy (infoGainOf lg) (g.branch fo) lab (g.inputs cls) (List.range n)) ∧
    (e.Builds fo lg gainRatioRule → ∃ t, inferID3 e g = Res.ok t ∧
      t.Greedy (infoRatioOf lg) (g.branch fo) lab (g.inputs cls) (List.range n)) := by
  constructor
  · intro B
    obtain ⟨E, _, hp⟩ := gain_builds B
    obtain rfl := B.floats
    obtain ⟨t, h1, _⟩ := inferLoop_spec E (g.allAttributes.length + 1) [] g n lab cls D (catFloats hcat) (Nat.lt_succ_self _)
    exact ⟨t, h1, inferLoop_greedy (fun _ _ => infoGainOf_perm lg) E hp _ [] g n lab cls D hcat (Nat.lt_succ_self _) t h1⟩
  · intro B
    obtain ⟨E, _, hp⟩ := ratio_builds B
    obtain rfl := B.floats
    obtain ⟨t, h1, _⟩ := inferLoop_spec E (g.allAttributes.length + 1) [] g n lab cls D (catFloats hcat) (Nat.lt_succ_self _)
    exact ⟨t, h1, inferLoop_greedy (fun _ _ => infoRatioOf_perm lg) E hp _ [] g n lab cls D hcat (Nat.lt_succ_self _) t h1⟩

theorem alike_trees {e e' : TreeEnv} {V : Type} [LinearOrder V] {score : List (String × String) → V}
    (hs : ∀ ps ps', ps.Perm ps' → score ps = score ps') {g : Grid} {n : Nat} {lab : Nat → String} {cls : Attr}
    (D : TreeData e.fo g n lab cls) (hcat : ∀ a ∈ g.allAttributes, a.isFloat = false) (hfo : e'.fo = e.fo)
    (B : e.Ok (fun _ => False) ∧ (∀ p, GivesUpOnDull e.fo (fun _ => (0 : K)) (fun _ => False) (e.gen p)) ∧
      ∀ p, PicksBest e.fo score (e.gen p))
    (B' : e'.Ok (fun _ => False) ∧ (∀ p, GivesUpOnDull e'.fo (fun _ => (0 : K)) (fun _ => False) (e'.gen p)) ∧
      ∀ p, PicksBest e'.fo score (e'.gen p))
    (hn : NoTies score (g.branch e.fo) lab (g.inputs cls) (List.range n)) :
    ∃ t t', inferID3 e g = Res.ok t ∧ inferID3 e' g = Res.ok t' ∧ t.SameAs t' := by
  obtain ⟨E, hd, hp⟩ := B
  obtain ⟨E', hd', hp'⟩ := B'
  have D' : TreeData e'.fo g n lab cls := hfo ▸ D
  obtain ⟨t, h1, h2, _⟩ := inferLoop_spec E (g.allAttributes.length + 1) [] g n lab cls D (catFloats hcat) (Nat.lt_succ_self _)
  obtain ⟨t', h1', h2', _⟩ := inferLoop_spec E' (g.allAttributes.length + 1) [] g n lab cls D' (catFloats hcat) (Nat.lt_succ_self _)
  have g1 := inferLoop_grown E hd _ [] g n lab cls D (catFloats hcat) (Nat.lt_succ_self _) t h1
  have g1' := inferLoop_grown E' hd' _ [] g n lab cls D' (catFloats hcat) (Nat.lt_succ_self _) t' h1'
  have r1 := inferLoop_greedy hs E hp _ [] g n lab cls D hcat (Nat.lt_succ_self _) t h1
  have r1' := inferLoop_greedy hs E' hp' _ [] g n lab cls D' hcat (Nat.lt_succ_self _) t' h1'
  rw [hfo] at h2' g1' r1'
  exact ⟨t, t', h1, h1', same_of_noTies t t' _ _ (fun a ha => hcat a (List.mem_filter.1 ha).1) hn h2 h2' g1 g1' r1 r1'⟩

/-- Two runs on the same training data without numeric attributes build the same tree, whatever the orders in which Go visits
rows, classes, groups and candidates, if no two labels are equally frequent at the top and no two attributes equally good
where a node is made. What is missing is data with ties, where the claim is false, see `C151_ties`, and numeric
attributes. -/
theorem C151_same_tree_partial (e e' : TreeEnv) (fo : FloatOps) (lg : K → K) (g : Grid) (n : Nat) (lab : Nat → String) (cls : Attr)
    (D : TreeData fo g n lab cls) (hcat : ∀ a ∈ g.allAttributes, a.isFloat = false) :
    (e.Builds fo lg infoGain → e'.Builds fo lg infoGain →
      NoTies (infoGainOf lg) (g.branch fo) lab (g.inputs cls) (List.range n) →
      ∃ t t', inferID3 e g = Res.ok t ∧ inferID3 e' g = Res.ok t' ∧ t.SameAs t') ∧
    (e.Builds fo lg gainRatioRule → e'.Builds fo lg gainRatioRule →
      NoTies (infoRatioOf lg) (g.branch fo) lab (g.inputs cls) (List.range n) →
      ∃ t t', inferID3 e g = Res.ok t ∧ inferID3 e' g = Res.ok t' ∧ t.SameAs t') := by
  constructor
  · intro B B' hn
    have h := gain_builds B
    have h' := gain_builds B'
    obtain rfl := B.floats
    exact alike_trees (fun _ _ => infoGainOf_perm lg) D hcat B'.floats h h' hn
  · intro B B' hn
    have h := ratio_builds B
    have h' := ratio_builds B'
    obtain rfl := B.floats
    exact alike_trees (fun _ _ => infoRatioOf_perm lg) D hcat B'.floats h h' hn

/-- And the two runs give a row of any data the same class, if the tree has a branch for every value of the row. -/
theorem C151_same_class_partial (e e' : TreeEnv) (fo : FloatOps) (lg : K → K) (g : Grid) (n : Nat) (lab : Nat → String) (cls : Attr)
    (D : TreeData fo g n lab cls) (hcat : ∀ a ∈ g.allAttributes, a.isFloat = false)
    (B : e.Builds fo lg infoGain) (B' : e'.Builds fo lg infoGain)
    (hn : NoTies (infoGainOf lg) (g.branch fo) lab (g.inputs cls) (List.range n))
    (p p' : PredEnv) (P : p.Ok) (P' : p'.Ok) (hp : p.fo = fo) (hp' : p'.fo = fo) (what : Grid) (m : Nat) (as : List Attr)
    (W : TreeInput fo what m as) (k : Nat → String)
    (hk : ∀ t, inferID3 e g = Res.ok t → ∀ r, r < m → LeadsTo fo what r t (k r)) :
    ∃ t t' d d', inferID3 e g = Res.ok t ∧ inferID3 e' g = Res.ok t' ∧ treePredict p t what = Res.ok d ∧
      treePredict p' t' what = Res.ok d' ∧
      ∀ r, r < m → getClass fo (.dense d) r = Res.ok (k r) ∧ getClass fo (.dense d') r = Res.ok (k r) := by
  obtain ⟨t, t', h1, h1', hs⟩ := (C151_same_tree_partial e e' fo lg g n lab cls D hcat).1 B B' hn
  subst hp
  obtain ⟨d, d1, d2⟩ := C148_tree_partial P W (t := t) (k := k) (hk t h1)
  obtain ⟨d', d1', d2'⟩ := C148_tree_partial (e := p') P' (t := t') (k := k) (hp'.symm ▸ W)
    (fun r hr => hp'.symm ▸ same_leadsTo (hk t h1 r hr) t' hs)
  rw [hp'] at d2'
  exact ⟨t, t', d, d', h1, h1', d1, d1', fun r hr => ⟨d2 r hr, d2' r hr⟩⟩

omit [Field K] [LinearOrder K] [IsStrictOrderedRing K] in
/-- A training row has a branch at every node on its way. -/
theorem fits_leadsTo {fo : FloatOps} {lab : Nat → String} {g : Grid} {n : Nat} (P : g.Presents n) (T : g.typed n)
    (R : g.Readable fo n) {row : Nat} (hr : row < n) (t : Tree) : ∀ rows : List Nat, t.Fits (g.branch fo) lab rows →
      (t.AllRules fun r => r.attr ∈ g.allAttributes) → row ∈ rows → ∃ c, LeadsTo fo g row t c := by
  induction t with
  | leaf d c => intro rows _ _ _; exact ⟨c, .leaf _ _⟩
  | split d c r keys child ih =>
    intro rows hf ha hm
    obtain ⟨_, _, _, f4, f5⟩ := hf
    have hk : g.branch fo r row ∈ keys := (f4 _).2 ⟨row, hm, rfl⟩
    obtain ⟨c', hc'⟩ := ih _ _ (f5 _ hk) (ha.2 _ hk) (List.mem_filter.2 ⟨hm, by simp⟩)
    obtain ⟨s, s1, s2, s3⟩ := P.read r.attr ha.1
    refine ⟨c', .split _ _ _ _ _ s _ _ _ s1 (s3 row hr) ?_ hk hc'⟩
    rw [s2]
    exact branch_key T R ha.1 hr

/-- In particular two runs predict the same classes for the training data themselves. -/
theorem C151_training_rows_partial (e e' : TreeEnv) (fo : FloatOps) (lg : K → K) (g : Grid) (n : Nat) (lab : Nat → String) (cls : Attr)
    (D : TreeData fo g n lab cls) (hcat : ∀ a ∈ g.allAttributes, a.isFloat = false)
    (B : e.Builds fo lg infoGain) (B' : e'.Builds fo lg infoGain)
    (hn : NoTies (infoGainOf lg) (g.branch fo) lab (g.inputs cls) (List.range n))
    (p p' : PredEnv) (P : p.Ok) (P' : p'.Ok) (hp : p.fo = fo) (hp' : p'.fo = fo) (W : TreeInput fo g n g.allAttributes) :
    ∃ t t' d d', inferID3 e g = Res.ok t ∧ inferID3 e' g = Res.ok t' ∧ treePredict p t g = Res.ok d ∧
      treePredict p' t' g = Res.ok d' ∧ ∀ r, r < n → getClass fo (.dense d) r = getClass fo (.dense d') r := by
  have hfo := B.floats
  obtain ⟨t, h1, h2, h3⟩ := C48_fits e _ (gain_builds B).1 g n lab cls (hfo.symm ▸ D) (catFloats hcat)
  rw [hfo] at h2
  have hex : ∀ r, ∃ c, r < n → LeadsTo fo g r t c := by
    intro r
    by_cases hr : r < n
    · obtain ⟨c, hc⟩ := fits_leadsTo D.rows D.typed D.readable hr t _ h2 (allRules_imp (fun _ h => h.1) t h3) (List.mem_range.2 hr)
      exact ⟨c, fun _ => hc⟩
    · exact ⟨"", fun h => absurd h hr⟩
  choose k hk using hex
  obtain ⟨t1, t', d, d', i1, i2, i3, i4, i5⟩ := C151_same_class_partial e e' fo lg g n lab cls D hcat B B' hn p p' P P' hp hp' g n
    g.allAttributes W k (by
      intro t0 ht0 r hr
      rw [h1] at ht0
      cases ht0
      exact hk r hr)
  exact ⟨t1, t', d, d', i1, i2, i3, i4, fun r hr => (i5 r hr).1.trans (i5 r hr).2.symm⟩

omit [Field K] [LinearOrder K] [IsStrictOrderedRing K] in
theorem pickMax_stays {V : Type} [LinearOrder V] (v : V) (r : Rule) (l : List (Attr × Option V × U64))
    (h : ∀ t ∈ l, ∀ w, t.2.1 = some w → w ≤ v) : pickMax l (some (v, r)) = some (v, r) := by
  induction l with
  | nil => rfl
  | cons t ts ih =>
    obtain ⟨a, o, x⟩ := t
    cases o with
    | none => exact ih fun t ht => h t (List.mem_cons_of_mem _ ht)
    | some w =>
      have hw := h (a, some w, x) (by simp) w rfl
      rw [pickMax]
      simp only [if_neg (not_lt.2 hw)]
      exact ih fun t ht => h t (List.mem_cons_of_mem _ ht)

/-- A tie is broken by the order in which Go visits the candidates: for all rows with different labels, without numeric
attributes, an attribute with the greatest gain is chosen if it comes first. -/
theorem C151_first_wins (e : RuleEnv K) (E : e.Ok) (g : Grid) (n : Nat) (lab : Nat → String) (cls : Attr)
    (D : TreeData e.fo g n lab cls) (hcat : ∀ a ∈ g.allAttributes, a.isFloat = false) (a : Attr) (rest : List Attr)
    (hfirst : e.cands g.normalAttrs = a :: rest)
    (hbest : ∀ b ∈ g.inputs cls, infoGainOf e.lg (valuesAndLabels (g.branch e.fo ⟨b, 0⟩) lab (List.range n)) ≤
      infoGainOf e.lg (valuesAndLabels (g.branch e.fo ⟨a, 0⟩) lab (List.range n))) :
    infoGain e g = Res.ok (some ⟨a, 0⟩) := by
  have hsub : ∀ b ∈ a :: rest, b ∈ g.inputs cls := fun b hb => (cands_mem E D.classAttr b).1 (hfirst ▸ hb)
  obtain ⟨d, d1, d2⟩ := baseEntropy_data (K := K) D
  unfold infoGain infoGainFrom
  rw [hfirst]
  simp only [d1, Res.bind_ok]
  rw [cat_candidates E D hcat (fun o => subO (baseEntropy e.lg d) o) _ (fun b hb => (List.mem_filter.1 (hsub b hb)).1), Res.map_ok,
    d2, List.map_cons]
  simp only [subO, Option.bind_some, Option.map_some]
  rw [pickMax, pickMax_stays]
  · rfl
  · intro t ht w hw
    obtain ⟨b, hb, rfl⟩ := List.mem_map.1 ht
    have := hbest b (hsub b (List.mem_cons_of_mem _ hb))
    rw [infoGainOf_rows, infoGainOf_rows] at this
    simp only [Option.some.injEq] at hw
    rw [← hw]
    exact this

/-- The root of a tree for rows with different labels tests what its generator chooses. -/
theorem tree_root {e : TreeEnv} {S : U64 → Prop} (E : e.Ok S) {g : Grid} {n : Nat} {lab : Nat → String} {cls : Attr}
    (D : TreeData e.fo g n lab cls) (hS : g.FloatsIn n S) (hw : 3 ≤ g.allAttributes.length)
    (hmix : ∃ p q, p < n ∧ q < n ∧ lab p ≠ lab q) {r : Rule} (hg : e.gen [] g = Res.ok (some r)) :
    ∃ d c keys child, inferID3 e g = Res.ok (.split d c r keys child) := by
  obtain ⟨t, ht, _⟩ := inferLoop_spec E (g.allAttributes.length + 1) [] g n lab cls D hS (Nat.lt_succ_self _)
  have ht' : inferID3 e g = Res.ok t := ht
  rw [ht']
  obtain ⟨m, hm, _, _, _, hsome⟩ := treeDist D
  obtain ⟨p, q, hp, hq, hpq⟩ := hmix
  have hsz : g.size.1 ≠ 2 := by have := D.width; omega
  match m with
  | [] => exact absurd ((hsome (lab p)).2 (List.mem_map_of_mem (List.mem_range.2 hp))) (by simp [GoMap.get?])
  | [(c, k)] =>
    have one : ∀ i, i < n → lab i = c := by
      intro i hi
      have := (hsome (lab i)).2 (List.mem_map_of_mem (List.mem_range.2 hi))
      rw [GoMap.isSome_iff_mem] at this
      simpa using this
    exact absurd ((one p hp).trans (one q hq).symm) hpq
  | x :: y :: rest =>
    rw [inferLoop, hm, Res.bind_ok, D.classAttr] at ht
    simp only [if_neg hsz, hg, Res.bind_ok] at ht
    obtain ⟨parts, _, ht⟩ := Res.bind_eq_ok.1 ht
    obtain ⟨ch, _, rfl⟩ := Res.map_eq_ok.1 ht
    exact ⟨_, _, _, _, rfl⟩

/-- An order in which Go may visit candidates. -/
def firstCand (a : Attr) (l : List Attr) : List Attr := if a ∈ l then a :: l.erase a else l

omit [Field K] [LinearOrder K] [IsStrictOrderedRing K] in
theorem firstCand_perm (a : Attr) (l : List Attr) : (firstCand a l).Perm l := by
  unfold firstCand
  split
  · rename_i h; exact (List.perm_cons_erase h).symm
  · exact List.Perm.refl _

/-- A run in which the candidate `a` comes first. -/
def runWith (kind : RuleEnv K → Grid → Res (Option Rule)) (r : RuleEnv K) (a : Attr) : TreeEnv :=
  ⟨r.fo, id, fun _ g => r.order g, fun _ l => l, fun _ => kind { r with cands := firstCand a }⟩

omit [IsStrictOrderedRing K] in
theorem runWith_builds (kind : RuleEnv K → Grid → Res (Option Rule)) {r : RuleEnv K} (R : r.Ok) (a : Attr) :
    (runWith kind r a).Builds r.fo r.lg kind :=
  ⟨rfl, fun _ => List.Perm.refl _, fun _ => R.rowOrder, fun _ _ => List.Perm.refl _,
    fun _ => ⟨{ r with cands := firstCand a }, ⟨R.log, R.sort, R.rowOrder, firstCand_perm a⟩, rfl, rfl, rfl⟩⟩

omit [IsStrictOrderedRing K] in
theorem firstCand_first {r : RuleEnv K} (R : r.Ok) {g : Grid} {cls : Attr} (hc : g.allClassAttributes = [cls]) {a : Attr}
    (ha : a ∈ g.inputs cls) : firstCand a g.normalAttrs = a :: g.normalAttrs.erase a := by
  have := (cands_mem R hc a).2 ha
  rw [(R.cands _).mem_iff] at this
  unfold firstCand
  rw [if_pos this]

/-- Every attribute with the greatest gain is the root of the tree in some run. So with a tie at the root two runs on the same
data can give trees that differ in their first test. -/
theorem C151_ties (r : RuleEnv K) (R : r.Ok) (g : Grid) (n : Nat) (lab : Nat → String) (cls : Attr)
    (D : TreeData r.fo g n lab cls) (hcat : ∀ a ∈ g.allAttributes, a.isFloat = false) (hw : 3 ≤ g.allAttributes.length)
    (hmix : ∃ p q, p < n ∧ q < n ∧ lab p ≠ lab q) (a : Attr) (ha : a ∈ g.inputs cls)
    (hbest : ∀ b ∈ g.inputs cls, infoGainOf r.lg (valuesAndLabels (g.branch r.fo ⟨b, 0⟩) lab (List.range n)) ≤
      infoGainOf r.lg (valuesAndLabels (g.branch r.fo ⟨a, 0⟩) lab (List.range n))) :
    (runWith infoGain r a).Builds r.fo r.lg infoGain ∧
    ∃ d c keys child, inferID3 (runWith infoGain r a) g = Res.ok (.split d c ⟨a, 0⟩ keys child) := by
  have B := runWith_builds infoGain R a
  refine ⟨B, ?_⟩
  refine tree_root (gain_builds B).1 D (catFloats hcat) hw hmix ?_
  exact C151_first_wins { r with cands := firstCand a } ⟨R.log, R.sort, R.rowOrder, firstCand_perm a⟩ g n lab cls D hcat a _
    (firstCand_first R D.classAttr ha) hbest

/-- With the Gini generator every attribute is the root of the tree in some run, whatever the data. -/
theorem C151_gini (r : RuleEnv K) (R : r.Ok) (g : Grid) (n : Nat) (lab : Nat → String) (cls : Attr)
    (D : TreeData r.fo g n lab cls) (val : U64 → K) (S : U64 → Prop) (X : g.ExactCells r n val S) (hw : 3 ≤ g.allAttributes.length)
    (hmix : ∃ p q, p < n ∧ q < n ∧ lab p ≠ lab q) (a : Attr) (ha : a ∈ g.inputs cls) :
    (runWith giniRule r a).Builds r.fo r.lg giniRule ∧
    ∃ d c v keys child, inferID3 (runWith giniRule r a) g = Res.ok (.split d c ⟨a, v⟩ keys child) := by
  have B := runWith_builds giniRule R a
  have R' : RuleEnv.Ok { r with cands := firstCand a } := ⟨R.log, R.sort, R.rowOrder, firstCand_perm a⟩
  have X' : ExactOn { r with cands := firstCand a } val S := ⟨X.1.gt, X.1.feq, X.1.same, X.1.between⟩
  obtain ⟨b, rest, v, h1, h2⟩ := C51_picks_first { r with cands := firstCand a } R' g n lab cls D val S ⟨X', X.2⟩
  have hb : b = a := by
    have := (firstCand_first R D.classAttr ha).symm.trans h1
    exact (List.cons.inj this).1.symm
  subst hb
  have hch : ChoosesAttribute r.fo S (giniRule { r with cands := firstCand b }) := by
    intro g n lab cls D hS
    obtain ⟨a, rest, t, h1, h2⟩ := C51_picks_first { r with cands := firstCand b } R' g n lab cls D val S ⟨X', hS⟩
    refine ⟨_, h2, ?_⟩
    intro rule h
    cases h
    have := List.mem_filter.1 ((cands_mem R' D.classAttr a).1 (by rw [h1]; simp))
    exact ⟨this.1, by simpa using this.2⟩
  obtain ⟨d, c, keys, child, h⟩ := tree_root (e := runWith giniRule r b)
    ⟨B.sort, B.rowOrder, B.classOrder, fun _ => hch⟩ D X.2 hw hmix h2
  exact ⟨B, d, c, v, keys, child, h⟩

end

/-! ## Witnesses -/

/-- Rows with one label make a leaf. -/
theorem fits_leaf {key : Rule → Nat → String} {lab : Nat → String} {t : Tree} {rows : List Nat} {c : String}
    (h : t.Fits key lab rows) (hc : ∀ q ∈ rows, lab q = c) : ∃ d, t = .leaf d c := by
  cases t with
  | leaf d c' =>
    obtain ⟨q, hq, hqc⟩ := List.mem_map.1 h.1.1
    exact ⟨d, by rw [← hqc, hc q hq]⟩
  | split d c' r keys child =>
    obtain ⟨_, ⟨p, hp, q, hq, hpq⟩, _⟩ := h
    exact absurd ((hc p hp).trans (hc q hq).symm) hpq

section Examples
private def fo0 : FloatOps := ⟨fun _ _ => "", fun u v => decide (v.toNat < u.toNat)⟩
private def aY : Attr := ⟨1, .cat "y" ["red", "green"]⟩
private def aZ : Attr := ⟨3, .cat "z" ["p", "q"]⟩
private def aC : Attr := ⟨2, .cat "c" ["a", "b"]⟩

private def ops3 : List Op :=
  [.add aY, .add aZ, .add aC, .addClass aC, .extend 3, .set 0 2 (packU64 1), .set 1 1 (packU64 1), .set 1 2 (packU64 1),
   .set 2 2 (packU64 1)]

/-- The hypotheses of `C151_same_tree_partial` hold for three rows, of which the first attribute tells the labels apart and the
second does not, and two runs that visit the candidates in opposite orders. -/
theorem C151_witness : ∃ tr, run 4096 ops3 = Res.ok tr ∧
    (runWith infoGain (exEnv (Real.logb 2)) aY).Builds fo0 (Real.logb 2) infoGain ∧
    (runWith infoGain (exEnv (Real.logb 2)) aZ).Builds fo0 (Real.logb 2) infoGain ∧
    TreeData fo0 (.dense tr.d) 3 (fun r => ["a", "a", "b"].getD r "") aC ∧
    (∀ a ∈ (Grid.dense tr.d).allAttributes, a.isFloat = false) ∧
    NoTies (infoGainOf (Real.logb 2)) ((Grid.dense tr.d).branch fo0) (fun r => ["a", "a", "b"].getD r "")
      ((Grid.dense tr.d).inputs aC) (List.range 3) ∧ TreeInput fo0 (.dense tr.d) 3 (Grid.dense tr.d).allAttributes := by
  have e : ((run 4096 ops3).map fun tr =>
      [treeCheck fo0 tr.d 3 ["a", "a", "b"] aC, tr.d.allAttributes.all fun a => !a.isFloat,
        decide ((Grid.dense tr.d).inputs aC = [aY, aZ]),
        decide (((List.range 3).map fun r => (Grid.dense tr.d).branch fo0 ⟨aY, 0⟩ r) = ["red", "red", "green"]),
        decide (((List.range 3).map fun r => (Grid.dense tr.d).branch fo0 ⟨aZ, 0⟩ r) = ["p", "q", "q"]),
        inputCheck fo0 tr.d 3 tr.d.allAttributes]) =
      Res.ok [true, true, true, true, true, true] := by decide +kernel
  obtain ⟨tr, htr, e⟩ := Res.map_eq_ok.1 e
  simp only [List.cons.injEq, decide_eq_true_eq, and_true] at e
  obtain ⟨e1, e2, e3, e4, e5, e6⟩ := e
  have Dt := denseOK_run (pg := 4096) (ops := ops3) (by decide) htr (by decide)
  refine ⟨tr, htr, runWith_builds _ (exEnv_ok logb_logarithm) _, runWith_builds _ (exEnv_ok logb_logarithm) _,
    treeData_dense Dt e1, fun a ha => by simpa using List.all_eq_true.1 e2 a ha, ?_, treeInput_dense Dt e6⟩
  have hY : ∀ q, q < 3 → (Grid.dense tr.d).branch fo0 ⟨aY, 0⟩ q = ["red", "red", "green"].getD q "" := by
    intro q hq; rw [← e4]; simp [List.getD, hq]
  have hZ : ∀ q, q < 3 → (Grid.dense tr.d).branch fo0 ⟨aZ, 0⟩ q = ["p", "q", "q"].getD q "" := by
    intro q hq; rw [← e5]; simp [List.getD, hq]
  have det : ∀ p, p < 3 → ∀ q, q < 3 → ["red", "red", "green"].getD p "" = ["red", "red", "green"].getD q "" →
      ["a", "a", "b"].getD p "" = ["a", "a", "b"].getD q "" := by decide
  rw [e3]
  refine .split _ _ "a" aY ?_ (by simp) ?_ ?_
  · refine ⟨by decide, ?_⟩
    intro c' hc'
    by_cases hb : c' = "b"
    · subst hb; decide
    · have h1 : ("a" == c') = false := by simpa using fun e => hc' e.symm
      have h2 : ("b" == c') = false := by simpa using fun e => hb e.symm
      have : (List.map (fun r => ["a", "a", "b"].getD r "") (List.range 3)) = ["a", "a", "b"] := by decide
      rw [this]
      simp [List.count, List.countP, List.countP.go, h1, h2]
  · intro b hb hne
    have : b = aZ := by simpa [hne] using hb
    subst this
    rw [infoGainOf_rows, infoGainOf_rows]
    have z : condEntropy (Real.logb 2) (fun r => ["a", "a", "b"].getD r "") ((Grid.dense tr.d).branch fo0 ⟨aY, 0⟩) 3 = 0 := by
      rw [condEntropy_congr _ hY]
      exact condEntropy_zero logb_logarithm fun p q hp hq => det p hp q hq
    have pz : 0 < condEntropy (Real.logb 2) (fun r => ["a", "a", "b"].getD r "") ((Grid.dense tr.d).branch fo0 ⟨aZ, 0⟩) 3 := by
      rw [condEntropy_congr _ hZ]
      exact condEntropy_pos logb_logarithm (p := 1) (q := 2) (by decide) (by decide) (by decide) (by decide)
    unfold gainOf
    linarith
  · intro k
    refine .pure _ _ ?_
    intro p hp q hq
    obtain ⟨p1, p2⟩ := List.mem_filter.1 hp
    obtain ⟨q1, q2⟩ := List.mem_filter.1 hq
    have p1 := List.mem_range.1 p1
    have q1 := List.mem_range.1 q1
    simp only [beq_iff_eq] at p2 q2
    rw [hY p p1] at p2
    rw [hY q q1] at q2
    exact det p p1 q q1 (p2.trans q2.symm)

private def ops2 : List Op :=
  [.add aY, .add aZ, .add aC, .addClass aC, .extend 2, .set 0 1 (packU64 1), .set 1 1 (packU64 1), .set 2 1 (packU64 1)]
private def ops1 : List Op :=
  [.add aY, .add aZ, .add aC, .addClass aC, .extend 1, .set 1 0 (packU64 1)]
private def pred0 : PredEnv :=
  ⟨fo0, fun _ => none, 4096, id, id, someOrder, fun _ l => l⟩
private theorem pred0_ok : pred0.Ok :=
  ⟨fun _ => List.Perm.refl _, fun _ => List.Perm.refl _, someOrder_rowOrder, fun _ _ => List.Perm.refl _⟩

/-- The whole claim is false: a red row with p is an a, a green row with q is a b. Both attributes tell the labels apart. A red row
with q is an a in one run and a b in another one. -/
theorem C151_refuted : ¬ TrainsAgain ℝ := by
  intro hfull
  have e : ((run 4096 ops2).bind fun tr => (run 4096 ops1).map fun wh =>
      [treeCheck fo0 tr.d 2 ["a", "b"] aC, tr.d.allAttributes.all fun a => !a.isFloat,
        decide ((Grid.dense tr.d).inputs aC = [aY, aZ] ∧ tr.d.allAttributes.length = 3),
        decide (((List.range 2).map fun r => (Grid.dense tr.d).branch fo0 ⟨aY, 0⟩ r) = ["red", "green"]),
        decide (((List.range 2).map fun r => (Grid.dense tr.d).branch fo0 ⟨aZ, 0⟩ r) = ["p", "q"]),
        inputCheck fo0 wh.d 1 tr.d.allAttributes,
        decide ((Grid.dense wh.d).getAttribute aY = Res.ok ⟨some 0, 0, aY⟩ ∧ (Grid.dense wh.d).getAttribute aZ = Res.ok ⟨some 0, 1, aZ⟩ ∧
          (Grid.dense wh.d).get ⟨some 0, 0, aY⟩ 0 = Res.ok (packU64 0) ∧
          (Grid.dense wh.d).get ⟨some 0, 1, aZ⟩ 0 = Res.ok (packU64 1))]) =
      Res.ok [true, true, true, true, true, true, true] := by decide +kernel
  obtain ⟨tr, htr, e⟩ := Res.bind_eq_ok.1 e
  obtain ⟨wh, hwh, e⟩ := Res.map_eq_ok.1 e
  simp only [List.cons.injEq, decide_eq_true_eq, and_true] at e
  obtain ⟨e1, e2, ⟨e3, e3'⟩, e4, e5, e6, e7, e8, e9, e10⟩ := e
  have Dt := denseOK_run (pg := 4096) (ops := ops2) (by decide) htr (by decide)
  have Dw := denseOK_run (pg := 4096) (ops := ops1) (by decide) hwh (by decide)
  have D := treeData_dense Dt e1
  have W : TreeInput pred0.fo (.dense wh.d) 1 (Grid.dense tr.d).allAttributes := treeInput_dense Dw e6
  have R := exEnv_ok logb_logarithm
  have hcat : ∀ a ∈ (Grid.dense tr.d).allAttributes, a.isFloat = false := fun a ha => by
    simpa using List.all_eq_true.1 e2 a ha
  have hY : ∀ q, q < 2 → (Grid.dense tr.d).branch fo0 ⟨aY, 0⟩ q = ["red", "green"].getD q "" := by
    intro q hq; rw [← e4]; simp [List.getD, hq]
  have hZ : ∀ q, q < 2 → (Grid.dense tr.d).branch fo0 ⟨aZ, 0⟩ q = ["p", "q"].getD q "" := by
    intro q hq; rw [← e5]; simp [List.getD, hq]
  have zY : condEntropy (Real.logb 2) (fun r => ["a", "b"].getD r "") ((Grid.dense tr.d).branch fo0 ⟨aY, 0⟩) 2 = 0 := by
    rw [condEntropy_congr _ hY]
    have : ∀ p, p < 2 → ∀ q, q < 2 → ["red", "green"].getD p "" = ["red", "green"].getD q "" →
      ["a", "b"].getD p "" = ["a", "b"].getD q "" := by decide
    exact condEntropy_zero logb_logarithm fun p q hp hq => this p hp q hq
  have zZ : condEntropy (Real.logb 2) (fun r => ["a", "b"].getD r "") ((Grid.dense tr.d).branch fo0 ⟨aZ, 0⟩) 2 = 0 := by
    rw [condEntropy_congr _ hZ]
    have : ∀ p, p < 2 → ∀ q, q < 2 → ["p", "q"].getD p "" = ["p", "q"].getD q "" →
      ["a", "b"].getD p "" = ["a", "b"].getD q "" := by decide
    exact condEntropy_zero logb_logarithm fun p q hp hq => this p hp q hq
  have tie : ∀ a ∈ (Grid.dense tr.d).inputs aC, ∀ b ∈ (Grid.dense tr.d).inputs aC,
      infoGainOf (Real.logb 2) (valuesAndLabels ((Grid.dense tr.d).branch fo0 ⟨b, 0⟩) (fun r => ["a", "b"].getD r "") (List.range 2)) ≤
      infoGainOf (Real.logb 2) (valuesAndLabels ((Grid.dense tr.d).branch fo0 ⟨a, 0⟩) (fun r => ["a", "b"].getD r "") (List.range 2)) := by
    intro a ha b hb
    rw [e3] at ha hb
    rw [infoGainOf_rows, infoGainOf_rows]
    unfold gainOf
    simp only [List.mem_cons, List.not_mem_nil, or_false] at ha hb
    rcases ha with rfl | rfl <;> rcases hb with rfl | rfl <;> simp only [zY, zZ, le_refl]
  have hw : 3 ≤ (Grid.dense tr.d).allAttributes.length := by
    show 3 ≤ tr.d.allAttributes.length
    omega
  have hmix : ∃ p q, p < 2 ∧ q < 2 ∧ ["a", "b"].getD p "" ≠ ["a", "b"].getD q "" := ⟨0, 1, by decide, by decide, by decide⟩
  have mY : aY ∈ (Grid.dense tr.d).inputs aC := by rw [e3]; simp
  have mZ : aZ ∈ (Grid.dense tr.d).inputs aC := by rw [e3]; simp
  obtain ⟨B, d, c, keys, child, h⟩ := C151_ties (exEnv (Real.logb 2)) R (.dense tr.d) 2 _ aC D hcat hw hmix aY mY (tie aY mY)
  obtain ⟨B', d', c', keys', child', h'⟩ := C151_ties (exEnv (Real.logb 2)) R (.dense tr.d) 2 _ aC D hcat hw hmix aZ mZ (tie aZ mZ)
  obtain ⟨t, t1, t2, _⟩ := C48_fits _ _ (gain_builds B).1 (.dense tr.d) 2 _ aC D (catFloats hcat)
  obtain ⟨t', t1', t2', _⟩ := C48_fits _ _ (gain_builds B').1 (.dense tr.d) 2 _ aC D (catFloats hcat)
  rw [h] at t1
  rw [h'] at t1'
  cases t1; cases t1'
  obtain ⟨_, _, _, k4, k5⟩ := t2
  obtain ⟨_, _, _, k4', k5'⟩ := t2'
  have hred : "red" ∈ keys := (k4 _).2 ⟨0, by decide, hY 0 (by decide)⟩
  have hq : "q" ∈ keys' := (k4' _).2 ⟨1, by decide, hZ 1 (by decide)⟩
  obtain ⟨dl, l1⟩ := fits_leaf (c := "a") (k5 _ hred) (by
    intro q hq
    obtain ⟨q1, q2⟩ := List.mem_filter.1 hq
    have q1 := List.mem_range.1 q1
    have q2 : (Grid.dense tr.d).branch fo0 ⟨aY, 0⟩ q = "red" := eq_of_beq q2
    rw [hY q q1] at q2
    have : ∀ q, q < 2 → ["red", "green"].getD q "" = "red" → ["a", "b"].getD q "" = "a" := by decide
    exact this q q1 q2)
  obtain ⟨dl', l1'⟩ := fits_leaf (c := "b") (k5' _ hq) (by
    intro q hq
    obtain ⟨q1, q2⟩ := List.mem_filter.1 hq
    have q1 := List.mem_range.1 q1
    have q2 : (Grid.dense tr.d).branch fo0 ⟨aZ, 0⟩ q = "q" := eq_of_beq q2
    rw [hZ q q1] at q2
    have : ∀ q, q < 2 → ["p", "q"].getD q "" = "q" → ["a", "b"].getD q "" = "b" := by decide
    exact this q q1 q2)
  obtain ⟨p, p1, p2⟩ := C148_tree_partial pred0_ok W (t := .split d c ⟨aY, 0⟩ keys child) (k := fun _ => "a") (by
    intro r hr
    obtain rfl : r = 0 := by omega
    refine .split _ _ _ _ _ _ _ "red" _ e7 e9 (by decide +kernel) hred ?_
    rw [l1]; exact .leaf _ _)
  obtain ⟨p', p1', p2'⟩ := C148_tree_partial pred0_ok W (t := .split d' c' ⟨aZ, 0⟩ keys' child') (k := fun _ => "b") (by
    intro r hr
    obtain rfl : r = 0 := by omega
    refine .split _ _ _ _ _ _ _ "q" _ e8 e10 (by decide +kernel) hq ?_
    rw [l1']; exact .leaf _ _)
  have := hfull _ _ fo0 (Real.logb 2) (.dense tr.d) 2 _ aC pred0 pred0 (.dense wh.d) 1 _ _ p p' B B' D hcat pred0_ok pred0_ok rfl rfl W
    h h' p1 p1' 0 (by decide)
  have x1 := p2 0 (by decide)
  have x2 := p2' 0 (by decide)
  have x3 := (x1.symm.trans this).trans x2
  exact absurd (Res.ok.inj x3) (by decide)

end Examples

end Golearn
