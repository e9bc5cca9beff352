import Verif.Proofs.Growth

/-! # C139: a decision tree stops growing only when it must -/

namespace Golearn

section
variable {K : Type} [Field K] [LinearOrder K] [IsStrictOrderedRing K]

theorem inputs_cands {e : RuleEnv K} (E : e.Ok) {g : Grid} {cls : Attr} (hc : g.allClassAttributes = [cls]) (a : Attr) :
    a ∈ e.cands g.normalAttrs ↔ a ∈ g.inputs cls := cands_mem E hc a

/-- The generators of information gain, gain ratio and Gini find a rule for rows with different labels, unless each attribute
besides the class attribute is a number that is the same in all rows. Numbers may be repeated. -/
theorem C139_gives_up (e : RuleEnv K) (E : e.Ok) (val : U64 → K) (S : U64 → Prop) (X : ExactOn e val S) :
    GivesUpOnDull e.fo val S (infoGain e) ∧ GivesUpOnDull e.fo val S (gainRatioRule e) ∧
    GivesUpOnDull e.fo val S (giniRule e) := by
  refine ⟨?_, ?_, ?_⟩ <;> intro g n lab cls D hS hdiff hnone a ha
  · rw [← inputs_cands E D.classAttr] at ha
    have hsub : ∀ b ∈ e.cands g.normalAttrs, b ∈ g.allAttributes := fun b hb =>
      (List.mem_filter.1 ((cands_mem E D.classAttr b).1 hb)).1
    obtain ⟨d, d1, d2⟩ := baseEntropy_data (K := K) D
    unfold infoGain infoGainFrom at hnone
    cases hl : e.cands g.normalAttrs with
    | nil => rw [hl] at ha; cases ha
    | cons b bs =>
      rw [hl] at hnone ha hsub
      simp only [d1, Res.bind_ok] at hnone
      obtain ⟨l, l1, l2⟩ := Res.map_eq_ok.1 hnone
      exact select_none E D ⟨X, hS⟩ (fun o => subO (baseEntropy e.lg d) o) (by intro x; rw [d2]; simp [subO]) _ hsub l1
        (by simpa using l2) a ha
  · rw [← inputs_cands E D.classAttr] at ha
    have hsub : ∀ b ∈ e.cands g.normalAttrs, b ∈ g.allAttributes := fun b hb =>
      (List.mem_filter.1 ((cands_mem E D.classAttr b).1 hb)).1
    obtain ⟨d, d1, d2⟩ := baseEntropy_data (K := K) D
    obtain ⟨p, q, hp, hq, hpq⟩ := hdiff
    have hpos : 0 < entropyOf e.lg ((List.range n).map lab) :=
      entropyOf_pos E.log (List.mem_map_of_mem (List.mem_range.2 hp)) (List.mem_map_of_mem (List.mem_range.2 hq)) hpq
    unfold gainRatioRule gainRatioFrom at hnone
    cases hl : e.cands g.normalAttrs with
    | nil => rw [hl] at ha; cases ha
    | cons b bs =>
      rw [hl] at hnone ha hsub
      simp only [d1, Res.bind_ok] at hnone
      obtain ⟨l, l1, l2⟩ := Res.map_eq_ok.1 hnone
      refine select_none E D ⟨X, hS⟩ (fun o => gainRatio (baseEntropy e.lg d) o) ?_ _ hsub l1 (by simpa using l2) a ha
      intro x
      rw [d2]
      simp only [gainRatio, subO, Option.bind_some, Option.map_some]
      by_cases hx : x = 0
      · subst hx
        rw [if_pos rfl, sub_zero, if_pos hpos]; simp
      · rw [if_neg hx]; simp
  · obtain ⟨b, rest, t, _, h⟩ := C51_picks_first e E g n lab cls D val S ⟨X, hS⟩
    rw [h] at hnone
    cases hnone

/-- For all training data with exact numbers, repeated or not, and such a generator: a node of the tree is a leaf only if its
rows have one label, or at most one attribute has not been tested on the way, or all attributes not tested on the way are
numbers that are the same in all its rows. What is missing is that a single attribute that is left is tested too: see
`C139_last_attribute`. -/
theorem C139_grown_partial (e : TreeEnv) (S : U64 → Prop) (E : e.Ok S) (val : U64 → K)
    (hg : ∀ p, GivesUpOnDull e.fo val S (e.gen p)) (g : Grid) (n : Nat) (lab : Nat → String) (cls : Attr)
    (D : TreeData e.fo g n lab cls) (hS : g.FloatsIn n S) :
    ∃ t, inferID3 e g = Res.ok t ∧ t.GrownOut (g.branch e.fo) (g.number val) lab (g.inputs cls) (List.range n) := by
  obtain ⟨t, h1, _⟩ := inferLoop_spec E (g.allAttributes.length + 1) [] g n lab cls D hS (Nat.lt_succ_self _)
  exact ⟨t, h1, inferLoop_grown E hg _ [] g n lab cls D hS (Nat.lt_succ_self _) t h1⟩

/-- Rows that end up together with different labels agree on all attributes but one, if none is numeric. -/
theorem grown_mates {key : Rule → Nat → String} {num : Attr → Nat → K} {lab : Nat → String} (t : Tree) :
    ∀ (as : List Attr) (rows : List Nat) (r q : Nat), t.GrownOut key num lab as rows → t.Fits key lab rows →
      (∀ a ∈ as, a.isFloat = false) → r ∈ rows → q ∈ t.mates key rows r → lab q ≠ lab r →
      ∃ left : List Attr, left.length ≤ 1 ∧ ∀ a ∈ as, a ∉ left → ∃ v, key ⟨a, v⟩ q = key ⟨a, v⟩ r := by
  induction t with
  | leaf d c =>
    intro as rows r q hg _ hcat hr hq hne
    rcases hg with h | h | h
    · exact absurd (h q hq r hr) hne
    · exact ⟨as, h, fun a ha hn => absurd ha hn⟩
    · refine ⟨[], by simp, fun a ha _ => ?_⟩
      have := (h a ha).1
      rw [hcat a ha] at this; cases this
  | split d c rule keys child ih =>
    intro as rows r q hg hf hcat hr hq hne
    obtain ⟨_, _, _, h4, h5⟩ := hf
    have hk : key rule r ∈ keys := (h4 _).2 ⟨r, hr, rfl⟩
    obtain ⟨left, l1, l2⟩ := ih (key rule r) _ _ r q (hg _ hk) (h5 _ hk)
      (fun a ha => hcat a (List.mem_filter.1 ha).1) (List.mem_filter.2 ⟨hr, by simp⟩) hq hne
    refine ⟨left, l1, ?_⟩
    intro a ha hal
    by_cases hra : a = rule.attr
    · subst hra
      refine ⟨rule.val, ?_⟩
      have hmem : ∀ (t : Tree) (rows : List Nat), q ∈ t.mates key rows r → q ∈ rows := by
        intro t
        induction t with
        | leaf d c => intro rows h; exact h
        | split d c rule keys child ih => intro rows h; exact (List.mem_filter.1 (ih _ _ h)).1
      have := (List.mem_filter.1 (hmem _ _ hq)).2
      simpa using this
    · exact l2 a (List.mem_filter.2 ⟨ha, by simpa using hra⟩) hal

/-- The text in the column of an attribute. -/
def Grid.textAt (fo : FloatOps) (g : Grid) (a : Attr) (r : Nat) : String := g.branch fo ⟨a, 0⟩ r

/-- For all training data without numeric attributes: predicting the training data gives a row its own label, if rows with
another label differ from it in at least two attributes. What is missing is rows that differ in one attribute: see
`C139_last_attribute`. -/
theorem C139_training_rows_partial (e : TreeEnv) (E : e.Ok fun _ => False) (val : U64 → K)
    (hg : ∀ p, GivesUpOnDull e.fo val (fun _ => False) (e.gen p)) (g : Grid) (n : Nat) (lab : Nat → String) (cls : Attr)
    (D : TreeData e.fo g n lab cls) (hcat : ∀ a ∈ g.allAttributes, a.isFloat = false) (p : PredEnv) (hfo : p.fo = e.fo)
    (Pp : p.Ok) (W : TreeInput p.fo g n g.allAttributes) :
    ∃ t d, inferID3 e g = Res.ok t ∧ treePredict p t g = Res.ok d ∧ d.maxRow = n ∧
      ∀ r, r < n →
        (∀ q, q < n → lab q ≠ lab r → ∃ a ∈ g.inputs cls, ∃ b ∈ g.inputs cls, a ≠ b ∧
          g.textAt e.fo a q ≠ g.textAt e.fo a r ∧ g.textAt e.fo b q ≠ g.textAt e.fo b r) →
        getClass p.fo (.dense d) r = Res.ok (lab r) := by
  have hS : g.FloatsIn n fun _ => False := by
    intro a ha hf
    rw [hcat a ha] at hf; cases hf
  obtain ⟨t, d, h1, h2, h3, h4⟩ := C48_training_rows e _ E g n lab cls D hS p hfo Pp W
  obtain ⟨t', f1, f2, _⟩ := C48_fits e _ E g n lab cls D hS
  obtain ⟨t'', g1, g2⟩ := C139_grown_partial e _ E val hg g n lab cls D hS
  rw [h1] at f1 g1
  cases f1; cases g1
  refine ⟨t, d, h1, h2, h3, ?_⟩
  intro r hr hsep
  obtain ⟨m1, c, c1, c2⟩ := h4 r hr
  have hsame : ∀ q ∈ t.mates (g.branch e.fo) (List.range n) r, lab q = lab r := by
    intro q hq
    by_contra hne
    have hqn : q < n := by
      have hmem : ∀ (t : Tree) (rows : List Nat), q ∈ t.mates (g.branch e.fo) rows r → q ∈ rows := by
        intro t
        induction t with
        | leaf d c => intro rows h; exact h
        | split d c rule keys child ih => intro rows h; exact (List.mem_filter.1 (ih _ _ h)).1
      exact List.mem_range.1 (hmem _ _ hq)
    obtain ⟨left, l1, l2⟩ := grown_mates t _ _ r q g2 f2
      (fun a ha => hcat a (List.mem_filter.1 ha).1) (List.mem_range.2 hr) hq hne
    obtain ⟨a, ha, b, hb, hab, ha', hb'⟩ := hsep q hqn hne
    have key : ∀ a ∈ g.inputs cls, g.textAt e.fo a q ≠ g.textAt e.fo a r → a ∈ left := by
      intro a ha hd
      by_contra hal
      obtain ⟨v, hv⟩ := l2 a ha hal
      apply hd
      have hf := hcat a (List.mem_filter.1 ha).1
      unfold Grid.textAt
      unfold Grid.branch at hv ⊢
      simpa only [hf, Bool.false_eq_true, if_false] using hv
    have h1 := key a ha ha'
    have h2 := key b hb hb'
    match left, l1, h1, h2 with
    | [x], _, h1, h2 =>
      rw [List.mem_singleton] at h1 h2
      exact hab (h1.trans h2.symm)
  have : c = lab r := by
    obtain ⟨q, hq, rfl⟩ := List.mem_map.1 c2.1
    exact hsame q hq
  rw [c1, this]

theorem exactOn_false (e : RuleEnv K) (val : U64 → K) : ExactOn e val fun _ => False := by
  have no : ∀ u, ¬ OrMid e.mid (fun _ => False) u := by
    rintro u (h | ⟨_, _, h, _⟩) <;> exact h
  exact ⟨fun u _ h => absurd h (no u), fun u _ h => absurd h (no u), fun _ _ h => h.elim, fun _ _ h => h.elim⟩

/-- The whole claim, for tables without numeric attributes and trees with information gain: a training row gets its own label
if rows with another label differ from it in some attribute. -/
def C139_full (K : Type) [Field K] [LinearOrder K] : Prop :=
  ∀ (e : TreeEnv) (r : RuleEnv K), r.Ok → r.fo = e.fo → (∀ p, e.gen p = infoGain r) → e.Ok (fun _ => False) →
    ∀ (g : Grid) (n : Nat) (lab : Nat → String) (cls : Attr), TreeData e.fo g n lab cls →
    (∀ a ∈ g.allAttributes, a.isFloat = false) → ∀ p : PredEnv, p.fo = e.fo → p.Ok → TreeInput p.fo g n g.allAttributes →
    ∃ t d, inferID3 e g = Res.ok t ∧ treePredict p t g = Res.ok d ∧
      ∀ r, r < n → (∀ q, q < n → lab q ≠ lab r → ∃ a ∈ g.inputs cls, g.textAt e.fo a q ≠ g.textAt e.fo a r) →
        getClass p.fo (.dense d) r = Res.ok (lab r)

end

/-- The last attribute is never tested. In particular, for all training data with one attribute besides the class, and whatever
the rule generator, the tree is a leaf, and predicts one label for every row. -/
theorem C139_last_attribute (e : TreeEnv) (S : U64 → Prop) (E : e.Ok S) (g : Grid) (n : Nat) (lab : Nat → String) (cls : Attr)
    (D : TreeData e.fo g n lab cls) (h2 : g.allAttributes.length = 2) :
    ∃ d c, inferID3 e g = Res.ok (.leaf d c) ∧ Majority ((List.range n).map lab) c := by
  obtain ⟨m, hm, hnd, hne, hcount, hsome⟩ := treeDist D
  have hlab : (List.range n).map lab ≠ [] := by
    have := D.nonempty
    simp only [ne_eq, List.map_eq_nil_iff, List.range_eq_nil]; omega
  have hmaj := majorityClass_spec (E.classOrder [] (m.map Prod.fst)) hlab hcount hsome
  have hw : g.size.1 = 2 := D.width.trans h2
  unfold inferID3
  match m, hne, hm, hmaj, hsome with
  | [(c, k)], _, hm, _, hsome =>
    refine ⟨[(c, k)], c, by rw [inferLoop, hm, Res.bind_ok, D.classAttr], ?_⟩
    have hall : ∀ x, x ∈ (List.range n).map lab ↔ x = c := by
      intro x; rw [← hsome x, GoMap.isSome_iff_mem]; simp
    refine ⟨(hall c).2 rfl, ?_⟩
    intro c'
    by_cases h : c' = c
    · rw [h]
    · rw [List.count_eq_zero.2 (fun hm => h ((hall c').1 hm))]; exact Nat.zero_le _
  | x :: y :: rest, _, hm, hmaj, _ =>
    refine ⟨x :: y :: rest, _, ?_, hmaj⟩
    rw [inferLoop, hm, Res.bind_ok, D.classAttr]
    simp only [hw, if_true]

/-! ## Witnesses -/

section Examples
private def fo0 : FloatOps := ⟨fun _ _ => "", fun u v => decide (v.toNat < u.toNat)⟩
private def aX : Attr := ⟨4, .float "x" 2⟩
private def aY : Attr := ⟨1, .cat "y" ["red", "green", "blue"]⟩
private def aZ : Attr := ⟨3, .cat "z" ["p", "q"]⟩
private def aC : Attr := ⟨2, .cat "c" ["a", "b"]⟩
private noncomputable def env0 : TreeEnv :=
  ⟨fo0, id, fun _ g => someOrder g, fun _ l => l, fun _ => infoGain (exEnv (Real.logb 2))⟩
private def pred0 : PredEnv :=
  ⟨fo0, fun _ => none, 4096, id, id, someOrder, fun _ l => l⟩

private theorem env0_ok : env0.Ok (fun _ => False) :=
  ⟨fun _ => List.Perm.refl _, fun _ => someOrder_rowOrder, fun _ _ => List.Perm.refl _,
    fun _ => C50_information_gain_chooses _ (exEnv_ok logb_logarithm) (natVal (K := ℝ)) _ (exactOn_false _ _)⟩

private theorem pred0_ok : pred0.Ok :=
  ⟨fun _ => List.Perm.refl _, fun _ => List.Perm.refl _, someOrder_rowOrder, fun _ _ => List.Perm.refl _⟩

private def opsC : List Op :=
  [.add aY, .add aZ, .add aC, .addClass aC, .extend 4, .set 0 1 (packU64 1), .set 0 2 (packU64 2), .set 0 3 (packU64 2),
   .set 1 2 (packU64 1), .set 1 3 (packU64 1), .set 2 2 (packU64 1), .set 2 3 (packU64 1)]

/-- The hypotheses of `C139_training_rows_partial` hold for four rows with two attributes, and rows with different labels differ
in both. -/
theorem C139_witness : ∃ tr, run 4096 opsC = Res.ok tr ∧ env0.Ok (fun _ => False) ∧
    (∀ p, GivesUpOnDull env0.fo (natVal (K := ℝ)) (fun _ => False) (env0.gen p)) ∧
    TreeData env0.fo (.dense tr.d) 4 (fun r => ["a", "a", "b", "b"].getD r "") aC ∧
    (∀ a ∈ (Grid.dense tr.d).allAttributes, a.isFloat = false) ∧ pred0.Ok ∧
    TreeInput pred0.fo (.dense tr.d) 4 (Grid.dense tr.d).allAttributes ∧
    ∀ r, r < 4 → ∀ q, q < 4 → ["a", "a", "b", "b"].getD q "" ≠ ["a", "a", "b", "b"].getD r "" →
      (Grid.dense tr.d).textAt fo0 aY q ≠ (Grid.dense tr.d).textAt fo0 aY r ∧
      (Grid.dense tr.d).textAt fo0 aZ q ≠ (Grid.dense tr.d).textAt fo0 aZ r := by
  have e : ((run 4096 opsC).map fun tr =>
      (treeCheck fo0 tr.d 4 ["a", "a", "b", "b"] aC, inputCheck fo0 tr.d 4 tr.d.allAttributes,
        tr.d.allAttributes.all fun a => !a.isFloat,
        (List.range 4).all fun r => (List.range 4).all fun q =>
          decide (["a", "a", "b", "b"].getD q "" ≠ ["a", "a", "b", "b"].getD r "" →
            (Grid.dense tr.d).textAt fo0 aY q ≠ (Grid.dense tr.d).textAt fo0 aY r ∧
            (Grid.dense tr.d).textAt fo0 aZ q ≠ (Grid.dense tr.d).textAt fo0 aZ r))) =
      Res.ok (true, true, true, true) := by decide +kernel
  obtain ⟨tr, htr, e⟩ := Res.map_eq_ok.1 e
  simp only [Prod.mk.injEq] at e
  obtain ⟨e1, e2, e3, e4⟩ := e
  have Dt := denseOK_run (pg := 4096) (ops := opsC) (by decide) htr (by decide)
  refine ⟨tr, htr, env0_ok, fun _ => (C139_gives_up _ (exEnv_ok logb_logarithm) _ _ (exactOn_false _ _)).1,
    treeData_dense Dt e1, ?_, pred0_ok, treeInput_dense Dt e2, ?_⟩
  · intro a ha
    simpa using List.all_eq_true.1 e3 a ha
  · intro r hr q hq
    exact of_decide_eq_true (List.all_eq_true.1 (List.all_eq_true.1 e4 r (List.mem_range.2 hr)) q (List.mem_range.2 hq))

private def opsX : List Op :=
  [.add aX, .add aY, .add aC, .addClass aC, .extend 4, .set 0 0 (packU64 2), .set 0 1 (packU64 2),
   .set 0 2 (packU64 8), .set 0 3 (packU64 16), .set 1 1 (packU64 1), .set 2 2 (packU64 1)]

/-- The hypotheses of `C139_grown_partial` hold for numbers as well, here with a repeated one. -/
example : ∃ tr, run 4096 opsX = Res.ok tr ∧ env0.Ok (fun u => u.toNat % 2 = 0) ∧
    (∀ p, GivesUpOnDull env0.fo (natVal (K := ℝ)) (fun u => u.toNat % 2 = 0) (env0.gen p)) ∧
    TreeData env0.fo (.dense tr.d) 4 (fun r => ["a", "a", "b", "a"].getD r "") aC ∧
    (Grid.dense tr.d).FloatsIn 4 (fun u => u.toNat % 2 = 0) := by
  have e : ((run 4096 opsX).map fun tr => (treeCheck fo0 tr.d 4 ["a", "a", "b", "a"] aC, evenCheck tr.d 4)) =
      Res.ok (true, true) := by decide +kernel
  obtain ⟨tr, htr, e⟩ := Res.map_eq_ok.1 e
  simp only [Prod.mk.injEq] at e
  have Dt := denseOK_run (pg := 4096) (ops := opsX) (by decide) htr (by decide)
  exact ⟨tr, htr, ⟨fun _ => List.Perm.refl _, fun _ => someOrder_rowOrder, fun _ _ => List.Perm.refl _,
    fun _ => C50_information_gain_chooses _ (exEnv_ok logb_logarithm) _ _ (exEnv_exact _)⟩,
    fun _ => (C139_gives_up _ (exEnv_ok logb_logarithm) _ _ (exEnv_exact _)).1, treeData_dense Dt e.1, floatsIn_even e.2⟩

private def opsL : List Op :=
  [.add aY, .add aC, .addClass aC, .extend 2, .set 0 1 (packU64 1), .set 1 1 (packU64 1)]

/-- The whole claim is false: two rows, red with the label a and green with the label b, get the same label. -/
theorem C139_refuted : ¬ C139_full ℝ := by
  intro hfull
  have e : ((run 4096 opsL).map fun tr =>
      (treeCheck fo0 tr.d 2 ["a", "b"] aC, inputCheck fo0 tr.d 2 tr.d.allAttributes,
        tr.d.allAttributes.all fun a => !a.isFloat, decide (tr.d.allAttributes.length = 2),
        decide ((Grid.dense tr.d).textAt fo0 aY 0 ≠ (Grid.dense tr.d).textAt fo0 aY 1 ∧ aY ∈ (Grid.dense tr.d).inputs aC))) =
      Res.ok (true, true, true, true, true) := by decide +kernel
  obtain ⟨tr, htr, e⟩ := Res.map_eq_ok.1 e
  simp only [Prod.mk.injEq, decide_eq_true_eq] at e
  obtain ⟨e1, e2, e3, e4, e5, e6⟩ := e
  have Dt := denseOK_run (pg := 4096) (ops := opsL) (by decide) htr (by decide)
  have D := treeData_dense Dt e1
  have W : TreeInput pred0.fo (.dense tr.d) 2 (Grid.dense tr.d).allAttributes := treeInput_dense Dt e2
  obtain ⟨t, d, h1, h2, h3⟩ := hfull env0 _ (exEnv_ok logb_logarithm) rfl (fun _ => rfl) env0_ok (.dense tr.d) 2 _ aC D
    (fun a ha => by simpa using List.all_eq_true.1 e3 a ha) pred0 rfl pred0_ok W
  obtain ⟨m, c, k1, _⟩ := C139_last_attribute env0 _ env0_ok (.dense tr.d) 2 _ aC D e4
  rw [k1] at h1
  cases h1
  have h0 := h3 0 (by omega) (by
    intro q hq hne
    refine ⟨aY, e6, ?_⟩
    have : q = 1 := by
      rcases (by omega : q = 0 ∨ q = 1) with rfl | rfl
      · exact absurd rfl hne
      · rfl
    subst this
    exact fun h => e5 h.symm)
  have h1 := h3 1 (by omega) (by
    intro q hq hne
    refine ⟨aY, e6, ?_⟩
    have : q = 0 := by
      rcases (by omega : q = 0 ∨ q = 1) with rfl | rfl
      · rfl
      · exact absurd rfl hne
    subst this
    exact e5)
  obtain ⟨d', d1, _, d3⟩ := treePredict_spec pred0_ok W (t := .leaf m c) (Q := fun _ x => x = c) (by
    intro r hr
    exact ⟨c, rfl, rfl⟩)
  rw [h2] at d1
  cases d1
  obtain ⟨c0, p0, q0⟩ := d3 0 (by omega)
  obtain ⟨c1, p1, q1⟩ := d3 1 (by omega)
  rw [h0] at q0
  rw [h1] at q1
  cases q0; cases q1
  have := p0.trans p1.symm
  revert this
  decide

end Examples

end Golearn
