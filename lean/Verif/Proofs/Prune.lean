import Verif.Proofs.TreePredict
import Verif.Props.C37
import Verif.Spec.Prune

/-! # Lemmas about pruning -/

namespace Golearn

/-- A view of some rows without one attribute. -/
theorem pruneData_visible {fo : FloatOps} {g : Grid} {n : Nat} {lab : Nat → String} {cls : Attr}
    (D : PruneData fo g n lab cls) {a : Attr} (ha : a ∈ g.allAttributes) (hac : a ≠ cls)
    {specs : List Spec} (hs : Resolved g specs)
    (hp : (specs.map Spec.attr).Perm (g.allAttributes.filter fun b => !b.equals a)) {rows : List Nat}
    (hr : ∀ r ∈ rows, r < n) (hne : rows ≠ []) (hle : rows.length ≤ n) :
    PruneData fo (Grid.viewFromVisible g rows specs) rows.length (fun i => lab (rows.getD i 0)) cls ∧
    (∀ b, b ∈ (Grid.viewFromVisible g rows specs).allAttributes ↔ b ∈ g.allAttributes ∧ b ≠ a) ∧
    ∀ b ∈ (Grid.viewFromVisible g rows specs).allAttributes, ∀ i (h : i < rows.length),
      (Grid.viewFromVisible g rows specs).cell b i = g.cell b rows[i] := by
  obtain ⟨V1, V2⟩ := visible_presents D.rows D.distinct hs hr
  have hmem : ∀ b, b ∈ (Grid.viewFromVisible g rows specs).allAttributes ↔ b ∈ g.allAttributes ∧ b ≠ a := by
    intro b
    show b ∈ specs.map Spec.attr ↔ _
    rw [hp.mem_iff, List.mem_filter]
    constructor
    · rintro ⟨h1, h2⟩
      refine ⟨h1, ?_⟩
      rintro rfl
      rw [C28_equals_refl] at h2; cases h2
    · rintro ⟨h1, h2⟩
      refine ⟨h1, ?_⟩
      cases he : b.equals a with
      | false => rfl
      | true => exact absurd (distinct_eq D.distinct h1 ha he) h2
  have hsub : ∀ b ∈ (Grid.viewFromVisible g rows specs).allAttributes, b ∈ g.allAttributes :=
    fun b hb => ((hmem b).1 hb).1
  have hcls : cls ∈ specs.map Spec.attr := (hmem cls).2 ⟨D.classIn, fun h => hac h.symm⟩
  refine ⟨⟨V1, ?_, ?_, ?_, List.length_pos_of_ne_nil hne, ?_, ?_, hcls, ?_, ?_⟩, hmem, V2⟩
  · exact distinct_perm hp.symm (D.distinct.filter _)
  · intro b hb i hi
    rw [V2 b hb i hi]
    exact D.typed b (hsub b hb) _ (hr _ (List.getElem_mem hi))
  · intro b hb i hi
    rw [V2 b hb i hi]
    exact D.readable b (hsub b hb) _ (hr _ (List.getElem_mem hi))
  · simp [Grid.size, Grid.viewFromVisible, Grid.allAttributes]
  · have hm : Grid.classMatched (some specs) cls = true := by
      obtain ⟨s, hsm, rfl⟩ := List.mem_map.1 hcls
      simp only [Grid.classMatched, List.any_eq_true]
      exact ⟨s, hsm, C28_equals_refl _⟩
    show ((Grid.classFromSrc (some specs) g.allClassAttributes).filter fun p => p.2).map Prod.fst = [cls]
    rw [D.classAttr]
    simp [Grid.classFromSrc, hm, GoMap.set]
  · intro i hi
    rw [V2 cls hcls i hi]
    have : rows.getD i 0 = rows[i] := by simp [List.getD, hi]
    simp only [this]
    exact D.label _ (hr _ (List.getElem_mem hi))
  · obtain ⟨p, nm, vs, h1, h2⟩ := D.cats
    exact ⟨p, nm, vs, h1, by omega⟩

/-- A descent ends. -/
theorem treeClass_total {fo : FloatOps} {g : Grid} {n : Nat}
    (P : g.Presents n) (T : g.typed n) (R : g.Readable fo n)
    {ord : List String → List String} (ho : ∀ l, (ord l).Perm l) {row : Nat} (hr : row < n) (t : Tree) :
    ∀ as, (∀ a ∈ as, a ∈ g.allAttributes) → t.Tests as → ∃ c, treeClass fo g ord row t = Res.ok c ∧
      (t.Knows (g.branch fo) row → c = t.classOf (g.branch fo) row) := by
  induction t with
  | leaf d c => intro as _ _; exact ⟨c, rfl, fun _ => rfl⟩
  | split d c r keys child ih =>
    intro as hsub h
    obtain ⟨h1, _, h3, _, h5⟩ := h
    obtain ⟨s, k1, k2, k3⟩ := P.read _ (hsub _ h1)
    have k4 := branch_key (fo := fo) T R (hsub _ h1) hr
    have down : ∀ k ∈ keys, ∃ c, treeClass fo g ord row (child k) = Res.ok c ∧
        ((child k).Knows (g.branch fo) row → c = (child k).classOf (g.branch fo) row) :=
      fun k hk => ih k _ (fun a ha => hsub a (List.mem_filter.1 ha).1) (h5 k hk)
    rw [treeClass]
    simp only [k1, Res.orPanic, Res.bind_ok, k3 row hr, k2, k4]
    by_cases hk : g.branch fo r row ∈ keys
    · rw [if_pos hk]
      obtain ⟨c, c1, c2⟩ := down _ hk
      exact ⟨c, c1, fun hkn => c2 hkn.2⟩
    · rw [if_neg hk]
      have hb : bestChild (g.branch fo r row) (ord keys) "" ∈ keys := by
        rw [← (ho keys).mem_iff]
        refine bestChild_mem _ _ _ ?_
        intro he
        have := (ho keys).length_eq
        rw [he] at this
        exact h3 (List.length_eq_zero_iff.1 this.symm)
      rw [if_pos hb]
      obtain ⟨c, c1, _⟩ := down _ hb
      exact ⟨c, c1, fun hkn => absurd hkn.1 hk⟩

/-- The accuracy of a tree is the fraction of the rows that it gives their label. -/
theorem treeAccuracy_spec {e : PredEnv} (E : e.Ok) {t : Tree} {g : Grid} {n : Nat} {lab : Nat → String} {cls : Attr}
    (D : PruneData e.fo g n lab cls) {f : Nat → String}
    (hf : ∀ r, r < n → treeClass e.fo g (e.ord r) r t = Res.ok (f r)) :
    treeAccuracy e t g = Res.ok (some (((List.range n).countP fun r => f r == lab r : Nat) / (n : ℚ))) := by
  obtain ⟨p, nm, vs, hc, hb⟩ := D.cats
  obtain ⟨d, d1, d2, d3⟩ := treePredict_spec E (t := t) (what := g) (n := n) (as := [])
    ⟨D.rows, D.typed, D.readable, ⟨p, nm, vs, by rw [D.classAttr, hc], hb⟩, by intro a ha; cases ha⟩
    (Q := fun r c => c = f r) (fun r hr => ⟨f r, hf r hr, rfl⟩)
  obtain ⟨m, m1, m2⟩ := confLoop_spec (fo := e.fo) (ref := g) (gen := .dense d) (k := lab) (l := f) (List.range n)
    (by
      intro r hr
      have hr := List.mem_range.1 hr
      obtain ⟨c, rfl, h⟩ := d3 r hr
      exact ⟨getClass_ok D.rows D.classAttr D.classIn D.label hr, h⟩)
    [] [] Counts.nil
  rw [List.nil_append] at m2
  have hcm : getConfusionMatrix e.fo g (.dense d) = Res.ok m := by
    have h2 : (Grid.dense d).size.2 = n := d2
    rw [getConfusionMatrix, D.rows.rows, h2, if_neg (by simp), m1]
  simp only [treeAccuracy, d1, Res.bind_ok, hcm]
  rw [accuracy_eq m2]
  have hn : (n : ℚ) ≠ 0 := by exact_mod_cast (Nat.pos_iff_ne_zero.1 D.nonempty)
  rw [fdiv, List.length_map, List.length_range, if_neg hn, rightCount, List.countP_map]
  congr 5
  funext r
  simp only [Function.comp]
  rw [Bool.beq_comm]

/-- A tree sees of two rows only the values it tests. -/
theorem tests_congr {key key' : Rule → Nat → String} {i j : Nat} (t : Tree) :
    ∀ {as : List Attr}, t.Tests as → (∀ r : Rule, r.attr ∈ as → key' r i = key r j) →
      (t.Knows key' i ↔ t.Knows key j) ∧ (t.Knows key j → t.classOf key' i = t.classOf key j) := by
  induction t with
  | leaf d c => intro _ _ _; exact ⟨Iff.rfl, fun _ => rfl⟩
  | split d c r keys child ih =>
    intro as h hk
    obtain ⟨h1, _, _, _, h5⟩ := h
    have e := hk r h1
    simp only [Tree.Knows, Tree.classOf, e]
    constructor
    · constructor
      · rintro ⟨a, b⟩
        exact ⟨a, ((ih _ (h5 _ a) fun r' hr' => hk r' (List.mem_filter.1 hr').1).1).1 b⟩
      · rintro ⟨a, b⟩
        exact ⟨a, ((ih _ (h5 _ a) fun r' hr' => hk r' (List.mem_filter.1 hr').1).1).2 b⟩
    · rintro ⟨a, b⟩
      exact (ih _ (h5 _ a) fun r' hr' => hk r' (List.mem_filter.1 hr').1).2 b

theorem countP_parts (key : Nat → String) (p q : Nat → Bool) (keys : List String) (hn : keys.Nodup) :
    ∀ rows : List Nat, (∀ r ∈ rows, key r ∈ keys) →
      (∀ k ∈ keys, (rows.filter fun r => key r == k).countP p ≤ (rows.filter fun r => key r == k).countP q) →
      rows.countP p ≤ rows.countP q := by
  induction keys with
  | nil =>
    intro rows h _
    cases rows with
    | nil => simp
    | cons a as => exact absurd (h a (by simp)) (by simp)
  | cons k ks ih =>
    intro rows h hk
    have split : ∀ s : Nat → Bool, rows.countP s =
        (rows.filter fun r => key r == k).countP s + (rows.filter fun r => !(key r == k)).countP s := by
      intro s
      rw [← List.countP_append]
      exact (List.filter_append_perm (fun r => key r == k) rows).symm.countP_eq s
    rw [split p, split q]
    refine Nat.add_le_add (hk k (by simp)) (ih (List.nodup_cons.1 hn).2 _ ?_ ?_)
    · intro r hr
      obtain ⟨hr, hne⟩ := List.mem_filter.1 hr
      rcases List.mem_cons.1 (h r hr) with e | e
      · rw [e] at hne; simp at hne
      · exact e
    · intro k' hk'
      have hne : k' ≠ k := by rintro rfl; exact (List.nodup_cons.1 hn).1 hk'
      have e : (rows.filter fun r => !(key r == k)).filter (fun r => key r == k') = rows.filter fun r => key r == k' := by
        rw [List.filter_filter]
        apply List.filter_congr
        intro r _
        by_cases hr : key r = k'
        · rw [hr]; simp [hne]
        · simp [hr]
      rw [e]
      exact hk k' (by simp [hk'])

theorem forall₂_fst {α β : Type} {R : α → α × β → Prop} (hR : ∀ x y, R x y → y.1 = x)
    {l : List α} {ys : List (α × β)} (h : List.Forall₂ R l ys) : ys.map Prod.fst = l := by
  induction h with
  | nil => rfl
  | cons hab _ ih => simp only [List.map_cons, ih, hR _ _ hab]

/-- The number of rows given their label by the descents of a prediction. -/
def rightRows (fo : FloatOps) (g : Grid) (ord : Nat → List String → List String) (lab : Nat → String) (n : Nat) (t : Tree) :
    Nat := (List.range n).countP fun r => decide (treeClass fo g (ord r) r t = Res.ok (lab r))

theorem right_eq_rightRows {fo : FloatOps} {g : Grid} {n : Nat} {lab : Nat → String} {ord : Nat → List String → List String}
    {t : Tree} {f : Nat → String} (hf : ∀ r, r < n → treeClass fo g (ord r) r t = Res.ok (f r)) :
    ((List.range n).countP fun r => f r == lab r) = rightRows fo g ord lab n t := by
  unfold rightRows
  apply List.countP_congr
  intro r hr
  rw [hf r (List.mem_range.1 hr)]
  simp

theorem flt_frac {a b n : Nat} (hn : 0 < n) : flt (some ((a : ℚ) / n)) (some ((b : ℚ) / n)) = decide (a < b) := by
  have : (0 : ℚ) < n := by exact_mod_cast hn
  unfold flt
  rw [decide_eq_decide, div_lt_div_iff_of_pos_right this]
  exact_mod_cast Iff.rfl

/-- What the children of a pruned node are. -/
theorem pruneTree_spec {e : PruneEnv} (E : e.Ok) (t : Tree) :
    ∀ (path : List String) (g : Grid) (n : Nat) (lab : Nat → String) (cls : Attr), PruneData e.fo g n lab cls →
      t.Tests (g.inputs cls) →
      ∃ t', pruneTree e t path g = Res.ok t' ∧ t'.Tests (g.inputs cls) ∧
        (g.NumbersApart e.fo n → (∀ r, r < n → t.Knows (g.branch e.fo) r) →
          (∀ r, r < n → t'.Knows (g.branch e.fo) r) ∧
          t.right (g.branch e.fo) lab (List.range n) ≤ t'.right (g.branch e.fo) lab (List.range n)) ∧
        ∀ d c r keys child, t = .split d c r keys child → ∃ child',
          (.split d c r keys child' : Tree).Tests (g.inputs cls) ∧
          t' = if rightRows e.fo g (e.pred path true).ord lab n (.leaf d c) <
              rightRows e.fo g (e.pred path false).ord lab n (.split d c r keys child') then .split d c r keys child'
            else .leaf d c := by
  induction t with
  | leaf d c =>
    intro path g n lab cls D _
    exact ⟨.leaf d c, rfl, trivial, fun _ h => ⟨h, Nat.le_refl _⟩, fun _ _ _ _ _ h => by cases h⟩
  | split d c r keys child ih =>
    intro path g n lab cls D ht
    obtain ⟨h1, h2, h3, h4, h5⟩ := ht
    obtain ⟨hra, hrc⟩ := List.mem_filter.1 h1
    have hrc : r.attr ≠ cls := by simpa using hrc
    obtain ⟨s, s1, s2, _⟩ := D.rows.read _ hra
    have hstr : ∀ q, ∃ str, q < n → r.attr.getString e.fo (g.cell r.attr q) = Res.ok str := by
      intro q
      by_cases hq : q < n
      · obtain ⟨str, h⟩ := D.readable _ hra q hq
        exact ⟨str, fun _ => h⟩
      · exact ⟨"", fun h => absurd h hq⟩
    choose str hstr using hstr
    obtain ⟨parts, specs, p1, p2, p3, p4, p5, p6⟩ := decomposeWith_views D.rows E.sort hra s1
      (key := s.attr.getString e.fo) (k := str) (by intro q hq; rw [s2]; exact hstr q hq) (E.rowOrder path g)
    have hperm := D.rows.order _ (E.rowOrder path g)
    have hsplit : decomposeValues e.fo e.srt g r.attr (e.order path g) = Res.ok parts := by
      simp only [decomposeValues, s1, Res.orPanic, Res.bind_ok, p1]
    have hbr : r.attr.isFloat = false → ∀ q, q < n → g.branch e.fo r q = str q := by
      intro hf q hq
      unfold Grid.branch
      simp only [hf, Bool.false_eq_true, if_false, hstr q hq]
    -- the children
    obtain ⟨ch, c1, c2⟩ := mapRes_forall₂
      (f := fun k => match GoMap.get? parts k with
        | none => Res.ok (k, child k)
        | some s =>
          if s.size.1 = 0 ∨ s.size.2 = 0 then Res.ok (k, child k)
          else (pruneTree e (child k) (path ++ [k]) s).map fun t => (k, t))
      (R := fun k q => q.1 = k ∧ q.2.Tests ((g.inputs cls).filter fun a => a ≠ r.attr) ∧
        (g.NumbersApart e.fo n → (∀ i, i < n → g.branch e.fo r i = k → (child k).Knows (g.branch e.fo) i) →
          (∀ i, i < n → g.branch e.fo r i = k → q.2.Knows (g.branch e.fo) i) ∧
          (child k).right (g.branch e.fo) lab ((List.range n).filter fun i => g.branch e.fo r i == k) ≤
            q.2.right (g.branch e.fo) lab ((List.range n).filter fun i => g.branch e.fo r i == k))) keys (by
      intro k hk
      have hT := h5 k hk
      cases hg : GoMap.get? parts k with
      | none => exact ⟨(k, child k), rfl, rfl, hT, fun _ h => ⟨h, Nat.le_refl _⟩⟩
      | some sg =>
        simp only
        have hmem := (GoMap.get?_of_mem parts p4 k sg).2 hg
        have hview := p6 _ hmem
        obtain ⟨rows, hrowsdef⟩ : ∃ rows, rows = (e.order path g).filter fun q => str q == k := ⟨_, rfl⟩
        simp only [← hrowsdef] at hview
        have hrows : ∀ q ∈ rows, q < n := by
          intro q hq
          rw [hrowsdef] at hq
          exact List.mem_range.1 (hperm.mem_iff.1 (List.mem_filter.1 hq).1)
        have hrne : rows ≠ [] := by
          obtain ⟨q, hq, hqk⟩ := (p5 k).1 (List.mem_map_of_mem hmem)
          apply List.ne_nil_of_mem (a := q)
          rw [hrowsdef, List.mem_filter]
          exact ⟨hperm.mem_iff.2 (List.mem_range.2 hq), by simp [hqk]⟩
        have hle : rows.length ≤ n := by
          rw [hrowsdef]
          have := List.length_filter_le (fun q => str q == k) (e.order path g)
          have := hperm.length_eq
          rw [List.length_range] at this
          omega
        obtain ⟨V1, V2, V3⟩ := pruneData_visible D hra hrc p2 p3 hrows hrne hle
        rw [← hview] at V1 V2 V3
        have hsz : ¬(sg.size.1 = 0 ∨ sg.size.2 = 0) := by
          have e1 := V1.rows.rows
          have e2 := List.length_pos_of_mem V1.classIn
          have e3 := V1.width
          have e4 := V1.nonempty
          omega
        rw [if_neg hsz]
        have hin : ∀ a, a ∈ sg.inputs cls ↔ a ∈ (g.inputs cls).filter fun a => a ≠ r.attr := by
          intro a
          simp only [Grid.inputs, List.mem_filter, V2 a, decide_eq_true_eq, ne_eq]
          constructor
          · rintro ⟨⟨x, y⟩, z⟩; exact ⟨⟨x, z⟩, y⟩
          · rintro ⟨⟨x, y⟩, z⟩; exact ⟨⟨x, z⟩, y⟩
        obtain ⟨t', t1, t2, t3, _⟩ := ih k (path ++ [k]) sg _ _ cls V1 (tests_mono _ (fun a ha => (hin a).2 ha) hT)
        have t2' := tests_mono _ (fun a ha => (hin a).1 ha) t2
        refine ⟨(k, t'), by rw [t1, Res.map_ok], rfl, t2', ?_⟩
        intro hap hkn
        have hap' : sg.NumbersApart e.fo rows.length := by
          intro a ha hf i hi str hs
          rw [V3 a ha i hi] at hs
          exact hap a ((V2 a).1 ha).1 hf _ (hrows _ (List.getElem_mem hi)) str hs
        -- the test is not of a number
        have hfl : r.attr.isFloat = false := by
          cases hf : r.attr.isFloat with
          | false => rfl
          | true =>
            obtain ⟨q, hq, hqk⟩ := (p5 k).1 (List.mem_map_of_mem hmem)
            have := hap _ hra hf q hq _ (hstr q hq)
            rw [hqk] at this
            rcases h4 hf k hk with h | h
            · exact absurd h this.1
            · exact absurd h this.2
        have hkey : ∀ i (hi : i < rows.length), ∀ r' : Rule, r'.attr ∈ sg.inputs cls →
            sg.branch e.fo r' i = g.branch e.fo r' (rows.getD i 0) := by
          intro i hi r' hr'
          have : rows.getD i 0 = rows[i] := by simp [List.getD, hi]
          rw [this]
          unfold Grid.branch
          rw [V3 _ (List.mem_filter.1 hr').1 i hi]
        have hbrk : ∀ i (hi : i < rows.length), rows.getD i 0 < n ∧ g.branch e.fo r (rows.getD i 0) = k := by
          intro i hi
          have h : rows.getD i 0 = rows[i] := by simp [List.getD, hi]
          rw [h]
          have hm := List.getElem_mem hi
          refine ⟨hrows _ hm, ?_⟩
          rw [hbr hfl _ (hrows _ hm)]
          have hall : ∀ q ∈ rows, str q = k := by
            intro q hq
            rw [hrowsdef] at hq
            simpa using (List.mem_filter.1 hq).2
          exact hall _ hm
        have hrp : rows.Perm ((List.range n).filter fun i => g.branch e.fo r i == k) := by
          rw [hrowsdef]
          refine (hperm.filter _).trans ?_
          rw [List.filter_congr]
          intro i hi
          rw [hbr hfl i (List.mem_range.1 hi)]
        have hC := fun i hi => tests_congr (child k) (tests_mono _ (fun a ha => (hin a).2 ha) hT) (hkey i hi)
        have hC' := fun i hi => tests_congr t' t2 (hkey i hi)
        obtain ⟨u1, u2⟩ := t3 hap' (by
          intro i hi
          exact (hC i hi).1.2 (hkn _ (hbrk i hi).1 (hbrk i hi).2))
        have hkn' : ∀ i, i < n → g.branch e.fo r i = k → t'.Knows (g.branch e.fo) i := by
          intro i hi hik
          have : i ∈ rows := hrp.mem_iff.2 (List.mem_filter.2 ⟨List.mem_range.2 hi, by simp [hik]⟩)
          obtain ⟨j, hj, rfl⟩ := List.getElem_of_mem this
          have h : rows.getD j 0 = rows[j] := by simp [List.getD, hj]
          have := (hC' j hj).1.1 (u1 j hj)
          rwa [h] at this
        refine ⟨hkn', ?_⟩
        have tr : ∀ (u : Tree), (∀ i (hi : i < rows.length), u.classOf (sg.branch e.fo) i =
              u.classOf (g.branch e.fo) (rows.getD i 0)) →
            u.right (sg.branch e.fo) (fun i => lab (rows.getD i 0)) (List.range rows.length) =
              u.right (g.branch e.fo) lab ((List.range n).filter fun i => g.branch e.fo r i == k) := by
          intro u hu
          unfold Tree.right
          rw [← hrp.countP_eq]
          conv_rhs => rw [← map_getD_range rows]
          rw [List.countP_map]
          apply List.countP_congr
          intro i hi
          rw [Function.comp, hu i (List.mem_range.1 hi)]
        rw [tr (child k) (fun i hi => (hC i hi).2 (hkn _ (hbrk i hi).1 (hbrk i hi).2)),
          tr t' (fun i hi => (hC' i hi).2 (hkn' _ (hbrk i hi).1 (hbrk i hi).2))] at u2
        exact u2)
    have hfst : ch.map Prod.fst = keys := forall₂_fst (fun _ _ h => h.1) c2
    obtain ⟨child', hchild⟩ : ∃ child' : String → Tree, child' = fun k => (GoMap.get? ch k).getD (child k) := ⟨_, rfl⟩
    have hR : ∀ k ∈ keys, (child' k).Tests ((g.inputs cls).filter fun a => a ≠ r.attr) ∧
        (g.NumbersApart e.fo n → (∀ i, i < n → g.branch e.fo r i = k → (child k).Knows (g.branch e.fo) i) →
          (∀ i, i < n → g.branch e.fo r i = k → (child' k).Knows (g.branch e.fo) i) ∧
          (child k).right (g.branch e.fo) lab ((List.range n).filter fun i => g.branch e.fo r i == k) ≤
            (child' k).right (g.branch e.fo) lab ((List.range n).filter fun i => g.branch e.fo r i == k)) := by
      intro k hk
      rw [← hfst] at hk
      obtain ⟨⟨k', t⟩, hkt, rfl⟩ := List.mem_map.1 hk
      have hget := (GoMap.get?_of_mem ch (by rw [hfst]; exact h2) k' t).1 hkt
      obtain ⟨x, _, x1, x2, x3⟩ := forall₂_mem_right c2 (k', t) hkt
      simp only at x1 x2 x3
      subst x1
      simp only [hchild, hget, Option.getD_some]
      exact ⟨x2, x3⟩
    have hT1 : (Tree.split d c r keys child').Tests (g.inputs cls) := ⟨h1, h2, h3, h4, fun k hk => (hR k hk).1⟩
    have hin : ∀ a ∈ g.inputs cls, a ∈ g.allAttributes := fun a ha => (List.mem_filter.1 ha).1
    -- the accuracies
    have htot : ∀ b (u : Tree), u.Tests (g.inputs cls) → ∃ f : Nat → String, (∀ i, i < n →
        treeClass e.fo g ((e.pred path b).ord i) i u = Res.ok (f i)) ∧
        ∀ i, i < n → u.Knows (g.branch e.fo) i → f i = u.classOf (g.branch e.fo) i := by
      intro b u hu
      have : ∀ i, ∃ c, i < n → treeClass e.fo g ((e.pred path b).ord i) i u = Res.ok c ∧
          (u.Knows (g.branch e.fo) i → c = u.classOf (g.branch e.fo) i) := by
        intro i
        by_cases hi : i < n
        · obtain ⟨c, c1⟩ := treeClass_total D.rows D.typed D.readable ((E.pred path b).children i) hi u _ hin hu
          exact ⟨c, fun _ => c1⟩
        · exact ⟨"", fun h => absurd h hi⟩
      choose f hf using this
      exact ⟨f, fun i hi => (hf i hi).1, fun i hi => (hf i hi).2⟩
    have hacc : ∀ b (u : Tree), u.Tests (g.inputs cls) → treeAccuracy (e.pred path b) u g =
        Res.ok (some ((rightRows e.fo g (e.pred path b).ord lab n u : ℚ) / n)) := by
      intro b u hu
      obtain ⟨f, hf, _⟩ := htot b u hu
      rw [treeAccuracy_spec (E.pred path b) (by rw [E.fo]; exact D) (f := f) (by rw [E.fo]; exact hf),
        right_eq_rightRows hf]
    have hres : pruneTree e (.split d c r keys child) path g = Res.ok
        (if rightRows e.fo g (e.pred path true).ord lab n (.leaf d c) <
            rightRows e.fo g (e.pred path false).ord lab n (.split d c r keys child') then .split d c r keys child'
          else .leaf d c) := by
      rw [pruneTree, hsplit, Res.bind_ok]
      rw [Res.bind_eq_ok]
      refine ⟨ch, ?_, ?_⟩
      · rw [← c1]
        congr 1
      simp only
      rw [← hchild, hacc false _ hT1, Res.bind_ok, hacc true (.leaf d c) trivial, Res.map_ok, flt_frac D.nonempty]
      simp only [decide_eq_true_eq]
    refine ⟨_, hres, ?_, ?_, ?_⟩
    · split
      · exact hT1
      · trivial
    · intro hap hkn
      have hsub : ∀ k ∈ keys, (∀ i, i < n → g.branch e.fo r i = k → (child k).Knows (g.branch e.fo) i) := by
        intro k _ i hi hik
        have := (hkn i hi).2
        rwa [hik] at this
      have hkn1 : ∀ i, i < n → (Tree.split d c r keys child').Knows (g.branch e.fo) i := by
        intro i hi
        have hk := (hkn i hi).1
        exact ⟨hk, ((hR _ hk).2 hap (hsub _ hk)).1 i hi rfl⟩
      have hmono : (Tree.split d c r keys child).right (g.branch e.fo) lab (List.range n) ≤
          (Tree.split d c r keys child').right (g.branch e.fo) lab (List.range n) := by
        unfold Tree.right
        refine countP_parts (g.branch e.fo r) _ _ keys h2 _ (fun i hi => (hkn i (List.mem_range.1 hi)).1) ?_
        intro k hk
        have := ((hR k hk).2 hap (hsub k hk)).2
        unfold Tree.right at this
        have cg : ∀ ch : String → Tree, ((List.range n).filter fun i => g.branch e.fo r i == k).countP
            (fun i => (Tree.split d c r keys ch).classOf (g.branch e.fo) i == lab i) =
            ((List.range n).filter fun i => g.branch e.fo r i == k).countP
              fun i => (ch k).classOf (g.branch e.fo) i == lab i := by
          intro ch
          apply List.countP_congr
          intro i hi
          have : g.branch e.fo r i = k := by simpa using (List.mem_filter.1 hi).2
          simp only [Tree.classOf, this]
        rw [cg child, cg child']
        exact this
      have hright : ∀ b (u : Tree), u.Tests (g.inputs cls) → (∀ i, i < n → u.Knows (g.branch e.fo) i) →
          rightRows e.fo g (e.pred path b).ord lab n u = u.right (g.branch e.fo) lab (List.range n) := by
        intro b u hu hk
        obtain ⟨f, f1, f2⟩ := htot b u hu
        rw [← right_eq_rightRows f1]
        unfold Tree.right
        apply List.countP_congr
        intro i hi
        have hi := List.mem_range.1 hi
        rw [f2 i hi (hk i hi)]
      rw [hright true (.leaf d c) trivial (fun _ _ => trivial), hright false _ hT1 hkn1]
      split
      · exact ⟨hkn1, hmono⟩
      · rename_i hlt
        exact ⟨fun _ _ => trivial, hmono.trans (Nat.le_of_not_lt hlt)⟩
    · intro d' c' r' keys' child'' h
      cases h
      exact ⟨child', hT1, rfl⟩

end Golearn
