import Verif.Proofs.Sample
import Verif.Spec.Forest
import Verif.Props.C66

/-! # Lemmas about random forests -/

namespace Golearn

section
variable {K : Type} [Field K] [LinearOrder K]

/-- A sample of training data, and its twin: the rows drawn when cells are read, the rows of the data in iterations. -/
structure IsSample (fo : FloatOps) (g v w : Grid) (n : Nat) (lab : Nat → String) (cls : Attr) (rows : Nat → Nat) : Prop where
  src : ∃ lab0, TreeData fo g n lab0 cls
  twin : Twin v w n
  data : TreeData fo w n lab cls
  sub : ∀ a ∈ w.allAttributes, a ∈ g.allAttributes
  find : ∀ a ∈ w.allAttributes, w.getAttribute a = g.getAttribute a
  cells : ∀ a ∈ w.allAttributes, ∀ r, r < n → w.cell a r = g.cell a (rows r)
  drawn : ∀ r, r < n → rows r < n
  vals : ∀ sp r, v.rowVals sp r = g.rowVals sp r
  prep : ∀ sp, v.mapPrep sp = g.mapPrep sp
  order : ∀ o, v.RowOrder o → g.RowOrder o

theorem isSample {fo : FloatOps} {g : Grid} {n : Nat} {lab : Nat → String} {cls : Attr} (D : TreeData fo g n lab cls)
    {specs : List Spec} (hs : Resolved g specs) (hd : (specs.map Spec.attr).Pairwise fun a b => a.equals b = false)
    (hcls : cls ∈ specs.map Spec.attr) (hw : 2 ≤ specs.length) {rows : Nat → Nat} (hr : ∀ r, r < n → rows r < n) :
    IsSample fo g (sampleView g n rows specs) (Grid.viewFromVisible g ((List.range n).map rows) specs) n
      (fun i => lab (rows i)) cls rows := by
  have hrows : ∀ r ∈ (List.range n).map rows, r < n := by
    intro r h
    obtain ⟨i, hi, rfl⟩ := List.mem_map.1 h
    exact hr i (List.mem_range.1 hi)
  have hne : (List.range n).map rows ≠ [] := by
    have := D.nonempty
    intro h
    have := congrArg List.length h
    simp at this; omega
  obtain ⟨T1, T2⟩ := treeData_rows D hs hd hcls hw hrows hne
  have hlen : ((List.range n).map rows).length = n := by simp
  have hget : ∀ i, i < n → ((List.range n).map rows).getD i 0 = rows i := by
    intro i hi; simp [List.getD, hi]
  rw [hlen] at T1
  refine ⟨⟨lab, D⟩, sample_twin D.rows.rows D.classAttr rows specs, { T1 with label := ?_ }, ?_, ?_, ?_, hr,
    fun sp r => sample_vals .., fun sp => sample_prep .., fun o => (sample_order g n rows specs o).1⟩
  · intro i hi
    have := T1.label i hi
    rwa [hget i hi] at this
  · intro a ha
    obtain ⟨s, h, rfl⟩ := List.mem_map.1 (show a ∈ specs.map Spec.attr from ha)
    exact (hs s h).1
  · intro a ha
    obtain ⟨s, _, h1, _, h3⟩ := findSpec_spec D.distinct hs (show a ∈ specs.map Spec.attr from ha)
    rw [h3]
    simp only [Grid.viewFromVisible, Grid.getAttribute, h1]
  · intro a ha r hr'
    rw [T2 a ha r (by rw [hlen]; exact hr')]
    simp

variable {fo : FloatOps} {g v w : Grid} {n : Nat} {lab : Nat → String} {cls : Attr} {rows : Nat → Nat}

/-- Iterating over a sample. -/
theorem IsSample.iter (H : IsSample fo g v w n lab cls rows) {sp : List Spec}
    (hsp : ∀ s ∈ sp, ∃ a ∈ w.allAttributes, w.getAttribute a = Res.ok s) :
    v.mapPrep sp = Res.ok () ∧ ∀ r, r < n → v.rowVals sp r = Res.ok (sp.map fun s => g.cell s.attr r) := by
  obtain ⟨lab0, D⟩ := H.src
  obtain ⟨i1, i2⟩ := D.rows.iter sp (by
    intro s hs
    obtain ⟨a, ha, h⟩ := hsp s hs
    exact ⟨a, H.sub a ha, by rw [← H.find a ha]; exact h⟩)
  exact ⟨by rw [H.prep]; exact i1, fun r hr => by rw [H.vals]; exact i2 r hr⟩

theorem IsSample.perm (H : IsSample fo g v w n lab cls rows) {o : List Nat} (ho : v.RowOrder o) : o.Perm (List.range n) := by
  obtain ⟨lab0, D⟩ := H.src
  exact D.rows.order o (H.order o ho)

theorem IsSample.label (H : IsSample fo g v w n lab cls rows) {r : Nat} (hr : r < n) : getClass fo v r = Res.ok (lab r) := by
  rw [H.twin.getClass fo hr]
  exact getClass_ok H.data.rows H.data.classAttr H.data.classIn H.data.label hr

/-! ## The rule -/

/-- The scan of a numeric attribute of a sample ends. -/
theorem sample_numeric {e : RuleEnv K} (E : e.Ok) (H : IsSample e.fo g v w n lab cls rows) {val : U64 → K}
    {S : U64 → Prop} (X : g.ExactCells e n val S) {a : Attr} (ha : a ∈ w.allAttributes) (hf : a.isFloat = true) :
    ∃ o, numericEntropy e v a = Res.ok o := by
  obtain ⟨lab0, D⟩ := H.src
  obtain ⟨s, s1, s2, _⟩ := H.data.rows.read a ha
  obtain ⟨i1, i2⟩ := H.iter (sp := [s]) (by
    intro t ht
    rw [List.mem_singleton] at ht
    subst ht; exact ⟨a, ha, s1⟩)
  have hag := H.sub a ha
  have ho := H.perm (E.rowOrder v)
  have hlt : ∀ r ∈ e.order v, r < n := fun r hr => List.mem_range.1 (ho.mem_iff.1 hr)
  have hsz : v.size.2 = n := by rw [H.twin.size]; exact H.data.rows.rows
  set F : List (U64 × String) × List String → Nat → List (U64 × String) × List String :=
    fun st r => (st.1.set r (g.bitsAt a r, lab r), if lab r ∈ st.2 then st.2 else st.2 ++ [lab r]) with hF
  have hmap : v.mapOverRows [s] (e.order v) (refsCallback e.fo v) (List.replicate v.size.2 ((0 : U64), ""), []) =
      Res.ok ((e.order v).foldl F (List.replicate v.size.2 ((0 : U64), ""), []), false) := by
    unfold Grid.mapOverRows
    rw [i1, Res.bind_ok]
    refine mapOver_inv (fun st => st.1.length = n) _ (fun r => [g.cell a r]) _ F _ ?_ ?_ _ ?_
    · intro r hr
      rw [i2 r (hlt r hr)]
      simp only [List.map_cons, List.map_nil, s2]
    · intro st hst r hr
      obtain ⟨u, hu⟩ := unpack_typed D.typed hag hf (hlt r hr)
      have hb : g.bitsAt a r = u := by unfold Grid.bitsAt; rw [hu]
      constructor
      · simp only [refsCallback, H.label (hlt r hr), Res.bind_ok, hu, hst, hlt r hr, if_true, hF, hb]
      · rw [hF]; simpa using hst
    · simp [hsz]
  have hfst : ∀ (o : List Nat) (st : List (U64 × String) × List String),
      o.foldl F st = (o.foldl (fun l r => l.set r (g.bitsAt a r, lab r)) st.1,
        o.foldl (fun l r => if lab r ∈ l then l else l ++ [lab r]) st.2) := by
    intro o
    induction o with
    | nil => intro st; rfl
    | cons r rs ih => intro st; rw [List.foldl_cons, ih]; rfl
  rw [hfst] at hmap
  set L := (e.order v).foldl (fun l r => l.set r (g.bitsAt a r, lab r)) (List.replicate v.size.2 ((0 : U64), "")) with hL
  have hLeq : L = (List.range n).map fun r => (g.bitsAt a r, lab r) := by
    obtain ⟨l1, l2⟩ := foldl_set (fun r => (g.bitsAt a r, lab r)) (e.order v) (List.replicate v.size.2 ((0 : U64), ""))
    rw [List.length_replicate, hsz] at l1 l2
    apply List.ext_getElem?
    intro i
    by_cases hi : i < n
    · have := l2 i hi
      rw [if_pos (ho.mem_iff.2 (List.mem_range.2 hi))] at this
      rw [hL, hsz, this]
      simp [hi]
    · rw [List.getElem?_eq_none (by rw [hL, hsz]; omega), List.getElem?_eq_none (by simp; omega)]
  obtain ⟨p1, _⟩ := E.sort L
  have hS : ∀ p ∈ e.sortRefs L, S p.1 := by
    intro p hp
    have hp' := p1.mem_iff.1 hp
    rw [hLeq] at hp'
    obtain ⟨r, hr, rfl⟩ := List.mem_map.1 hp'
    obtain ⟨u, hu, hs⟩ := X.2 a hag hf r (List.mem_range.1 hr)
    simpa only [Grid.bitsAt, hu] using hs
  unfold numericEntropy numericRefs
  rw [H.twin.find a]
  simp only [s1, Res.orPanic, Res.bind_ok, Res.map_ok, hmap, keepState]
  apply scanLoop_total
  · intro i p q hp hq
    have : OrMid e.mid S (e.mid p.1 q.1) := Or.inr
      ⟨_, _, hS p (List.mem_of_getElem? hp), hS q (List.mem_of_getElem? hq), rfl⟩
    exact (X.1.feq _ _ this this).2 rfl
  · omega

end

section
variable {K : Type} [Field K] [LinearOrder K] [IsStrictOrderedRing K]
variable {fo : FloatOps} {g v w : Grid} {n : Nat} {lab : Nat → String} {cls : Attr} {rows : Nat → Nat}

/-- The generator of information gain answers for a sample too, with an attribute that is not the class attribute. -/
theorem sample_rule {e : RuleEnv K} (E : e.Ok) (H : IsSample e.fo g v w n lab cls rows) {val : U64 → K}
    {S : U64 → Prop} (X : g.ExactCells e n val S) :
    ∃ r, infoGain e v = Res.ok r ∧ ∀ rule, r = some rule → rule.attr ∈ w.allAttributes ∧ rule.attr ≠ cls := by
  have hnorm : v.normalAttrs = w.normalAttrs := by
    unfold Grid.normalAttrs; rw [H.twin.attrs, H.twin.cls]
  have hsub : ∀ a ∈ e.cands w.normalAttrs, a ∈ w.allAttributes ∧ a ≠ cls := by
    intro a ha
    have := List.mem_filter.1 ((cands_mem E H.data.classAttr a).1 ha)
    exact ⟨this.1, by simpa using this.2⟩
  obtain ⟨d, d1, _⟩ := baseEntropy_data (K := K) (e := e) H.data
  rw [← H.twin.dist H.data.rows.rows] at d1
  have htot : ∀ a ∈ w.allAttributes, ∃ p, localEntropy e v a = Res.ok p := by
    intro a ha
    by_cases hf : a.isFloat = true
    · obtain ⟨o, ho⟩ := sample_numeric E H X ha hf
      cases o with
      | none => exact ⟨(none, posInf), by simp only [localEntropy, hf, if_true, ho, Res.map_ok]⟩
      | some p => exact ⟨(some p.1, p.2), by simp only [localEntropy, hf, if_true, ho, Res.map_ok]⟩
    · have := localEntropy_cat E H.data ha (by simpa using hf)
      have e2 : localEntropy e v a = localEntropy e w a := by
        unfold localEntropy
        rw [if_neg hf, if_neg hf, H.twin.after H.data.rows.rows]
      exact ⟨_, e2.trans this⟩
  obtain ⟨l, l1, l2⟩ := pickMax_attr (f := fun a => (localEntropy e v a).map fun p => (subO (baseEntropy e.lg d) p.1, p.2))
    (as := e.cands w.normalAttrs) (by
      intro a ha
      obtain ⟨p, hp⟩ := htot a (hsub a ha).1
      exact ⟨_, by rw [hp, Res.map_ok]⟩)
  refine ⟨(pickMax l none).map Prod.snd, ?_, fun rule hr => hsub _ (l2 rule hr)⟩
  have hne := cands_ne E H.data
  unfold infoGain infoGainFrom
  rw [hnorm]
  cases hl : e.cands w.normalAttrs with
  | nil => exact absurd hl hne
  | cons a as =>
    rw [hl] at l1
    simp only [d1, Res.bind_ok]
    have : (fun a => (localEntropy e v a).map fun p => (a, subO (baseEntropy e.lg d) p.1, p.2)) =
        fun a => ((localEntropy e v a).map fun p => (subO (baseEntropy e.lg d) p.1, p.2)).map fun p => (a, p.1, p.2) := by
      funext a
      cases localEntropy e v a <;> rfl
    rw [this, l1, Res.map_ok]

end

section
variable {K : Type} [Field K] [LinearOrder K]
variable {fo : FloatOps} {g v w : Grid} {n : Nat} {lab : Nat → String} {cls : Attr} {rows : Nat → Nat}

/-- Without numeric attributes the generator only reads cells, so it looks at the rows drawn. -/
theorem sample_rule_cat {e : RuleEnv K} (H : IsSample e.fo g v w n lab cls rows) (E : e.Ok)
    (hcat : ∀ a ∈ w.allAttributes, a.isFloat = false) : infoGain e v = infoGain e w := by
  have hnorm : v.normalAttrs = w.normalAttrs := by
    unfold Grid.normalAttrs; rw [H.twin.attrs, H.twin.cls]
  unfold infoGain
  rw [hnorm]
  have hsub : ∀ a ∈ e.cands w.normalAttrs, localEntropy e v a = localEntropy e w a := by
    intro a ha
    have hm := (List.mem_filter.1 ((cands_mem E H.data.classAttr a).1 ha)).1
    unfold localEntropy
    rw [hcat a hm]
    simp only [Bool.false_eq_true, if_false, H.twin.after H.data.rows.rows]
  unfold infoGainFrom
  cases hl : e.cands w.normalAttrs with
  | nil => rfl
  | cons a as =>
    simp only [H.twin.dist H.data.rows.rows]
    congr 1
    funext d
    congr 1
    apply mapRes_congr
    intro b hb
    rw [hsub b (hl ▸ hb)]

end

/-! ## The split -/

section
variable {fo : FloatOps} {g v w : Grid} {n : Nat} {lab : Nat → String} {cls : Attr} {rows : Nat → Nat}

/-- Decomposing a sample groups its rows by the values of the rows of the data, not of the rows drawn. -/
theorem sample_decompose (H : IsSample fo g v w n lab cls rows)
    {srt : List Spec → List Spec} (hsrt : ∀ l, (srt l).Perm l) {a : Attr} (ha : a ∈ w.allAttributes)
    {s : Spec} (hs : w.getAttribute a = Res.ok s) {key : Bytes → Res String} {k : Nat → String}
    (hk : ∀ r, r < n → key (g.cell a r) = Res.ok (k r)) {order : List Nat} (ho : v.RowOrder order) :
    ∃ parts specs, decomposeWith srt v a s key order = Res.ok parts ∧ Resolved w specs ∧
      (specs.map Spec.attr).Perm (w.allAttributes.filter fun b => !b.equals a) ∧ (parts.map Prod.fst).Nodup ∧
      (∀ x, x ∈ parts.map Prod.fst ↔ ∃ r, r < n ∧ k r = x) ∧
      ∀ p ∈ parts, p.2 = Grid.viewFromVisible v (order.filter fun r => k r == p.1) specs := by
  have hp := H.perm ho
  have P := H.data.rows
  have hmem : ∀ r, r ∈ order ↔ r < n := fun r => by rw [hp.mem_iff, List.mem_range]
  have hwo : withoutAttr v a = withoutAttr w a := by unfold withoutAttr; rw [H.twin.attrs]
  have hres : ∀ as, v.resolveUnsorted as = w.resolveUnsorted as := by
    intro as
    unfold Grid.resolveUnsorted
    apply mapRes_congr
    intro b _
    rw [H.twin.find b]
  have hsub : ∀ b ∈ withoutAttr w a, b ∈ w.allAttributes := fun b hb => (List.mem_filter.1 hb).1
  obtain ⟨l, hl⟩ := P.resolve_total hsub
  obtain ⟨r1, r2⟩ := P.resolves hsub (specs := srt l) ⟨l, hl, hsrt l⟩
  have hsa := (P.get_spec ha hs).1
  obtain ⟨i1, i2⟩ := H.iter (sp := srt l ++ [s]) (by
    intro t ht
    rcases List.mem_append.1 ht with h | h
    · exact ⟨t.attr, (r2 t h).1, (r2 t h).2⟩
    · simp only [List.mem_singleton] at h
      subst h
      exact ⟨a, ha, hs⟩)
  obtain ⟨m, e1, e2, e3, e4⟩ := decompose_fold (g := g) (specs := srt l) (s := s) (key := key)
    (k := k) order (v.rowVals (srt l ++ [s]))
    (fun r hr => ⟨i2 r ((hmem r).1 hr), by rw [hsa]; exact hk r ((hmem r).1 hr)⟩) [] (by simp)
  have hkeys : (m.map fun p => (p.1, Grid.viewFromVisible v p.2 (srt l))).map Prod.fst = m.map Prod.fst := by
    rw [List.map_map]; rfl
  refine ⟨m.map fun p => (p.1, Grid.viewFromVisible v p.2 (srt l)), srt l, ?_, r2, r1, ?_, ?_, ?_⟩
  · simp only [decomposeWith, Grid.resolve, hwo, hres, hl, Res.map_ok, Res.bind_ok, Grid.mapOverRows, i1, e1]
  · rw [hkeys]; exact e2
  · intro x
    rw [hkeys, ← GoMap.isSome_iff_mem, e4 x]
    simp only [GoMap.get?, Option.isSome_none, Bool.false_eq_true, false_or]
    constructor
    · rintro ⟨r, hr, h⟩; exact ⟨r, (hmem r).1 hr, h⟩
    · rintro ⟨r, hr, h⟩; exact ⟨r, (hmem r).2 hr, h⟩
  · intro p hpm
    obtain ⟨q, hq, rfl⟩ := List.mem_map.1 hpm
    have hg := (GoMap.get?_of_mem m e2 q.1 q.2).1 hq
    have := e3 q.1
    rw [hg] at this
    simp only [Option.getD_some, GoMap.get?, Option.getD_none, List.nil_append] at this
    simp only [this]

theorem sample_split {e : TreeEnv} {path : List String} (H : IsSample e.fo g v w n lab cls rows)
    (hsrt : ∀ l, (e.srt l).Perm l) {r : Rule} (ha : r.attr ∈ w.allAttributes) (ho : v.RowOrder (e.order path v)) :
    ∃ parts specs, splitOn e path v r = Res.ok parts ∧ Resolved w specs ∧
      (specs.map Spec.attr).Perm (w.allAttributes.filter fun b => !b.equals r.attr) ∧ (parts.map Prod.fst).Nodup ∧
      (∀ x, x ∈ parts.map Prod.fst ↔ ∃ q, q < n ∧ g.branch e.fo r q = x) ∧
      ∀ p ∈ parts, p.2 =
        Grid.viewFromVisible v ((e.order path v).filter fun q => g.branch e.fo r q == p.1) specs := by
  obtain ⟨lab0, D⟩ := H.src
  have hag := H.sub _ ha
  obtain ⟨s, hs, hsa, _⟩ := H.data.rows.read _ ha
  by_cases hf : r.attr.isFloat = true
  · obtain ⟨parts, specs, h1, h2⟩ := sample_decompose H hsrt ha hs (key := thresholdKey e.fo r.val)
      (k := g.branch e.fo r) (by
        intro q hq
        have := branch_key D.typed D.readable hag hq
        rwa [if_pos hf] at this) ho
    exact ⟨parts, specs, by simp only [splitOn, hf, if_true, decomposeThreshold, H.twin.find, hs, Res.orPanic, Res.bind_ok, h1], h2⟩
  · obtain ⟨parts, specs, h1, h2⟩ := sample_decompose H hsrt ha hs (key := s.attr.getString e.fo)
      (k := g.branch e.fo r) (by
        intro q hq
        have := branch_key D.typed D.readable hag hq
        rw [if_neg hf] at this
        rw [hsa]; exact this) ho
    exact ⟨parts, specs, by simp only [splitOn, hf, Bool.false_eq_true, if_false, decomposeValues, H.twin.find, hs, Res.orPanic,
      Res.bind_ok, h1], h2⟩

end

/-! ## The tree -/

/-- Every leaf has a class that satisfies `ok`, every test is of an attribute of `as` and has branches. -/
def Tree.Answers (ok : String → Prop) (as : List Attr) : Tree → Prop
  | .leaf _ c => ok c
  | .split _ _ r keys child => r.attr ∈ as ∧ keys ≠ [] ∧ ∀ k ∈ keys, (child k).Answers ok as

theorem answers_of_fits {key : Rule → Nat → String} {lab : Nat → String} {as : List Attr} {ok : String → Prop} (t : Tree) :
    ∀ rows, t.Fits key lab rows → t.AllRules (fun r => r.attr ∈ as) → (∀ q ∈ rows, ok (lab q)) → t.Answers ok as := by
  induction t with
  | leaf d c =>
    intro rows h _ hok
    obtain ⟨q, hq, rfl⟩ := List.mem_map.1 h.1.1
    exact hok q hq
  | split d c r keys child ih =>
    intro rows h ha hok
    obtain ⟨_, ⟨p, hp, _⟩, _, h4, h5⟩ := h
    refine ⟨ha.1, List.ne_nil_of_mem ((h4 (key r p)).2 ⟨p, hp, rfl⟩), ?_⟩
    intro k hk
    exact ih k _ (h5 k hk) (ha.2 k hk) fun q hq => hok q (List.mem_filter.1 hq).1

theorem treeClass_answers {fo : FloatOps} {g : Grid} {n : Nat} {ok : String → Prop}
    {as : List Attr} (P : g.Presents n) (T : g.typed n) (R : g.Readable fo n) (hf : g.Finds as)
    {ord : List String → List String} (ho : ∀ l, (ord l).Perm l) {row : Nat} (hr : row < n) (t : Tree) :
    t.Answers ok as → ∃ c, treeClass fo g ord row t = Res.ok c ∧ ok c := by
  induction t with
  | leaf d c => intro h; exact ⟨c, rfl, h⟩
  | split d c r keys child ih =>
    intro h
    obtain ⟨ha, hkne, hch⟩ := h
    obtain ⟨s, v, k, k1, k2, k3⟩ := descent_key P T R ha hf r.val hr
    rw [treeClass]
    simp only [k1, Res.orPanic, Res.bind_ok, k2, k3]
    by_cases hk : k ∈ keys
    · rw [if_pos hk]; exact ih k (hch k hk)
    · rw [if_neg hk]
      have hb : bestChild k (ord keys) "" ∈ keys := by
        rw [← (ho keys).mem_iff]
        refine bestChild_mem _ _ _ ?_
        intro he
        have hp := ho keys
        rw [he] at hp
        exact hkne hp.nil_eq.symm
      rw [if_pos hb]
      exact ih _ (hch _ hb)

section
variable {K : Type} [Field K] [LinearOrder K] [IsStrictOrderedRing K]
variable {g v w : Grid} {n : Nat} {lab : Nat → String} {cls : Attr} {rows : Nat → Nat}

/-- A tree is built from a sample. -/
theorem sample_tree {e : TreeEnv} {S : U64 → Prop} (E : e.Ok S) (H : IsSample e.fo g v w n (fun i => lab (rows i)) cls rows)
    (hS : g.FloatsIn n S)
    (hgen : ∃ r, e.gen [] v = Res.ok r ∧ ∀ rule, r = some rule → rule.attr ∈ w.allAttributes ∧ rule.attr ≠ cls) :
    ∃ t, inferID3 e v = Res.ok t ∧ t.FitsSample (g.branch e.fo) lab rows n ∧
      (t.AllRules fun r => r.attr ∈ w.allAttributes ∧ r.attr ≠ cls) ∧
      (w.allAttributes.length = 2 → ∃ d c, t = .leaf d c) ∧
      (2 < w.allAttributes.length → (∃ r, e.gen [] v = Res.ok (some r)) → ∀ d c, t = .leaf d c →
        ∀ p, p < n → ∀ q, q < n → lab (rows p) = lab (rows q)) := by
  have D := H.data
  obtain ⟨m, hm, hnd, hne, hcount, hsome⟩ := treeDist D
  rw [← H.twin.dist D.rows.rows] at hm
  have hwid : w.size.1 = w.allAttributes.length := D.width
  have hlabs : (List.range n).map (fun i => lab (rows i)) = ((List.range n).map rows).map lab := by
    rw [List.map_map]; rfl
  have hlab : (List.range n).map (fun i => lab (rows i)) ≠ [] := by
    have := D.nonempty
    simp only [ne_eq, List.map_eq_nil_iff, List.range_eq_nil]; omega
  have hmaj := majorityClass_spec (E.classOrder [] (m.map Prod.fst)) hlab hcount hsome
  have hdesc : Describes lab ((List.range n).map rows) m (majorityClass m (e.classes [] (m.map Prod.fst))) := by
    unfold Describes
    rw [← hlabs]
    exact ⟨hmaj, hcount, hsome, hnd⟩
  unfold inferID3
  rw [H.twin.attrs]
  match m, hne with
  | [(c, k)], _ =>
    have hall : ∀ x, x ∈ (List.range n).map (fun i => lab (rows i)) ↔ x = c := by
      intro x; rw [← hsome x, GoMap.isSome_iff_mem]; simp
    have hlq : ∀ q, q < n → lab (rows q) = c := fun q hq => (hall _).1 (List.mem_map.2 ⟨q, List.mem_range.2 hq, rfl⟩)
    refine ⟨.leaf [(c, k)] c, by rw [inferLoop, hm, Res.bind_ok, H.twin.cls, D.classAttr], ?_, trivial,
      fun _ => ⟨_, _, rfl⟩, fun _ _ _ _ _ p hp q hq => by rw [hlq p hp, hlq q hq]⟩
    show Describes lab ((List.range n).map rows) [(c, k)] c
    unfold Describes
    rw [← hlabs]
    refine ⟨⟨(hall c).2 rfl, ?_⟩, hcount, hsome, hnd⟩
    intro c'
    by_cases h : c' = c
    · rw [h]
    · rw [List.count_eq_zero.2 (fun hm => h ((hall c').1 hm))]; exact Nat.zero_le _
  | x :: y :: rest, _ =>
    obtain ⟨m, hmdef⟩ : ∃ m, m = x :: y :: rest := ⟨_, rfl⟩
    have unf : inferLoop e (w.allAttributes.length + 1) [] v =
        if w.size.1 = 2 then Res.ok (.leaf m (majorityClass m (e.classes [] (m.map Prod.fst))))
        else
          (e.gen [] v).bind fun rule =>
            match rule with
            | none => Res.ok (.leaf m (majorityClass m (e.classes [] (m.map Prod.fst))))
            | some r =>
              (splitOn e [] v r).bind fun parts =>
                (mapRes (fun p => (inferLoop e w.allAttributes.length ([] ++ [p.1]) p.2).map fun t => (p.1, t)) parts).map fun ch =>
                  .split m (majorityClass m (e.classes [] (m.map Prod.fst))) r (ch.map Prod.fst) fun k =>
                    (GoMap.get? ch k).getD (.leaf [] "") := by
      rw [hmdef]
      rw [inferLoop, hm, Res.bind_ok, H.twin.cls, D.classAttr, H.twin.size]
      rfl
    rw [← hmdef] at hdesc
    by_cases hsz : w.size.1 = 2
    · rw [if_pos hsz] at unf
      exact ⟨_, unf, hdesc, trivial, fun _ => ⟨_, _, rfl⟩, fun h => by omega⟩
    · rw [if_neg hsz] at unf
      obtain ⟨rule, hgen, hrule⟩ := hgen
      rw [hgen, Res.bind_ok] at unf
      match rule, hrule, unf with
      | none, _, unf =>
        refine ⟨_, unf, hdesc, trivial, fun _ => ⟨_, _, rfl⟩, ?_⟩
        rintro _ ⟨r, hr⟩
        rw [hgen] at hr
        cases hr
      | some r, hrule, unf =>
        simp only at unf
        obtain ⟨hra, hrc⟩ := hrule r rfl
        have hw : 3 ≤ w.allAttributes.length := by
          have := D.wide; have := D.width; omega
        have hperm := H.perm (E.rowOrder [] v)
        obtain ⟨parts, specs, p1, p2, p3, p4, p5, p6⟩ := sample_split (path := []) H E.sort hra (E.rowOrder [] v)
        rw [p1, Res.bind_ok] at unf
        obtain ⟨ch, c1, c2⟩ := mapRes_forall₂
          (f := fun p => (inferLoop e w.allAttributes.length ([] ++ [p.1]) p.2).map fun t => (p.1, t))
          (R := fun p q => q.1 = p.1 ∧
            q.2.Fits (g.branch e.fo) lab (((List.range n).filter fun i => g.branch e.fo r i == p.1).map rows) ∧
            q.2.AllRules fun r => r.attr ∈ w.allAttributes ∧ r.attr ≠ cls) parts (by
          intro p hp
          have hkey : ∃ q, q < n ∧ g.branch e.fo r q = p.1 := (p5 p.1).1 (List.mem_map_of_mem hp)
          set L := (e.order [] v).filter (fun q => g.branch e.fo r q == p.1) with hL
          have hrows : ∀ q ∈ L, q < n := by
            intro q hq
            exact List.mem_range.1 (hperm.mem_iff.1 (List.mem_filter.1 hq).1)
          have hrne : L ≠ [] := by
            obtain ⟨q, hq, hqk⟩ := hkey
            apply List.ne_nil_of_mem (a := q)
            rw [hL, List.mem_filter]
            exact ⟨hperm.mem_iff.2 (List.mem_range.2 hq), by simp [hqk]⟩
          obtain ⟨T1, T2, T3, T4⟩ := treeData_visible D hra hrc hw p2 p3 hrows hrne
          obtain ⟨U1, U2⟩ := twin_visible H.twin hrows T1
          have hat : (Grid.viewFromVisible v L specs).allAttributes = (Grid.viewFromVisible w L specs).allAttributes := rfl
          have hcell : ∀ b ∈ (Grid.viewFromVisible v L specs).allAttributes, ∀ i (hi : i < L.length),
              (Grid.viewFromVisible v L specs).cell b i = g.cell b (rows L[i]) := by
            intro b hb i hi
            rw [hat] at hb
            rw [U2, T4 b hb i hi, H.cells b (T3 b hb) _ (hrows _ (List.getElem_mem hi))]
          obtain ⟨t, t1, t2, t3, _⟩ := inferLoop_spec E w.allAttributes.length ([] ++ [p.1]) _ _ _ cls U1 (by
            intro b hb hbf i hi
            rw [hcell b hb i hi]
            exact hS b (H.sub b (T3 b (hat ▸ hb))) hbf _ (H.drawn _ (hrows _ (List.getElem_mem hi)))) (by rw [hat]; omega)
          refine ⟨(p.1, t), by rw [p6 p hp, t1, Res.map_ok], rfl, ?_, allRules_imp (fun r' h => ⟨T3 _ (hat ▸ h.1), h.2⟩) t t3⟩
          refine fits_perm t ((hperm.filter _).map rows) ?_
          have := fits_map (key := g.branch e.fo) (lab := lab) (f := fun i => rows (L.getD i 0)) t
            (allRules_imp ?_ t t3) (fun i _ => rfl) t2
          · have e1 : (List.range L.length).map (fun i => rows (L.getD i 0)) =
                ((List.range L.length).map fun i => L.getD i 0).map rows := by rw [List.map_map]; rfl
            rw [e1, map_getD_range] at this
            exact this
          · rintro r' ⟨hr1, _⟩ i hi
            have hi' := List.mem_range.1 hi
            have : L.getD i 0 = L[i] := by simp [List.getD, hi']
            rw [this]
            unfold Grid.branch
            rw [hcell _ hr1 i hi'])
        rw [c1, Res.map_ok] at unf
        have hfst : ch.map Prod.fst = parts.map Prod.fst := forall₂_map_fst (fun _ _ h => h.1) c2
        have hchild : ∀ k ∈ ch.map Prod.fst, ∃ p ∈ parts, ∃ t, GoMap.get? ch k = some t ∧ k = p.1 ∧
            t.Fits (g.branch e.fo) lab (((List.range n).filter fun i => g.branch e.fo r i == p.1).map rows) ∧
            t.AllRules fun r => r.attr ∈ w.allAttributes ∧ r.attr ≠ cls := by
          intro k hk
          obtain ⟨⟨k', t⟩, hkt, rfl⟩ := List.mem_map.1 hk
          have hget := (GoMap.get?_of_mem ch (by rw [hfst]; exact p4) k' t).1 hkt
          obtain ⟨p, hp, h1, h2⟩ := forall₂_mem_right c2 (k', t) hkt
          exact ⟨p, hp, t, hget, h1, h2⟩
        refine ⟨_, unf, ⟨hdesc, ?_, by rw [hfst]; exact p4, ?_, ?_⟩, ⟨⟨hra, hrc⟩, ?_⟩, fun h => by omega,
          fun _ _ _ _ h => by cases h⟩
        · have hx := (hsome x.1).1 (by simp [GoMap.get?])
          have hy := (hsome y.1).1 (by
            rw [GoMap.isSome_iff_mem]; simp)
          obtain ⟨p, hp, hpx⟩ := List.mem_map.1 hx
          obtain ⟨q, hq, hqy⟩ := List.mem_map.1 hy
          refine ⟨p, List.mem_range.1 hp, q, List.mem_range.1 hq, ?_⟩
          rw [hpx, hqy]
          simp only [List.map_cons, List.nodup_cons, List.mem_cons, not_or] at hnd
          exact hnd.1.1
        · intro k
          rw [hfst, p5 k]
        · intro k hk
          obtain ⟨p, _, t, h1, h2, h3, _⟩ := hchild k hk
          subst h2
          simp only [h1, Option.getD_some]
          exact h3
        · intro k hk
          obtain ⟨p, _, t, h1, h2, _, h4⟩ := hchild k hk
          simp only [h1, Option.getD_some]
          exact h4

omit [Field K] [LinearOrder K] [IsStrictOrderedRing K] in
theorem answers_of_sample {key : Rule → Nat → String} {as : List Attr} {t : Tree} (hn : 0 < n)
    (h : t.FitsSample key lab rows n) (ha : t.AllRules fun r => r.attr ∈ as) :
    t.Answers (fun c => ∃ q, q < n ∧ lab (rows q) = c) as := by
  cases t with
  | leaf d c =>
    obtain ⟨q, hq, rfl⟩ := List.mem_map.1 (show c ∈ ((List.range n).map rows).map lab from h.1.1)
    obtain ⟨p, hp, rfl⟩ := List.mem_map.1 hq
    exact ⟨p, List.mem_range.1 hp, rfl⟩
  | split d c r keys child =>
    obtain ⟨_, _, _, h4, h5⟩ := h
    refine ⟨ha.1, List.ne_nil_of_mem ((h4 (key r 0)).2 ⟨0, hn, rfl⟩), ?_⟩
    intro k hk
    refine answers_of_fits _ _ (h5 k hk) (ha.2 k hk) ?_
    intro q hq
    obtain ⟨p, hp, rfl⟩ := List.mem_map.1 hq
    exact ⟨p, List.mem_range.1 (List.mem_filter.1 hp).1, rfl⟩

end

end Golearn
