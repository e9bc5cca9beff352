import Verif.Props.C21
import Verif.Props.C23
import Verif.Props.C27
import Verif.Proofs.KnnSearch
import Verif.Spec.Tree

/-! # Lemmas about decision trees -/

namespace Golearn

/-! ## Fitting and reordering or renumbering of rows -/

theorem majority_perm {l l' : List String} (hp : l.Perm l') {c : String} (h : Majority l c) : Majority l' c :=
  ⟨hp.mem_iff.1 h.1, fun c' => by rw [← hp.count_eq, ← hp.count_eq]; exact h.2 c'⟩

theorem describes_perm {lab : Nat → String} {rows rows' : List Nat} (hp : rows.Perm rows') {d : GoMap String Nat}
    {c : String} (h : Describes lab rows d c) : Describes lab rows' d c :=
  ⟨majority_perm (hp.map lab) h.1, fun x => by rw [h.2.1 x, (hp.map lab).count_eq],
    fun x => by rw [h.2.2.1 x, (hp.map lab).mem_iff], h.2.2.2⟩

theorem fits_perm {key : Rule → Nat → String} {lab : Nat → String} (t : Tree) :
    ∀ {rows rows' : List Nat}, rows.Perm rows' → t.Fits key lab rows → t.Fits key lab rows' := by
  induction t with
  | leaf d c => intro rows rows' hp h; exact describes_perm hp h
  | split d c r keys child ih =>
    intro rows rows' hp h
    obtain ⟨h1, ⟨p, hpm, q, hq, hpq⟩, h3, h4, h5⟩ := h
    refine ⟨describes_perm hp h1, ⟨p, hp.mem_iff.1 hpm, q, hp.mem_iff.1 hq, hpq⟩, h3, ?_, ?_⟩
    · intro k
      rw [h4 k]
      constructor
      · rintro ⟨q, hq, e⟩; exact ⟨q, hp.mem_iff.1 hq, e⟩
      · rintro ⟨q, hq, e⟩; exact ⟨q, hp.mem_iff.2 hq, e⟩
    · intro k hk
      exact ih k (hp.filter _) (h5 k hk)

theorem allRules_imp {p q : Rule → Prop} (h : ∀ r, p r → q r) (t : Tree) : t.AllRules p → t.AllRules q := by
  induction t with
  | leaf d c => intro _; trivial
  | split d c r keys child ih => intro ht; exact ⟨h r ht.1, fun k hk => ih k (ht.2 k hk)⟩

/-- Renumbering the rows along `f`. -/
theorem fits_map {key key' : Rule → Nat → String} {lab lab' : Nat → String} {f : Nat → Nat} (t : Tree) :
    ∀ {rows : List Nat}, t.AllRules (fun r => ∀ i ∈ rows, key' r i = key r (f i)) →
      (∀ i ∈ rows, lab' i = lab (f i)) → t.Fits key' lab' rows → t.Fits key lab (rows.map f) := by
  induction t with
  | leaf d c =>
    intro rows _ hl h
    have e : rows.map lab' = (rows.map f).map lab := by
      rw [List.map_map]; exact List.map_congr_left hl
    unfold Tree.Fits Describes at *
    rw [← e]; exact h
  | split d c r keys child ih =>
    intro rows ha hl h
    have e : rows.map lab' = (rows.map f).map lab := by
      rw [List.map_map]; exact List.map_congr_left hl
    obtain ⟨h1, ⟨p, hpm, q, hq, hpq⟩, h3, h4, h5⟩ := h
    refine ⟨?_, ⟨f p, List.mem_map_of_mem hpm, f q, List.mem_map_of_mem hq, ?_⟩, h3, ?_, ?_⟩
    · unfold Describes at *
      rw [← e]; exact h1
    · rw [← hl p hpm, ← hl q hq]; exact hpq
    · intro k
      rw [h4 k]
      constructor
      · rintro ⟨q, hq, e⟩
        exact ⟨f q, List.mem_map_of_mem hq, by rw [← ha.1 q hq]; exact e⟩
      · rintro ⟨q, hq, e⟩
        obtain ⟨i, hi, rfl⟩ := List.mem_map.1 hq
        exact ⟨i, hi, by rw [ha.1 i hi]; exact e⟩
    · intro k hk
      have e2 : (rows.map f).filter (fun q => key r q == k) = (rows.filter fun q => key' r q == k).map f := by
        rw [List.filter_map]
        congr 1
        apply List.filter_congr
        intro i hi
        simp only [Function.comp, ha.1 i hi]
      rw [e2]
      refine ih k (allRules_imp ?_ _ (ha.2 k hk)) ?_ (h5 k hk)
      · intro r hr i hi; exact hr i (List.mem_filter.1 hi).1
      · intro i hi; exact hl i (List.mem_filter.1 hi).1

/-! ## Decomposition -/

/-- The parts of a decomposition, in full: their names are different, and each is a view of its rows. -/
theorem decomposeWith_views {g : Grid} {n : Nat} (P : g.Presents n)
    {srt : List Spec → List Spec} (hsrt : ∀ l, (srt l).Perm l) {a : Attr} (ha : a ∈ g.allAttributes)
    {s : Spec} (hs : g.getAttribute a = Res.ok s) {key : Bytes → Res String} {k : Nat → String}
    (hk : ∀ r, r < n → key (g.cell a r) = Res.ok (k r)) {order : List Nat} (ho : g.RowOrder order) :
    ∃ parts specs, decomposeWith srt g a s key order = Res.ok parts ∧ Resolved g specs ∧
      (specs.map Spec.attr).Perm (g.allAttributes.filter fun b => !b.equals a) ∧ (parts.map Prod.fst).Nodup ∧
      (∀ v, v ∈ parts.map Prod.fst ↔ ∃ r, r < n ∧ k r = v) ∧
      ∀ p ∈ parts, p.2 = Grid.viewFromVisible g (order.filter fun r => k r == p.1) specs := by
  have hp := P.order order ho
  have hmem : ∀ r, r ∈ order ↔ r < n := fun r => by rw [hp.mem_iff, List.mem_range]
  have hsub : ∀ b ∈ withoutAttr g a, b ∈ g.allAttributes := fun b hb => (List.mem_filter.1 hb).1
  obtain ⟨l, hl⟩ := P.resolve_total hsub
  obtain ⟨r1, r2⟩ := P.resolves hsub (specs := srt l) ⟨l, hl, hsrt l⟩
  have hsa := (P.get_spec ha hs).1
  obtain ⟨i1, i2⟩ := P.iter (srt l ++ [s]) (by
    intro t ht
    rcases List.mem_append.1 ht with h | h
    · exact ⟨t.attr, (r2 t h).1, (r2 t h).2⟩
    · simp only [List.mem_singleton] at h
      subst h
      exact ⟨a, ha, hs⟩)
  obtain ⟨m, e1, e2, e3, e4⟩ := decompose_fold (g := g) (specs := srt l) (s := s) (key := key)
    (k := k) order (g.rowVals (srt l ++ [s]))
    (fun r hr => ⟨i2 r ((hmem r).1 hr), by rw [hsa]; exact hk r ((hmem r).1 hr)⟩) [] (by simp)
  have hkeys : (m.map fun p => (p.1, Grid.viewFromVisible g p.2 (srt l))).map Prod.fst = m.map Prod.fst := by
    rw [List.map_map]; rfl
  refine ⟨m.map fun p => (p.1, Grid.viewFromVisible g p.2 (srt l)), srt l, ?_, r2, r1, ?_, ?_, ?_⟩
  · simp only [decomposeWith, Grid.resolve, hl, Res.map_ok, Res.bind_ok, Grid.mapOverRows, i1, e1]
  · rw [hkeys]; exact e2
  · intro v
    rw [hkeys, ← GoMap.isSome_iff_mem, e4 v]
    simp only [GoMap.get?, Option.isSome_none, Bool.false_eq_true, false_or]
    constructor
    · rintro ⟨r, hr, h⟩; exact ⟨r, (hmem r).1 hr, h⟩
    · rintro ⟨r, hr, h⟩; exact ⟨r, (hmem r).2 hr, h⟩
  · intro p hpm
    obtain ⟨q, hq, rfl⟩ := List.mem_map.1 hpm
    have hg := (GoMap.get?_of_mem m e2 q.1 q.2).1 hq
    have := e3 q.1
    rw [hg] at this
    simp only [Option.getD_some, GoMap.get?, Option.getD_none, List.nil_append] at this
    simp only [this]

theorem filter_length_erase {l : List Attr} (hd : l.Pairwise (fun a b => a.equals b = false)) {a : Attr} (ha : a ∈ l) :
    (l.filter fun b => !b.equals a).length + 1 = l.length := by
  have h1 : l.filter (fun b => !b.equals a) = l.filter fun b => b != a := by
    apply List.filter_congr
    intro b hb
    by_cases h : b = a
    · subst h; rw [C28_equals_refl]; simp
    · have : b.equals a = false := by
        cases he : b.equals a with
        | false => rfl
        | true => exact absurd (distinct_eq hd hb ha he) h
      rw [this]; simp [h]
  rw [h1, ← (distinct_nodup hd).erase_eq_filter, List.length_erase_of_mem ha]
  have := List.length_pos_of_mem ha
  omega

/-- A view of some rows of training data without one attribute is training data. -/
theorem treeData_visible {fo : FloatOps} {g : Grid} {n : Nat} {lab : Nat → String} {cls : Attr}
    (D : TreeData fo g n lab cls) {a : Attr} (ha : a ∈ g.allAttributes) (hac : a ≠ cls)
    (hw : 3 ≤ g.allAttributes.length) {specs : List Spec} (hs : Resolved g specs)
    (hp : (specs.map Spec.attr).Perm (g.allAttributes.filter fun b => !b.equals a)) {rows : List Nat}
    (hr : ∀ r ∈ rows, r < n) (hne : rows ≠ []) :
    TreeData fo (Grid.viewFromVisible g rows specs) rows.length (fun i => lab (rows.getD i 0)) cls ∧
    (Grid.viewFromVisible g rows specs).allAttributes.length + 1 = g.allAttributes.length ∧
    (∀ b ∈ (Grid.viewFromVisible g rows specs).allAttributes, b ∈ g.allAttributes) ∧
    ∀ b ∈ (Grid.viewFromVisible g rows specs).allAttributes, ∀ i (h : i < rows.length),
      (Grid.viewFromVisible g rows specs).cell b i = g.cell b rows[i] := by
  obtain ⟨V1, V2⟩ := visible_presents D.rows D.distinct hs hr
  have hlen : (Grid.viewFromVisible g rows specs).allAttributes.length + 1 = g.allAttributes.length := by
    rw [← filter_length_erase D.distinct ha, ← hp.length_eq]; rfl
  have hsub : ∀ b ∈ (Grid.viewFromVisible g rows specs).allAttributes, b ∈ g.allAttributes :=
    fun b hb => (List.mem_filter.1 (hp.mem_iff.1 hb)).1
  have hcls : cls ∈ specs.map Spec.attr := by
    rw [hp.mem_iff, List.mem_filter]
    refine ⟨D.classIn, ?_⟩
    cases he : cls.equals a with
    | false => rfl
    | true => exact absurd (distinct_eq D.distinct D.classIn ha he).symm hac
  refine ⟨⟨V1, ?_, ?_, ?_, List.length_pos_of_ne_nil hne, ?_, by omega, ?_, hcls, ?_⟩, hlen, hsub, V2⟩
  · exact distinct_perm hp.symm (D.distinct.filter _)
  · intro b hb i hi
    rw [V2 b hb i hi]
    exact D.typed b (hsub b hb) _ (hr _ (List.getElem_mem hi))
  · intro b hb i hi
    rw [V2 b hb i hi]
    exact D.readable b (hsub b hb) _ (hr _ (List.getElem_mem hi))
  · simp [Grid.size, Grid.viewFromVisible, Grid.allAttributes]
  · have hm : Grid.classMatched (some specs) cls = true := by
      obtain ⟨s, hsm, rfl⟩ := List.mem_map.1 hcls
      simp only [Grid.classMatched, List.any_eq_true]
      exact ⟨s, hsm, C28_equals_refl _⟩
    show ((Grid.classFromSrc (some specs) g.allClassAttributes).filter fun p => p.2).map Prod.fst = [cls]
    rw [D.classAttr]
    simp [Grid.classFromSrc, hm, GoMap.set]
  · intro i hi
    rw [V2 cls hcls i hi]
    have : rows.getD i 0 = rows[i] := by simp [List.getD, hi]
    simp only [this]
    exact D.label _ (hr _ (List.getElem_mem hi))

/-- The branch of a row in the language of the key functions of the decomposition. -/
theorem branch_key {fo : FloatOps} {g : Grid} {n : Nat} (T : g.typed n) (R : g.Readable fo n) {r : Rule}
    (ha : r.attr ∈ g.allAttributes) {row : Nat} (hr : row < n) :
    (if r.attr.isFloat then thresholdKey fo r.val (g.cell r.attr row)
      else r.attr.getString fo (g.cell r.attr row)) = Res.ok (g.branch fo r row) := by
  unfold Grid.branch
  by_cases hf : r.attr.isFloat = true
  · obtain ⟨u, hu⟩ := unpack_typed T ha hf hr
    simp only [hf, if_true, thresholdKey, hu, Res.map_ok]
  · obtain ⟨s, hs⟩ := R _ ha _ hr
    simp only [hf, Bool.false_eq_true, if_false, hs]

theorem splitOn_spec {e : TreeEnv} {path : List String} {g : Grid} {n : Nat} {lab : Nat → String} {cls : Attr}
    (D : TreeData e.fo g n lab cls) (hsrt : ∀ l, (e.srt l).Perm l) {r : Rule} (ha : r.attr ∈ g.allAttributes)
    (ho : g.RowOrder (e.order path g)) :
    ∃ parts specs, splitOn e path g r = Res.ok parts ∧ Resolved g specs ∧
      (specs.map Spec.attr).Perm (g.allAttributes.filter fun b => !b.equals r.attr) ∧ (parts.map Prod.fst).Nodup ∧
      (∀ v, v ∈ parts.map Prod.fst ↔ ∃ q, q < n ∧ g.branch e.fo r q = v) ∧
      ∀ p ∈ parts, p.2 =
        Grid.viewFromVisible g ((e.order path g).filter fun q => g.branch e.fo r q == p.1) specs := by
  obtain ⟨s, hs, hsa, _⟩ := D.rows.read _ ha
  by_cases hf : r.attr.isFloat = true
  · obtain ⟨parts, specs, h1, h2⟩ := decomposeWith_views D.rows hsrt ha hs (key := thresholdKey e.fo r.val)
      (k := g.branch e.fo r) (by
        intro q hq
        have := branch_key D.typed D.readable ha hq
        rwa [if_pos hf] at this) ho
    exact ⟨parts, specs, by simp only [splitOn, hf, if_true, decomposeThreshold, hs, Res.orPanic, Res.bind_ok, h1], h2⟩
  · obtain ⟨parts, specs, h1, h2⟩ := decomposeWith_views D.rows hsrt ha hs (key := s.attr.getString e.fo)
      (k := g.branch e.fo r) (by
        intro q hq
        have := branch_key D.typed D.readable ha hq
        rw [if_neg hf] at this
        rw [hsa]; exact this) ho
    exact ⟨parts, specs, by simp only [splitOn, hf, Bool.false_eq_true, if_false, decomposeValues, hs, Res.orPanic,
      Res.bind_ok, h1], h2⟩

/-! ## Class distribution -/

theorem classDistLoop_nodup {fo : FloatOps} {g : Grid} (rows : List Nat) :
    ∀ (m m' : GoMap String Nat), (m.map Prod.fst).Nodup → classDistLoop fo g rows m = Res.ok m' →
      (m'.map Prod.fst).Nodup := by
  induction rows with
  | nil =>
    intro m m' hn h
    simp only [classDistLoop, Res.ok.injEq] at h
    subst h; exact hn
  | cons r rs ih =>
    intro m m' hn h
    simp only [classDistLoop, Res.bind_eq_ok] at h
    obtain ⟨c, _, h⟩ := h
    exact ih _ _ (GoMap.nodup_set _ _ _ hn) h

theorem count_map_range (n : Nat) (lab : Nat → String) (c : String) :
    ((List.range n).map lab).count c = countRows n fun r => lab r == c := by
  rw [countRows, List.count, List.countP_map, List.countP_eq_length_filter]
  rfl

/-- What the class distribution of training data is. -/
theorem treeDist {fo : FloatOps} {g : Grid} {n : Nat} {lab : Nat → String} {cls : Attr} (D : TreeData fo g n lab cls) :
    ∃ m, getClassDistribution fo g = Res.ok m ∧ (m.map Prod.fst).Nodup ∧ m ≠ [] ∧
      (∀ c, (m.get? c).getD 0 = ((List.range n).map lab).count c) ∧
      ∀ c, (m.get? c).isSome ↔ c ∈ (List.range n).map lab := by
  obtain ⟨m, h1, h2, h3, _⟩ := C23_class_distribution fo g n D.rows cls D.classAttr D.classIn lab D.label
  have h4 : ∀ c, (m.get? c).isSome ↔ c ∈ (List.range n).map lab := by
    intro c; rw [h3 c]; simp
  refine ⟨m, h1, classDistLoop_nodup _ _ _ (by simp) h1, ?_, ?_, h4⟩
  · rintro rfl
    have := (h4 (lab 0)).2 (List.mem_map_of_mem (List.mem_range.2 D.nonempty))
    simp [GoMap.get?] at this
  · intro c; rw [h2 c, count_map_range]

theorem majorityClass_spec {m : GoMap String Nat} {labels : List String} {order : List String}
    (ho : order.Perm (m.map Prod.fst)) (hne : labels ≠ []) (h1 : ∀ c, (m.get? c).getD 0 = labels.count c)
    (h2 : ∀ c, (m.get? c).isSome ↔ c ∈ labels) : Majority labels (majorityClass m order) := by
  have hk : ∀ c, c ∈ order ↔ c ∈ labels := by
    intro c; rw [ho.mem_iff, ← GoMap.isSome_iff_mem, h2]
  obtain ⟨x, t, rfl⟩ := List.exists_cons_of_ne_nil hne
  have hox : x ∈ order := (hk x).2 (by simp)
  obtain ⟨a1, a2⟩ := argmaxLoop_max (fun c => (m.get? c).getD 0) order ("", 0) (List.ne_nil_of_mem hox) (by
    intro c hc
    show 0 < (m.get? c).getD 0
    rw [h1 c]
    exact List.count_pos_iff.2 ((hk c).1 hc))
  refine ⟨(hk _).1 a1, ?_⟩
  intro c
  by_cases hc : c ∈ x :: t
  · have := a2 c ((hk c).2 hc)
    rw [h1 c] at this
    exact this.trans_eq (h1 _)
  · rw [List.count_eq_zero.2 hc]; exact Nat.zero_le _

/-! ## Building -/

theorem tests_mono (t : Tree) : ∀ {as bs : List Attr}, (∀ a ∈ as, a ∈ bs) → t.Tests as → t.Tests bs := by
  induction t with
  | leaf d c => intro _ _ _ _; trivial
  | split d c r keys child ih =>
    intro as bs hab h
    obtain ⟨h1, h2, h3, h4, h5⟩ := h
    refine ⟨hab _ h1, h2, h3, h4, ?_⟩
    intro k hk
    refine ih k ?_ (h5 k hk)
    intro a ha
    rw [List.mem_filter] at ha ⊢
    exact ⟨hab a ha.1, ha.2⟩

theorem mapRes_forall₂ {α β : Type} {f : α → Res β} {R : α → β → Prop} (l : List α)
    (h : ∀ x ∈ l, ∃ y, f x = Res.ok y ∧ R x y) : ∃ ys, mapRes f l = Res.ok ys ∧ List.Forall₂ R l ys := by
  induction l with
  | nil => exact ⟨[], rfl, List.Forall₂.nil⟩
  | cons a as ih =>
    obtain ⟨y, h1, h2⟩ := h a (by simp)
    obtain ⟨ys, e1, e2⟩ := ih fun x hx => h x (by simp [hx])
    exact ⟨y :: ys, by simp only [mapRes, h1, Res.bind_ok, e1], List.Forall₂.cons h2 e2⟩

theorem forall₂_mem_right {α β : Type} {R : α → β → Prop} {l : List α} {ys : List β} (h : List.Forall₂ R l ys) :
    ∀ y ∈ ys, ∃ x ∈ l, R x y := by
  induction h with
  | nil => simp
  | cons hab _ ih =>
    intro y hy
    rcases List.mem_cons.1 hy with rfl | hy
    · exact ⟨_, by simp, hab⟩
    · obtain ⟨x, hx, h⟩ := ih y hy
      exact ⟨x, by simp [hx], h⟩

theorem forall₂_map_fst {α β κ : Type} {R : κ × α → κ × β → Prop} (hR : ∀ x y, R x y → y.1 = x.1)
    {l : List (κ × α)} {ys : List (κ × β)} (h : List.Forall₂ R l ys) : ys.map Prod.fst = l.map Prod.fst := by
  induction h with
  | nil => rfl
  | cons hab _ ih => simp only [List.map_cons, ih, hR _ _ hab]

theorem map_getD_range (rows : List Nat) : (List.range rows.length).map (fun i => rows.getD i 0) = rows := by
  apply List.ext_getElem
  · simp
  · intro i h1 h2
    simp [List.getD, h2]

theorem inferLoop_spec {e : TreeEnv} {S : U64 → Prop} (E : e.Ok S) (fuel : Nat) :
    ∀ (path : List String) (g : Grid) (n : Nat) (lab : Nat → String) (cls : Attr), TreeData e.fo g n lab cls →
      g.FloatsIn n S → g.allAttributes.length < fuel →
      ∃ t, inferLoop e fuel path g = Res.ok t ∧ t.Fits (g.branch e.fo) lab (List.range n) ∧
        (t.AllRules fun r => r.attr ∈ g.allAttributes ∧ r.attr ≠ cls) ∧ t.Tests (g.inputs cls) := by
  induction fuel with
  | zero => intro _ _ _ _ _ _ _ h; omega
  | succ fuel ih =>
    intro path g n lab cls D hS hfuel
    obtain ⟨m, hm, hnd, hne, hcount, hsome⟩ := treeDist D
    have hlab : (List.range n).map lab ≠ [] := by
      have := D.nonempty
      simp only [ne_eq, List.map_eq_nil_iff, List.range_eq_nil]; omega
    have hmaj := majorityClass_spec (E.classOrder path (m.map Prod.fst)) hlab hcount hsome
    have hdesc : Describes lab (List.range n) m (majorityClass m (e.classes path (m.map Prod.fst))) :=
      ⟨hmaj, hcount, hsome, hnd⟩
    match m, hne with
    | [(c, k)], _ =>
      refine ⟨.leaf [(c, k)] c, by rw [inferLoop, hm, Res.bind_ok, D.classAttr], ⟨?_, hcount, hsome, hnd⟩, trivial, trivial⟩
      have hall : ∀ x, x ∈ (List.range n).map lab ↔ x = c := by
        intro x; rw [← hsome x, GoMap.isSome_iff_mem]; simp
      refine ⟨(hall c).2 rfl, ?_⟩
      intro c'
      by_cases h : c' = c
      · rw [h]
      · rw [List.count_eq_zero.2 (fun hm => h ((hall c').1 hm))]; exact Nat.zero_le _
    | x :: y :: rest, _ =>
      obtain ⟨m, hmdef⟩ : ∃ m, m = x :: y :: rest := ⟨_, rfl⟩
      have unf : inferLoop e (fuel + 1) path g =
          if g.size.1 = 2 then Res.ok (.leaf m (majorityClass m (e.classes path (m.map Prod.fst))))
          else
            (e.gen path g).bind fun rule =>
              match rule with
              | none => Res.ok (.leaf m (majorityClass m (e.classes path (m.map Prod.fst))))
              | some r =>
                (splitOn e path g r).bind fun parts =>
                  (mapRes (fun p => (inferLoop e fuel (path ++ [p.1]) p.2).map fun t => (p.1, t)) parts).map fun ch =>
                    .split m (majorityClass m (e.classes path (m.map Prod.fst))) r (ch.map Prod.fst) fun k =>
                      (GoMap.get? ch k).getD (.leaf [] "") := by
        rw [hmdef]
        rw [inferLoop, hm, Res.bind_ok, D.classAttr]
        rfl
      rw [← hmdef] at hdesc
      by_cases hsz : g.size.1 = 2
      · rw [if_pos hsz] at unf
        exact ⟨_, unf, hdesc, trivial, trivial⟩
      · rw [if_neg hsz] at unf
        obtain ⟨rule, hgen, hrule⟩ := E.rule path g n lab cls D hS
        rw [hgen, Res.bind_ok] at unf
        match rule, hrule, unf with
        | none, _, unf => exact ⟨_, unf, hdesc, trivial, trivial⟩
        | some r, hrule, unf =>
          simp only at unf
          obtain ⟨hra, hrc⟩ := hrule r rfl
          have hw : 3 ≤ g.allAttributes.length := by
            have := D.wide; have := D.width; omega
          have hperm := D.rows.order _ (E.rowOrder path g)
          obtain ⟨parts, specs, p1, p2, p3, p4, p5, p6⟩ := splitOn_spec (path := path) D E.sort hra (E.rowOrder path g)
          rw [p1, Res.bind_ok] at unf
          -- every part gives a child
          obtain ⟨ch, c1, c2⟩ := mapRes_forall₂
            (f := fun p => (inferLoop e fuel (path ++ [p.1]) p.2).map fun t => (p.1, t))
            (R := fun p q => q.1 = p.1 ∧
              q.2.Fits (g.branch e.fo) lab ((List.range n).filter fun i => g.branch e.fo r i == p.1) ∧
              (q.2.AllRules fun r => r.attr ∈ g.allAttributes ∧ r.attr ≠ cls) ∧
              q.2.Tests ((g.inputs cls).filter fun a => a ≠ r.attr)) parts (by
            intro p hp
            have hkey : ∃ q, q < n ∧ g.branch e.fo r q = p.1 := (p5 p.1).1 (List.mem_map_of_mem hp)
            have hrows : ∀ q ∈ (e.order path g).filter (fun q => g.branch e.fo r q == p.1), q < n := by
              intro q hq
              exact List.mem_range.1 (hperm.mem_iff.1 (List.mem_filter.1 hq).1)
            have hrne : (e.order path g).filter (fun q => g.branch e.fo r q == p.1) ≠ [] := by
              obtain ⟨q, hq, hqk⟩ := hkey
              apply List.ne_nil_of_mem (a := q)
              rw [List.mem_filter]
              exact ⟨hperm.mem_iff.2 (List.mem_range.2 hq), by simp [hqk]⟩
            obtain ⟨T1, T2, T3, T4⟩ := treeData_visible D hra hrc hw p2 p3 hrows hrne
            rw [← p6 p hp] at T1 T2 T3 T4
            obtain ⟨t, t1, t2, t3, t4⟩ := ih (path ++ [p.1]) p.2 _ _ cls T1 (by
              intro b hb hbf i hi
              rw [T4 b hb i hi]
              exact hS b (T3 b hb) hbf _ (hrows _ (List.getElem_mem hi))) (by omega)
            refine ⟨(p.1, t), by rw [t1, Res.map_ok], rfl, ?_, ?_, ?_⟩
            · refine fits_perm t (hperm.filter _) ?_
              have := fits_map (key := g.branch e.fo) (lab := lab)
                (f := fun i => ((e.order path g).filter (fun q => g.branch e.fo r q == p.1)).getD i 0) t
                (allRules_imp ?_ t t3) (fun i _ => rfl) t2
              · rwa [map_getD_range] at this
              · rintro r' ⟨hr1, _⟩ i hi
                have hi' := List.mem_range.1 hi
                have : ((e.order path g).filter (fun q => g.branch e.fo r q == p.1)).getD i 0 =
                    ((e.order path g).filter (fun q => g.branch e.fo r q == p.1))[i] := by
                  simp [List.getD, hi']
                rw [this]
                unfold Grid.branch
                rw [T4 _ hr1 i hi']
                rfl
            · exact allRules_imp (fun r' h => ⟨T3 _ h.1, h.2⟩) t t3
            · refine tests_mono t ?_ t4
              intro a ha
              obtain ⟨ha1, ha2⟩ := List.mem_filter.1 ha
              refine List.mem_filter.2 ⟨List.mem_filter.2 ⟨T3 a ha1, ha2⟩, ?_⟩
              have : a ∈ specs.map Spec.attr := by
                have := p6 p hp
                rw [this] at ha1
                exact ha1
              have := (List.mem_filter.1 (p3.mem_iff.1 this)).2
              simp only [decide_eq_true_eq]
              rintro rfl
              rw [C28_equals_refl] at this; cases this)
          rw [c1, Res.map_ok] at unf
          have hfst : ch.map Prod.fst = parts.map Prod.fst := forall₂_map_fst (fun _ _ h => h.1) c2
          refine ⟨_, unf, ⟨hdesc, ?_, by rw [hfst]; exact p4, ?_, ?_⟩, ⟨⟨hra, hrc⟩, ?_⟩, ?_, by rw [hfst]; exact p4, ?_, ?_, ?_⟩
          · have hx := (hsome x.1).1 (by simp [GoMap.get?])
            have hy := (hsome y.1).1 (by
              rw [GoMap.isSome_iff_mem]; simp)
            obtain ⟨p, hp, hpx⟩ := List.mem_map.1 hx
            obtain ⟨q, hq, hqy⟩ := List.mem_map.1 hy
            refine ⟨p, hp, q, hq, ?_⟩
            rw [hpx, hqy]
            simp only [List.map_cons, List.nodup_cons, List.mem_cons, not_or] at hnd
            exact hnd.1.1
          · intro k
            rw [hfst, p5 k]
            constructor
            · rintro ⟨q, hq, h⟩; exact ⟨q, List.mem_range.2 hq, h⟩
            · rintro ⟨q, hq, h⟩; exact ⟨q, List.mem_range.1 hq, h⟩
          rotate_left 2
          · exact List.mem_filter.2 ⟨hra, by simpa using hrc⟩
          · rw [hfst]
            exact List.ne_nil_of_mem ((p5 _).2 ⟨0, D.nonempty, rfl⟩)
          · intro hf k hk
            rw [hfst] at hk
            obtain ⟨q, hq, hqk⟩ := (p5 k).1 hk
            rw [← hqk]
            unfold Grid.branch
            obtain ⟨u, hu⟩ := unpack_typed D.typed hra hf hq
            simp only [hf, if_true, hu]
            split
            · exact Or.inr rfl
            · exact Or.inl rfl
          all_goals
            intro k hk
            obtain ⟨⟨k', t⟩, hkt, rfl⟩ := List.mem_map.1 hk
            have hget := (GoMap.get?_of_mem ch (by rw [hfst]; exact p4) k' t).1 hkt
            obtain ⟨p, _, h1, h2, h3, h4⟩ := forall₂_mem_right c2 (k', t) hkt
            simp only at h1 h2 h3 h4
            simp only [hget, Option.getD_some]
            first
            | (rw [h1]; exact h2)
            | exact h3
            | exact h4

end Golearn
