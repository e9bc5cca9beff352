import Verif.Proofs.TreeText
import Verif.Proofs.Prune
import Verif.Proofs.TreeExamples
import Mathlib.Data.String.Basic

/-! # C118: the printed ID3 tree shows the rules, branches and classes -/

namespace Golearn

/-- Trees whose names have no line break: they have the same text exactly when they have the same rules, the same branches and the same classes in the same
places. In which order the maps of children are iterated makes no difference. -/
theorem C118_text_shows_partial (num : U64 → String) (sort : List String → List String) (hn : ∀ u, NoBreak (num u)) (hs : SortsStrings sort)
    (t u : Tree) (ht : t.Plain) (hu : u.Plain) : id3String num sort t = id3String num sort u ↔ t.Alike num u := by
  constructor
  · intro h
    have h := wrap_inj h
    have h : nestedString num sort t 0 ++ "\n" = nestedString num sort u 0 ++ "\n" := by rw [h]
    rw [nested_lines, nested_lines] at h
    have h := linesText_inj (treeLines_oneLine hn hs.1 t ht 0) (treeLines_oneLine hn hs.1 u hu 0) h
    have e : EndsAt 0 [] := by intro l hl; cases hl
    exact (treeLines_inj hs t u 0 [] [] ht hu e e (by rw [h])).1
  · intro h
    unfold id3String
    rw [alike_text hs t u 0 h]

/-- For all trees, whatever the names: another order of the children gives the same text. -/
theorem C118_order (num : U64 → String) (sort : List String → List String) (hs : SortsStrings sort) (t u : Tree) (h : t.Alike num u) :
    id3String num sort t = id3String num sort u := by
  unfold id3String
  rw [alike_text hs t u 0 h]

theorem alike_classOf {num : U64 → String} {key : Rule → Nat → String} {row : Nat} (p : Rule → Prop)
    (hk : ∀ r r', p r → p r' → ruleText num r = ruleText num r' → key r row = key r' row) (t : Tree) :
    ∀ u, t.Alike num u → t.AllRules p → u.AllRules p → t.Knows key row → u.Knows key row ∧ t.classOf key row = u.classOf key row := by
  induction t with
  | leaf d c =>
    intro u h _ _ _
    cases u with
    | leaf d' c' => exact ⟨trivial, h⟩
    | split => exact h.elim
  | split d c r keys child ih =>
    intro u h ht hu hkn
    cases u with
    | leaf => exact h.elim
    | split d' c' r' keys' child' =>
      obtain ⟨h1, h2, h3⟩ := h
      have e := hk r r' ht.1 hu.1 h1
      have hm := hkn.1
      obtain ⟨i1, i2⟩ := ih _ (child' (key r row)) (h3 _ hm) (ht.2 _ hm) (hu.2 _ (h2.subset hm)) hkn.2
      unfold Tree.Knows Tree.classOf
      rw [← e]
      exact ⟨⟨h2.subset hm, i1⟩, i2⟩

theorem ruleText_inj {num : U64 → String} {as : List Attr} (hnames : ∀ a ∈ as, ∀ b ∈ as, a.name = b.name → a = b) (hlt : ∀ a ∈ as, '<' ∉ a.name.toList)
    {r r' : Rule} (h1 : r.attr ∈ as) (h2 : r'.attr ∈ as) (h : ruleText num r = ruleText num r') :
    r.attr = r'.attr ∧ (r.attr.isFloat = true → num r.val = num r'.val) := by
  have e : (" <= " : String).toList = [' '] ++ '<' :: ['=', ' '] := by decide
  have sp : ∀ s : String, '<' ∉ s.toList → '<' ∉ s.toList ++ [' '] := by
    intro s hs hm
    rcases List.mem_append.1 hm with hm | hm
    · exact hs hm
    · simp at hm
  have pr : ∀ a ∈ as, '<' ∉ ("DecisionTreeRule(" ++ a.name).toList := by
    intro a ha hm
    rw [String.toList_append, List.mem_append] at hm
    rcases hm with hm | hm
    · exact absurd hm (by decide)
    · exact hlt a ha hm
  unfold ruleText at h
  cases f1 : r.attr.isFloat <;> cases f2 : r'.attr.isFloat <;> simp only [f1, f2, if_true, if_false, Bool.false_eq_true] at h
  · exact ⟨hnames _ h1 _ h2 (wrap_inj h), fun h => by cases h⟩
  · exfalso
    have hm : '<' ∈ ("DecisionTreeRule(" ++ r.attr.name ++ ")").toList := by
      rw [h]
      simp only [String.toList_append, e]
      simp
    rw [String.toList_append, List.mem_append] at hm
    rcases hm with hm | hm
    · exact pr _ h1 hm
    · exact absurd hm (by decide)
  · exfalso
    have hm : '<' ∈ ("DecisionTreeRule(" ++ r'.attr.name ++ ")").toList := by
      rw [← h]
      simp only [String.toList_append, e]
      simp
    rw [String.toList_append, List.mem_append] at hm
    rcases hm with hm | hm
    · exact pr _ h2 hm
    · exact absurd hm (by decide)
  · have h := congrArg String.toList h
    simp only [String.toList_append, e, List.append_assoc, List.append_cancel_left_eq] at h
    obtain ⟨c1, c2⟩ := char_split (q := '<') (a := r.attr.name.toList ++ [' ']) (b := r'.attr.name.toList ++ [' '])
      (x := ['=', ' '] ++ ((num r.val).toList ++ (")" : String).toList)) (y := ['=', ' '] ++ ((num r'.val).toList ++ (")" : String).toList))
      (sp _ (hlt _ h1)) (sp _ (hlt _ h2)) (by simpa [List.append_assoc] using h)
    refine ⟨hnames _ h1 _ h2 (String.ext_iff.2 (List.append_cancel_right c1)), fun _ => String.ext_iff.2 ?_⟩
    exact List.append_cancel_right (List.append_cancel_left c2)

/-- Trees with the same text predict the same class for every row whose values the tree has branches for, whatever the orders of the maps. The names
have no line break, attributes are told apart by their names, no name has the character <, and the format tells the thresholds apart. -/
theorem C118_same_text_partial (num : U64 → String) (sort : List String → List String) (hn : ∀ u, NoBreak (num u)) (hs : SortsStrings sort)
    (t u : Tree) (ht : t.Plain) (hu : u.Plain) (h : id3String num sort t = id3String num sort u)
    (p p' : PredEnv) (Pp : p.Ok) (Pp' : p'.Ok) (hfo : p'.fo = p.fo) (g : Grid) (m : Nat) (W : TreeInput p.fo g m g.allAttributes)
    (V : U64 → Prop) (hV : ∀ v v', V v → V v' → num v = num v' → v = v')
    (hnames : ∀ a ∈ g.allAttributes, ∀ b ∈ g.allAttributes, a.name = b.name → a = b) (hlt : ∀ a ∈ g.allAttributes, '<' ∉ a.name.toList)
    (t1 : t.Tests g.allAttributes) (u1 : u.Tests g.allAttributes)
    (t2 : t.AllRules fun r => r.attr ∈ g.allAttributes ∧ V r.val) (u2 : u.AllRules fun r => r.attr ∈ g.allAttributes ∧ V r.val) :
    ∃ d d', treePredict p t g = Res.ok d ∧ treePredict p' u g = Res.ok d' ∧
      ∀ r, r < m → t.Knows (g.branch p.fo) r → ∃ c, getClass p.fo (.dense d) r = Res.ok c ∧ getClass p'.fo (.dense d') r = Res.ok c := by
  have ha := (C118_text_shows_partial num sort hn hs t u ht hu).1 h
  have W' : TreeInput p'.fo g m g.allAttributes := hfo ▸ W
  obtain ⟨d, d1, -, d3⟩ := treePredict_spec Pp W (t := t) (Q := fun r c => t.Knows (g.branch p.fo) r → c = t.classOf (g.branch p.fo) r) (by
    intro r hr
    exact treeClass_total W.rows W.typed W.readable (Pp.children r) hr t _ (fun _ h => h) t1)
  obtain ⟨d', e1, -, e3⟩ := treePredict_spec Pp' W' (t := u) (Q := fun r c => u.Knows (g.branch p'.fo) r → c = u.classOf (g.branch p'.fo) r) (by
    intro r hr
    exact treeClass_total W'.rows W'.typed W'.readable (Pp'.children r) hr u _ (fun _ h => h) u1)
  refine ⟨d, d', d1, e1, ?_⟩
  intro r hr hk
  obtain ⟨c, c1, c2⟩ := d3 r hr
  obtain ⟨c', c1', c2'⟩ := e3 r hr
  obtain ⟨k1, k2⟩ := alike_classOf (key := g.branch p.fo) (row := r) _ (by
    intro a b ha hb hab
    obtain ⟨q1, q2⟩ := ruleText_inj hnames hlt ha.1 hb.1 hab
    unfold Grid.branch
    rw [← q1]
    cases f : a.attr.isFloat with
    | false => rfl
    | true => rw [hV _ _ ha.2 hb.2 (q2 f)]) t u ha t2 u2 hk
  rw [hfo] at c1'
  rw [c1 hk] at c2
  rw [c1' k1, ← k2] at c2'
  exact ⟨_, c2, c2'⟩

/-- The full claim: trees built from any data, with the same text, predict the same for every row. -/
def C118_full : Prop := ∀ (num : U64 → String) (sort : List String → List String), (∀ u, NoBreak (num u)) → SortsStrings sort →
  ∀ (e : TreeEnv), e.Ok (fun _ => True) → ∀ (g g' : Grid) (n n' : Nat) (lab lab' : Nat → String) (cls : Attr), TreeData e.fo g n lab cls → TreeData e.fo g' n' lab' cls →
  ∀ t u, inferID3 e g = Res.ok t → inferID3 e g' = Res.ok u → id3String num sort t = id3String num sort u →
  ∀ (p : PredEnv), p.Ok → p.fo = e.fo → ∀ (w : Grid) (m : Nat), TreeInput p.fo w m g.allAttributes →
  ∀ d d', treePredict p t w = Res.ok d → treePredict p u w = Res.ok d' → ∀ r, r < m → getClass p.fo (.dense d) r = getClass p.fo (.dense d') r

/-- One way to sort strings. -/
def sortStrings (l : List String) : List String := l.insertionSort (· ≤ ·)

theorem sortStrings_sorts : SortsStrings sortStrings := by
  refine ⟨fun l => List.perm_insertionSort _ l, ?_⟩
  intro l l' h
  exact ((List.perm_insertionSort _ l).trans (h.trans (List.perm_insertionSort _ l').symm)).eq_of_pairwise'
    (List.pairwise_insertionSort _ l) (List.pairwise_insertionSort _ l')

section Witness
private def num0 (u : U64) : String := Nat.repr u.toNat ++ ".000000"
private def fo0 : FloatOps := ⟨fun _ u => if u = 1 then "one" else "other", fun u v => v.toNat < u.toNat⟩
private def aX : Attr := ⟨0, .float "x" 2⟩
private def aY : Attr := ⟨1, .cat "y" ["b", "a", "a\n\tLeaf(p)\n\tb"]⟩
private def aC : Attr := ⟨2, .cat "c" ["p", "q"]⟩
private def aZ : Attr := ⟨3, .cat "z" ["u", "v"]⟩
private def table (rows : List (U64 × U64 × U64)) : List Op :=
  [.add aX, .add aY, .add aC, .add aZ, .addClass aC, .extend rows.length] ++
    (rows.zipIdx.map fun q => [.set 0 q.2 (packU64 q.1.1), .set 1 q.2 (packU64 q.1.2.1), .set 2 q.2 (packU64 q.1.2.2)]).flatten
private def prefer (l : List Attr) (g : Grid) : Res (Option Rule) :=
  Res.ok ((l.find? fun a => decide (a ∈ g.allAttributes ∧ a ∉ g.allClassAttributes)).map fun a => ⟨a, 5⟩)
private def env0 (l : List Attr) : TreeEnv := ⟨fo0, id, fun _ g => someOrder g, fun _ l => l, fun _ => prefer l⟩
private def pred0 : PredEnv := ⟨fo0, fun _ => none, 4096, id, id, someOrder, fun _ l => l⟩
private theorem pred0_ok : pred0.Ok :=
  ⟨fun _ => List.Perm.refl _, fun _ => List.Perm.refl _, someOrder_rowOrder, fun _ _ => List.Perm.refl _⟩
private theorem env0_ok (l : List Attr) : (env0 l).Ok fun _ => True := by
  refine ⟨fun _ => List.Perm.refl _, fun _ => someOrder_rowOrder, fun _ _ => List.Perm.refl _, ?_⟩
  intro _ g n lab cls D _
  refine ⟨_, rfl, ?_⟩
  intro rule h
  rw [Option.map_eq_some_iff] at h
  obtain ⟨a, h1, rfl⟩ := h
  have := List.find?_some h1
  simp only [decide_eq_true_eq, D.classAttr, List.mem_singleton] at this
  exact this

/-- `Plain`, as a test. -/
private def plain : Tree → Bool
  | .leaf _ c => !c.toList.contains '\n'
  | .split _ _ r keys child => !r.attr.name.toList.contains '\n' &&
      keys.all fun k => !k.toList.contains '\n' && decide (k.toList.head? ≠ some '\t') && plain (child k)
private theorem noBreak_iff {s : String} (h : (!s.toList.contains '\n') = true) : NoBreak s := by
  intro hm
  rw [List.contains_iff_mem.2 hm] at h
  cases h
private theorem plain_iff (t : Tree) (h : plain t = true) : t.Plain := by
  induction t with
  | leaf d c => exact noBreak_iff h
  | split d c r keys child ih =>
    rw [plain, Bool.and_eq_true] at h
    refine ⟨noBreak_iff h.1, ?_⟩
    intro k hk
    have := List.all_eq_true.1 h.2 k hk
    simp only [Bool.and_eq_true, decide_eq_true_eq] at this
    exact ⟨⟨noBreak_iff this.1.1, this.1.2⟩, ih k this.2⟩

private theorem num0_ok : (∀ u, NoBreak (num0 u)) ∧ ∀ v v', num0 v = num0 v' → v = v' := by
  refine ⟨fun u => oneLine_append (oneLine_repr _) (oneLine_lit (by decide)), ?_⟩
  intro v v' h
  unfold num0 at h
  have := congrArg String.toList h
  rw [String.toList_append, String.toList_append, List.append_cancel_right_eq] at this
  exact BitVec.eq_of_toNat_eq (repr_inj (String.ext_iff.2 this))

private def rows1 : List (U64 × U64 × U64) := [(1, 0, 0), (8, 0, 1), (9, 1, 0), (2, 0, 0), (3, 1, 1)]

/-- The same five rows in two orders. The trees keep their branches in different orders, and have the same text, with two levels. The conditions of the
theorem for trees with the same text hold, with the rows themselves to predict. -/
theorem C118_witness : ∃ st st' t u, run 4096 (table rows1) = Res.ok st ∧ run 4096 (table rows1.reverse) = Res.ok st' ∧
    inferID3 (env0 [aX, aY]) (.dense st.d) = Res.ok t ∧ inferID3 (env0 [aX, aY]) (.dense st'.d) = Res.ok u ∧ t.Plain ∧ u.Plain ∧
    id3String num0 sortStrings t = "ID3DecisionTree(Rule(DecisionTreeRule(x <= 5.000000))\n\t0\n\tRule(DecisionTreeRule(y))\n\t\ta\n\t\tLeaf(q)\n\t\tb\n\t\tLeaf(p)\n\t1\n\tRule(DecisionTreeRule(y))\n\t\ta\n\t\tLeaf(p)\n\t\tb\n\t\tLeaf(q)\n)" ∧
    id3String num0 sortStrings u = id3String num0 sortStrings t ∧ (∀ u, NoBreak (num0 u)) ∧ (∀ v v', num0 v = num0 v' → v = v') ∧ SortsStrings sortStrings ∧
    TreeInput fo0 (.dense st.d) 5 (Grid.dense st.d).allAttributes ∧ pred0.Ok ∧ t.Tests (Grid.dense st.d).allAttributes ∧ u.Tests (Grid.dense st.d).allAttributes ∧
    (∀ a ∈ (Grid.dense st.d).allAttributes, ∀ b ∈ (Grid.dense st.d).allAttributes, a.name = b.name → a = b) ∧
    (∀ a ∈ (Grid.dense st.d).allAttributes, '<' ∉ a.name.toList) := by
  have e : ((run 4096 (table rows1)).bind fun st => (run 4096 (table rows1.reverse)).bind fun st' =>
      (inferID3 (env0 [aX, aY]) (.dense st.d)).bind fun t => (inferID3 (env0 [aX, aY]) (.dense st'.d)).map fun u =>
        [treeCheck fo0 st.d 5 ["p", "q", "p", "p", "q"] aC, treeCheck fo0 st'.d 5 ["q", "p", "p", "q", "p"] aC, plain t, plain u,
          inputCheck fo0 st.d 5 st.d.allAttributes, decide (st'.d.allAttributes = st.d.allAttributes ∧ st.d.allAttributes = [aX, aY, aC, aZ])]) =
      Res.ok [true, true, true, true, true, true] := by decide +kernel
  have e' : ((run 4096 (table rows1)).bind fun st => (run 4096 (table rows1.reverse)).bind fun st' =>
      (inferID3 (env0 [aX, aY]) (.dense st.d)).bind fun t => (inferID3 (env0 [aX, aY]) (.dense st'.d)).map fun u =>
        (id3String num0 sortStrings t, id3String num0 sortStrings u)) =
      Res.ok ("ID3DecisionTree(Rule(DecisionTreeRule(x <= 5.000000))\n\t0\n\tRule(DecisionTreeRule(y))\n\t\ta\n\t\tLeaf(q)\n\t\tb\n\t\tLeaf(p)\n\t1\n\tRule(DecisionTreeRule(y))\n\t\ta\n\t\tLeaf(p)\n\t\tb\n\t\tLeaf(q)\n)", "ID3DecisionTree(Rule(DecisionTreeRule(x <= 5.000000))\n\t0\n\tRule(DecisionTreeRule(y))\n\t\ta\n\t\tLeaf(q)\n\t\tb\n\t\tLeaf(p)\n\t1\n\tRule(DecisionTreeRule(y))\n\t\ta\n\t\tLeaf(p)\n\t\tb\n\t\tLeaf(q)\n)") := by decide +kernel
  obtain ⟨st, h1, e⟩ := Res.bind_eq_ok.1 e
  obtain ⟨st', h2, e⟩ := Res.bind_eq_ok.1 e
  obtain ⟨t, h3, e⟩ := Res.bind_eq_ok.1 e
  obtain ⟨u, h4, e⟩ := Res.map_eq_ok.1 e
  simp only [List.cons.injEq, decide_eq_true_eq, and_true] at e
  obtain ⟨c1, c2, c3, c4, c5, c6, c7⟩ := e
  rw [h1, Res.bind_ok, h2, Res.bind_ok, h3, Res.bind_ok, h4, Res.map_ok, Res.ok.injEq, Prod.mk.injEq] at e'
  obtain ⟨x1, x2⟩ := e'
  have D1 := denseOK_run (pg := 4096) (ops := table rows1) (by decide) h1 (by decide)
  have D2 := denseOK_run (pg := 4096) (ops := table rows1.reverse) (by decide) h2 (by decide)
  have T1 := treeData_dense D1 c1
  have T2 := treeData_dense D2 c2
  obtain ⟨t', q1, -, -, q2⟩ := inferLoop_spec (env0_ok [aX, aY]) _ [] _ _ _ _ T1 (floatsIn_true T1.typed) (Nat.lt_succ_self _)
  obtain ⟨u', q3, -, -, q4⟩ := inferLoop_spec (env0_ok [aX, aY]) _ [] _ _ _ _ T2 (floatsIn_true T2.typed) (Nat.lt_succ_self _)
  have w1 : Res.ok t = Res.ok t' := h3.symm.trans q1
  have w2 : Res.ok u = Res.ok u' := h4.symm.trans q3
  cases w1
  cases w2
  have ha : (Grid.dense st.d).allAttributes = [aX, aY, aC, aZ] := c7
  have hb : (Grid.dense st'.d).allAttributes = [aX, aY, aC, aZ] := c6.trans c7
  have inp : ∀ g : Grid, g.allAttributes = [aX, aY, aC, aZ] → ∀ a ∈ g.inputs aC, a ∈ (Grid.dense st.d).allAttributes := by
    intro g hg a hm
    rw [ha, ← hg]
    exact (List.mem_filter.1 hm).1
  refine ⟨st, st', t, u, h1, h2, h3, h4, plain_iff _ c3, plain_iff _ c4, x1, x2.trans x1.symm, num0_ok.1, num0_ok.2, sortStrings_sorts,
    treeInput_dense D1 c5, pred0_ok, tests_mono t (inp _ ha) q2, tests_mono u (inp _ hb) q4, ?_, ?_⟩
  · rw [ha]; decide
  · rw [ha]; decide

/-- A value of y has line breaks in it. The tree with this one branch has the same text as a tree with branches for a and b, which predicts p for a. -/
theorem C118_refuted : ¬ C118_full := by
  intro H
  have e : ((run 4096 (table [(1, 0, 1), (8, 1, 0)])).bind fun st => (run 4096 (table [(1, 2, 1), (8, 2, 0), (9, 2, 1)])).bind fun st' =>
      (inferID3 (env0 [aY]) (.dense st.d)).bind fun t => (inferID3 (env0 [aY]) (.dense st'.d)).bind fun u =>
        (treePredict pred0 t (.dense st.d)).bind fun d => (treePredict pred0 u (.dense st.d)).map fun d' =>
        [treeCheck fo0 st.d 2 ["q", "p"] aC, treeCheck fo0 st'.d 3 ["q", "p", "q"] aC, inputCheck fo0 st.d 2 st.d.allAttributes,
          decide (id3String num0 sortStrings t = id3String num0 sortStrings u),
          decide (getClass fo0 (.dense d) 1 = Res.ok "p"), decide (getClass fo0 (.dense d') 1 = Res.ok "q")]) =
      Res.ok [true, true, true, true, true, true] := by decide +kernel
  obtain ⟨st, h1, e⟩ := Res.bind_eq_ok.1 e
  obtain ⟨st', h2, e⟩ := Res.bind_eq_ok.1 e
  obtain ⟨t, h3, e⟩ := Res.bind_eq_ok.1 e
  obtain ⟨u, h4, e⟩ := Res.bind_eq_ok.1 e
  obtain ⟨d, h5, e⟩ := Res.bind_eq_ok.1 e
  obtain ⟨d', h6, e⟩ := Res.map_eq_ok.1 e
  simp only [List.cons.injEq, decide_eq_true_eq, and_true] at e
  obtain ⟨c1, c2, c3, c4, c5, c6⟩ := e
  have D1 := denseOK_run (pg := 4096) (ops := table [(1, 0, 1), (8, 1, 0)]) (by decide) h1 (by decide)
  have D2 := denseOK_run (pg := 4096) (ops := table [(1, 2, 1), (8, 2, 0), (9, 2, 1)]) (by decide) h2 (by decide)
  have := H num0 sortStrings num0_ok.1 sortStrings_sorts (env0 [aY]) (env0_ok _) _ _ 2 3 _ _ aC (treeData_dense D1 c1) (treeData_dense D2 c2) t u h3 h4 c4
    pred0 pred0_ok rfl _ 2 (treeInput_dense D1 c3) d d' h5 h6 1 (by decide)
  have c5 : getClass pred0.fo (.dense d) 1 = Res.ok "p" := c5
  have c6 : getClass pred0.fo (.dense d') 1 = Res.ok "q" := c6
  rw [c5, c6] at this
  exact absurd (Res.ok.inj this) (by decide)
end Witness

end Golearn
