import Verif.Proofs.TreeContent
import Verif.Proofs.Save
import Verif.Proofs.TreeExamples
import Verif.Props.C48

/-! # C98: a decision tree that is saved and loaded predicts the same

Attributes that are read from a file are at new addresses. A lazily filtered grid finds the attributes its filter leaves alone
by their address, so a tree that was loaded does not find them. -/

namespace Golearn

theorem fits_keyed {key : Rule → Nat → String} {lab : Nat → String} (t : Tree) :
    ∀ rows, t.Fits key lab rows → t.Keyed := by
  induction t with
  | leaf d c => intro _ _; trivial
  | split d c r keys child ih =>
    intro rows h
    obtain ⟨_, _, h3, _, h5⟩ := h
    exact ⟨h3, fun k hk => ih k _ (h5 k hk)⟩

theorem tree_restores (S : SaveEnv) (L : LoadEnv) (hL : L.viaFloat = S.viaFloat) (info : List String → LeafInfo)
    (hi : ∀ p r, (info p).rule = some (some r) → RuleKept S r) (t : Tree) (hk : t.Keyed)
    (hr : t.AllRules (RuleKept S)) (cls : AttrBody) (hc : AttrKept S.nilVals S.viaFloat cls) :
    Restores (saveTree S info t cls) (loadTree L) (fun p => t.Same p.1 ∧ p.2 = cls) false := by
  obtain ⟨j, hj, hload⟩ := tree_roundtrip S L hL info hi t hk hr []
  obtain ⟨t', ht', hs⟩ := hload (j.depth + 1) (Nat.lt_succ_self _) []
  intro pre
  refine ⟨treeEntries pre j S.nilVals cls, ?_, fun w hw => saveTree_eq S info t cls j hj w hw pre, ?_⟩
  · intro e he
    simp only [treeEntries, List.mem_cons, List.not_mem_nil, or_false] at he
    rcases he with rfl | rfl <;> exact ⟨_, rfl⟩
  · intro ar ha
    exact ⟨(t', cls), loadTree_eq L S hL cls hc j t' ht' pre ar ha, hs, rfl⟩

/-- Every tree (pruned or not) whose thresholds are finite, and whose attributes survive being written: saving it, as an ID3 tree
or as a random tree, succeeds; loading the file succeeds, and gives a tree of the same shape with the same class attribute. With
whatever orders of the maps, the tree that was loaded predicts the same classes and the same probabilities as the one that was
saved, for every grid that is not filtered lazily. -/
theorem C98_tree_file_partial (S : SaveEnv) (L : LoadEnv) (hL : L.viaFloat = S.viaFloat) (info : List String → LeafInfo)
    (hi : ∀ p r, (info p).rule = some (some r) → RuleKept S r) (t : Tree) (hk : t.Keyed)
    (hr : t.AllRules (RuleKept S)) (cls : AttrBody) (hc : AttrKept S.nilVals S.viaFloat cls)
    (save : SaveEnv → (List String → LeafInfo) → Tree → AttrBody → Res Archive) (hsave : save = saveID3 ∨ save = saveRandomTree) :
    ∃ ar t', save S info t cls = Res.ok ar ∧ loadTreeFile L ar = Res.ok (t', cls) ∧ t.Same t' ∧
      ∀ (e : PredEnv) (what : Grid), what.Unfiltered → treePredict e t' what = treePredict e t what ∧
        ∀ srt ord, treePredictProba e srt ord t' what = treePredictProba e srt ord t what := by
  obtain ⟨j, hj, hload⟩ := tree_roundtrip S L hL info hi t hk hr []
  obtain ⟨t', ht', hs⟩ := hload (j.depth + 1) (Nat.lt_succ_self _) []
  have main : ∀ name, ∃ ar, (saveTree S info t cls (newWriter (metadataJson name "1.0" .null)) "").map Writer.entries = Res.ok ar ∧
      loadTreeFile L ar = Res.ok (t', cls) := by
    intro name
    refine ⟨classifierStub (metadataJson name "1.0" .null) ++ treeEntries "" j S.nilVals cls, ?_, ?_⟩
    · rw [saveTree_eq S info t cls j hj _ rfl, Res.map_ok]; rfl
    · rw [loadTreeFile, readStub_eq, Res.bind_ok]
      refine loadTree_eq L S hL cls hc j t' ht' "" _ (agrees_self _ _ ?_)
      intro p hp q hq
      simp only [classifierStub, tarPrefix, List.mem_cons, List.not_mem_nil, or_false] at hp
      simp only [treeEntries, tarPrefix, List.mem_cons, List.not_mem_nil, or_false] at hq
      rcases hp with rfl | rfl <;> rcases hq with rfl | rfl <;> simp
  have obs : ∀ (e : PredEnv) (what : Grid), what.Unfiltered → treePredict e t' what = treePredict e t what ∧
      ∀ srt ord, treePredictProba e srt ord t' what = treePredictProba e srt ord t what :=
    fun e what hu => ⟨same_predict e what hu t t' hs, fun srt ord => same_proba e srt ord what hu t t' hs⟩
  rcases hsave with rfl | rfl
  · obtain ⟨ar, h1, h2⟩ := main "ID3"
    exact ⟨ar, t', h1, h2, hs, obs⟩
  · obtain ⟨ar, h1, h2⟩ := main "KNN"
    exact ⟨ar, t', h1, h2, hs, obs⟩

/-- Lazily filtered grids are no exception as long as they find the attributes of the tree by content, which they do for the attributes they
convert. -/
theorem C98_content_partial (S : SaveEnv) (L : LoadEnv) (hL : L.viaFloat = S.viaFloat) (info : List String → LeafInfo)
    (hi : ∀ p r, (info p).rule = some (some r) → RuleKept S r) (t : Tree) (hk : t.Keyed)
    (hr : t.AllRules (RuleKept S)) (cls : AttrBody) (hc : AttrKept S.nilVals S.viaFloat cls)
    (save : SaveEnv → (List String → LeafInfo) → Tree → AttrBody → Res Archive) (hsave : save = saveID3 ∨ save = saveRandomTree) :
    ∃ ar t', save S info t cls = Res.ok ar ∧ loadTreeFile L ar = Res.ok (t', cls) ∧
      ∀ (e : PredEnv) (what : Grid) (as : List Attr), (t.AllRules fun r => r.attr ∈ as) → (t'.AllRules fun r => r.attr ∈ as) →
        what.ByContent as → treePredict e t' what = treePredict e t what ∧
          ∀ srt ord, treePredictProba e srt ord t' what = treePredictProba e srt ord t what := by
  obtain ⟨ar, t', h1, h2, hs, _⟩ := C98_tree_file_partial S L hL info hi t hk hr cls hc save hsave
  refine ⟨ar, t', h1, h2, fun e what as ha ha' hb => ?_⟩
  have key := fun row => same_class_content e.fo what as hb (e.ord row) row t t' hs ha ha'
  constructor
  · unfold treePredict
    simp only [fun row => (key row).1]
  · intro srt ord
    unfold treePredictProba
    simp only [fun row => (key row).2]

/-- The same inside any file, at any prefix, as part of another model. -/
theorem C98_tree_prefix_partial (S : SaveEnv) (L : LoadEnv) (hL : L.viaFloat = S.viaFloat) (info : List String → LeafInfo)
    (hi : ∀ p r, (info p).rule = some (some r) → RuleKept S r) (t : Tree) (hk : t.Keyed)
    (hr : t.AllRules (RuleKept S)) (cls : AttrBody) (hc : AttrKept S.nilVals S.viaFloat cls) :
    Restores (saveTree S info t cls) (loadTree L) (fun p => p.2 = cls ∧
      ∀ (e : PredEnv) (what : Grid), what.Unfiltered → treePredict e p.1 what = treePredict e t what) false := by
  intro pre
  obtain ⟨es, h1, h2, h3⟩ := tree_restores S L hL info hi t hk hr cls hc pre
  refine ⟨es, h1, h2, fun ar ha => ?_⟩
  obtain ⟨m, e1, e2, e3⟩ := h3 ar ha
  exact ⟨m, e1, e3, fun e what hu => same_predict e what hu t m.1 e2⟩

/-- Trees built from training data meet the requirements, apart from the thresholds being finite, if the attributes do. -/
theorem C98_trained_partial (S : SaveEnv) (L : LoadEnv) (hL : L.viaFloat = S.viaFloat) (e : TreeEnv) (F : U64 → Prop) (E : e.Ok F)
    (g : Grid) (n : Nat) (lab : Nat → String) (cls : Attr) (D : TreeData e.fo g n lab cls) (hF : g.FloatsIn n F)
    (ha : ∀ a ∈ g.allAttributes, AttrKept S.nilVals S.viaFloat a.body) (info : List String → LeafInfo)
    (hi : ∀ p r, (info p).rule ≠ some (some r)) :
    ∃ t, inferID3 e g = Res.ok t ∧ ((t.AllRules fun r => S.fin r.val = true) →
      ∃ ar t', saveID3 S info t cls.body = Res.ok ar ∧ loadTreeFile L ar = Res.ok (t', cls.body) ∧
        ∀ (p : PredEnv) (what : Grid), what.Unfiltered → treePredict p t' what = treePredict p t what) := by
  obtain ⟨t, h1, h2, h3, _⟩ := inferLoop_spec E (g.allAttributes.length + 1) [] g n lab cls D hF (Nat.lt_succ_self _)
  refine ⟨t, h1, fun hfin => ?_⟩
  have hboth : t.AllRules (RuleKept S) := by
    have : ∀ t : Tree, (t.AllRules fun r => r.attr ∈ g.allAttributes ∧ r.attr ≠ cls) → (t.AllRules fun r => S.fin r.val = true) →
        t.AllRules (RuleKept S) := by
      intro t
      induction t with
      | leaf => intro _ _; trivial
      | split d c r keys child ih =>
        intro a b
        exact ⟨⟨b.1, ha _ a.1.1⟩, fun k hk => ih k (a.2 k hk) (b.2 k hk)⟩
    exact this t h3 hfin
  obtain ⟨ar, t', q1, q2, _, q4⟩ := C98_tree_file_partial S L hL info (fun p r h => absurd h (hi p r)) t (fits_keyed t _ h2) hboth
    cls.body (ha cls D.classIn) saveID3 (Or.inl rfl)
  exact ⟨ar, t', q1, q2, fun p what hu => (q4 p what hu).1⟩

/-- A tree with a threshold that is not finite is not saved: the call returns an error. -/
theorem C98_infinite_threshold (S : SaveEnv) (info : List String → LeafInfo) (t : Tree) (cls : AttrBody)
    (h : ¬ t.AllRules fun r => S.fin r.val = true) : saveID3 S info t cls = Res.err := by
  unfold saveID3 saveTree
  cases hj : treeToJson S info t [] with
  | ok j => exact absurd (treeToJson_finite S info t [] j hj) h
  | err => rfl
  | panic => exact absurd hj (treeToJson_ne_panic S info t [])

section Examples
private def fo0 : FloatOps := ⟨fun _ u => if u = 1 then "one" else "other", fun u v => v.toNat < u.toNat⟩
private def aX : Attr := ⟨0, .float "x" 2⟩
private def aY : Attr := ⟨1, .cat "y" ["red", "green", "blue"]⟩
private def aC : Attr := ⟨2, .cat "c" ["a", "b"]⟩
private def ops : List Op :=
  [.add aX, .add aY, .add aC, .addClass aC, .extend 2, .set 0 0 (packU64 1), .set 0 1 (packU64 9),
   .set 1 0 (packU64 2), .set 1 1 (packU64 0), .set 2 1 (packU64 1)]
private def tree0 : Tree :=
  .split [("a", 2), ("b", 3)] "b" ⟨aX, 5⟩ ["0", "1"] fun k =>
    if k = "0" then .leaf [("a", 1)] "a"
    else .split [("a", 1), ("b", 3)] "b" ⟨aY, 0⟩ ["red", "blue"] fun k => if k = "red" then .leaf [("b", 3)] "b" else .leaf [("a", 1)] "a"
private def S0 : SaveEnv := ⟨true, id, fun u => u != 0x7ff0000000000000#64⟩
private def L0 : LoadEnv := ⟨id, fun _ => 0, fun p => 100 + p.length⟩
private def info0 : List String → LeafInfo := fun p => if p = ["0"] then ⟨2, some (some ⟨aY, 3⟩)⟩ else ⟨1, some none⟩
private def pred0 : PredEnv := ⟨fo0, fun _ => none, 4096, id, id, someOrder, fun _ l => l⟩
private def classesOf (e : PredEnv) (t : Tree) (g : Grid) : Res (List String) :=
  (treePredict e t g).bind fun d => mapRes (fun r => getClass e.fo (.dense d) r) [0, 1]

/-- The hypotheses hold for a tree with a float and a categorical test, one of whose leaves was pruned. -/
example : L0.viaFloat = S0.viaFloat ∧ (∀ p r, (info0 p).rule = some (some r) → RuleKept S0 r) ∧ tree0.Keyed ∧
    tree0.AllRules (RuleKept S0) ∧ AttrKept S0.nilVals S0.viaFloat aC.body := by
  refine ⟨rfl, ?_, ?_, ?_, ?_⟩
  · intro p r h
    unfold info0 at h
    split at h
    · simp only [Option.some.injEq] at h
      subst h
      exact ⟨by decide, by simp [AttrKept, aY, S0]⟩
    · simp at h
  · simp [tree0, Tree.Keyed]
  · simp [tree0, Tree.AllRules, RuleKept, AttrKept, aX, aY, S0]
  · simp [AttrKept, aC, S0]

/-- The predictions of this tree after loading. -/
example : ((run 4096 ops).bind fun st => (saveID3 S0 info0 tree0 aC.body).bind fun ar => (loadTreeFile L0 ar).bind fun p =>
    classesOf pred0 p.1 (.dense st.d)) = Res.ok ["a", "b"] := by decide +kernel

/-- A filter that leaves all attributes alone. -/
private def f0 : Filter := ⟨[], fun _ _ b => Res.ok b⟩

/-- A filter that gives the attributes new addresses, and a tree for the filtered attributes. -/
private def nX : Attr := ⟨50, .float "x" 2⟩
private def nY : Attr := ⟨51, .cat "y" ["red", "green", "blue"]⟩
private def f1 : Filter := ⟨[⟨aX, nX⟩, ⟨aY, nY⟩], fun _ _ b => Res.ok b⟩
private def tree1 : Tree := .split [("a", 2), ("b", 3)] "b" ⟨nX, 5⟩ ["0", "1"] fun k =>
  if k = "0" then .leaf [("a", 1)] "a"
  else .split [("a", 1), ("b", 3)] "b" ⟨nY, 0⟩ ["red", "blue"] fun k => if k = "red" then .leaf [("b", 3)] "b" else .leaf [("a", 1)] "a"

/-- The conditions of `C98_content_partial` are met by a grid whose features are all converted: it finds the attributes of the tree, and
those that were read from the file, by content. Before and after, the predictions are the same. -/
example : ((run 4096 ops).map fun st => decide (∀ a ∈ [nX, nY, ⟨100, nX.body⟩, ⟨101, nY.body⟩],
      Grid.flag (match Grid.newFiltered (.dense st.d) f1 with | .filt _ _ _ unf => unf | _ => []) a = false)) = Res.ok true ∧
    (tree1.AllRules fun r => r.attr ∈ [nX, nY, ⟨100, nX.body⟩, ⟨101, nY.body⟩]) ∧
    ((run 4096 ops).bind fun st => classesOf pred0 tree1 (Grid.newFiltered (.dense st.d) f1)) = Res.ok ["a", "b"] ∧
    ((run 4096 ops).bind fun st => (saveID3 S0 info0 tree1 aC.body).bind fun ar => (loadTreeFile L0 ar).bind fun p =>
      classesOf pred0 p.1 (Grid.newFiltered (.dense st.d) f1)) = Res.ok ["a", "b"] := by
  refine ⟨by decide +kernel, by simp [tree1, Tree.AllRules], by decide +kernel, by decide +kernel⟩

/-- The full property: the tree predicts the same for every grid. -/
def LoadedTreesPredictTheSame : Prop :=
  ∀ (S : SaveEnv) (L : LoadEnv) (info : List String → LeafInfo) (t t' : Tree) (cls : AttrBody) (ar : Archive) (e : PredEnv)
    (what : Grid), saveID3 S info t cls = Res.ok ar → loadTreeFile L ar = Res.ok (t', cls) →
    treePredict e t' what = treePredict e t what

/-- It is false of the code: for a lazily filtered grid, the tree that was saved predicts the classes and the tree that was loaded
panics. -/
theorem C98_filtered_grid_fails : ¬ LoadedTreesPredictTheSame := by
  intro H
  have h1 : ((run 4096 ops).bind fun st => classesOf pred0 tree0 (Grid.newFiltered (.dense st.d) f0)) = Res.ok ["a", "b"] := by
    decide +kernel
  have h2 : ((run 4096 ops).bind fun st => (saveID3 S0 info0 tree0 aC.body).bind fun ar => (loadTreeFile L0 ar).bind fun p =>
      if p.2 = aC.body then classesOf pred0 p.1 (Grid.newFiltered (.dense st.d) f0) else Res.err) = Res.panic := by
    decide +kernel
  obtain ⟨st, hst, h1⟩ := Res.bind_eq_ok.1 h1
  rw [hst, Res.bind_ok] at h2
  have h3 : ((saveID3 S0 info0 tree0 aC.body).bind fun ar => (loadTreeFile L0 ar).map fun _ => true) = Res.ok true := by decide +kernel
  obtain ⟨ar, ha, h3⟩ := Res.bind_eq_ok.1 h3
  obtain ⟨p, hb, _⟩ := Res.map_eq_ok.1 h3
  rw [ha, Res.bind_ok, hb, Res.bind_ok] at h2
  split at h2
  · rename_i hp
    have := H S0 L0 info0 tree0 p.1 aC.body ar pred0 (Grid.newFiltered (.dense st.d) f0) ha (by rw [hb, ← hp])
    unfold classesOf at h1 h2
    rw [this, h1] at h2
    cases h2
  · cases h2
end Examples

end Golearn
