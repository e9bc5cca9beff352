import Verif.Proofs.Pipeline
import Verif.Props.C116
import Verif.Props.C48

/-! # C125: what is measured when a decision tree is evaluated -/

namespace Golearn

instance : Nonempty Tree := ⟨.leaf [] ""⟩

/-- A descent in data that can be read ends at the class the tree leads to. -/
theorem treeClass_leads {fo : FloatOps} {g : Grid} {n : Nat} (P : g.Presents n) (T : g.typed n) (R : g.Readable fo n)
    {ord : List String → List String} (ho : ∀ l, (ord l).Perm l) {row : Nat} (hr : row < n) {key : Rule → Nat → String} {r' : Nat}
    {lab : Nat → String} {key' : Rule → Nat → String} (t : Tree) :
    ∀ rows, t.Fits key' lab rows → t.AllRules (fun r => r.attr ∈ g.allAttributes ∧ g.branch fo r row = key r r') →
      ∃ c, treeClass fo g ord row t = Res.ok c ∧ t.Leads key r' c := by
  induction t with
  | leaf d c => intro rows _ _; exact ⟨c, rfl, rfl⟩
  | split d c r keys child ih =>
    intro rows h ha
    obtain ⟨s, k1, k2, k3⟩ := P.read _ ha.1.1
    have k4 := branch_key (fo := fo) T R ha.1.1 hr
    obtain ⟨_, ⟨q, hq, _⟩, _, h4, h5⟩ := h
    have hne : keys ≠ [] := fun e => by
      have := (h4 (key' r q)).2 ⟨q, hq, rfl⟩
      rw [e] at this
      cases this
    rw [treeClass]
    simp only [k1, Res.orPanic, Res.bind_ok, k3 row hr, k2, k4]
    rw [ha.1.2]
    by_cases hk : key r r' ∈ keys
    · rw [if_pos hk]
      obtain ⟨c, c1, c2⟩ := ih _ _ (h5 _ hk) (ha.2 _ hk)
      exact ⟨c, c1, by rw [Tree.Leads, if_pos hk]; exact c2⟩
    · rw [if_neg hk]
      have hb : bestChild (key r r') (ord keys) "" ∈ keys :=
        (ho keys).subset (bestChild_mem _ _ _ (fun e => hne (by have := ho keys; rw [e] at this; exact this.symm.eq_nil)))
      rw [if_pos hb]
      obtain ⟨c, c1, c2⟩ := ih _ _ (h5 _ hb) (ha.2 _ hb)
      exact ⟨c, c1, by rw [Tree.Leads, if_neg hk]; exact ⟨_, hb, c2⟩⟩

theorem builtFrom_perm {fo : FloatOps} {g : Grid} {cls : Attr} {lab : Nat → String} {l l' : List Nat} (h : l.Perm l') {t : Tree}
    (H : t.BuiltFrom fo g cls lab l) : t.BuiltFrom fo g cls lab l' := ⟨fits_perm t h H.1, H.2⟩

/-- A classifier that builds a tree for the training data and descends it. -/
theorem tree_answers {σ : Type} {K : ClassifierOps σ} {fo : FloatOps} {S : U64 → Prop} {e : Grid → TreeEnv} {p : Grid → PredEnv}
    {g : Grid} {n : Nat} {lab : Nat → String} {q : Nat} {nm : String} {vs : List String}
    (E : ∀ v, (e v).Ok S ∧ (e v).fo = fo) (Ep : ∀ v, (p v).Ok ∧ (p v).fo = fo) (D : TreeData fo g n lab ⟨q, .cat nm vs⟩)
    (hS : g.FloatsIn n S) (hb : vs.length + n ≤ 2 ^ 64) {st : Tree → σ}
    (hfit : ∀ s v t, inferID3 (e v) v = Res.ok t → K.fit s v = Res.ok (st t))
    (hpred : ∀ v t d, treePredict (p v) t v = Res.ok d → K.predict (st t) v = Res.ok (st t, .dense d)) :
    AnswersWith fo K (fun _ => True) g n ⟨q, .cat nm vs⟩ (fun tr _ => tr ≠ []) (fun tr (t : Tree) => t.BuiltFrom fo g ⟨q, .cat nm vs⟩ lab tr)
      (fun (t : Tree) r c => t.Leads (g.branch fo) r c) := by
  intro s train test tr te _ hT hE hn hr htr
  have hr1 : ∀ r ∈ tr, r < n := fun r h => hr r (by simp [h])
  have hr2 : ∀ r ∈ te, r < n := fun r h => hr r (by simp [h])
  have T1 := treeData_shows D hr1 htr hT.presents hT.attrs hT.cells hT.width hT.classAttr
  obtain ⟨E1, E2⟩ := E train
  obtain ⟨t, f1, f2, f3⟩ := C48_fits (e train) S E1 train _ _ _ (E2 ▸ T1) (by
    intro a ha hf i hi
    have ha := hT.attrs.subset ha
    rw [hT.cells a ha i hi]
    exact hS a ha hf _ (hr1 _ (List.getElem_mem hi)))
  rw [E2] at f2
  have f3' : t.AllRules fun r => r.attr ∈ g.allAttributes ∧ r.attr ≠ ⟨q, .cat nm vs⟩ :=
    allRules_imp (fun r h => ⟨hT.attrs.subset h.1, h.2⟩) t f3
  have hfit0 : t.Fits (g.branch fo) lab tr := by
    have := fits_map (key := g.branch fo) (lab := lab) (f := fun i => tr.getD i 0) t (rows := List.range tr.length)
      (allRules_imp (fun r h i hi => branch_shows hT.cells r h.1 i (List.mem_range.1 hi)) t f3') (fun i _ => rfl) f2
    rwa [range_getD] at this
  obtain ⟨P1, P2⟩ := Ep test
  have Ty := hE.typed D.typed hr2
  have Re : test.Readable fo te.length := by
    intro a ha i hi
    have ha := hE.attrs.subset ha
    rw [hE.cells a ha i hi]
    exact D.readable a ha _ (hr2 _ (List.getElem_mem hi))
  have hte : te.length ≤ n := by
    have h := ((List.nodup_append.1 hn).2.1.subperm (l₂ := List.range n) fun r h => List.mem_range.2 (hr2 r h)).length_le
    simpa using h
  have W : TreeInput (p test).fo test te.length test.allAttributes := by
    rw [P2]
    exact ⟨hE.presents, Ty, Re, ⟨q, nm, vs, hE.classAttr, by omega⟩, fun a ha => ⟨a, ha, C28_equals_refl a, rfl⟩⟩
  obtain ⟨d, d1, d2, d3⟩ := treePredict_spec P1 W (t := t) (Q := fun i c => t.Leads (g.branch fo) (te.getD i 0) c) (by
    intro i hi
    rw [P2]
    exact treeClass_leads hE.presents Ty Re (P1.children i) hi t _ hfit0
      (allRules_imp (fun r h => ⟨hE.attrs.symm.subset h.1, branch_shows hE.cells r h.1 i hi⟩) t f3'))
  refine ⟨st t, st t, .dense d, t, hfit _ _ _ f1, hpred _ _ _ d1, trivial, d2, ⟨hfit0, f3'⟩, ?_⟩
  intro i hi
  obtain ⟨c, c1, c2⟩ := d3 i hi
  rw [P2] at c2
  exact ⟨c, by simpa [List.getD, hi] using c1, c2⟩

theorem otherRows_ne {draw : Nat → Nat} {n folds : Nat} (hdraw : ∀ i, i < n → draw i < folds) {f : Nat} (hf : f < folds)
    (h : ∃ r, r < n ∧ draw r ≠ f) : otherRows draw n folds f ≠ [] := by
  intro e
  have hp := otherRows_perm hdraw hf
  obtain ⟨r, hr, hr'⟩ := h
  rw [e] at hp
  have : r ∈ (List.range n).filter fun q => decide (draw q ≠ f) := List.mem_filter.2 ⟨List.mem_range.2 hr, by simpa using hr'⟩
  rw [← hp.mem_iff] at this
  cases this

theorem random_answers {fo : FloatOps} {S : U64 → Prop} {e : Grid → TreeEnv} {p : Grid → PredEnv}
    {g : Grid} {n : Nat} {lab : Nat → String} {q : Nat} {nm : String} {vs : List String}
    (E : ∀ v, (e v).Ok S ∧ (e v).fo = fo) (Ep : ∀ v, (p v).Ok ∧ (p v).fo = fo) (D : TreeData fo g n lab ⟨q, .cat nm vs⟩)
    (hS : g.FloatsIn n S) (hb : vs.length + n ≤ 2 ^ 64) :
    AnswersWith fo (randomTreeOps e p) (fun _ => True) g n ⟨q, .cat nm vs⟩ (fun tr _ => tr ≠ [])
      (fun tr (t : Tree) => t.BuiltFrom fo g ⟨q, .cat nm vs⟩ lab tr) (fun (t : Tree) r c => t.Leads (g.branch fo) r c) :=
  tree_answers E Ep D hS hb (st := some) (fun s v t h => by simp only [randomTreeOps, h, Res.map_ok])
    (fun v t d h => by simp only [randomTreeOps, h, Res.map_ok])

theorem id3_answers {fo : FloatOps} {S : U64 → Prop} {e : Grid → Id3Env} {p : Grid → PredEnv}
    {g : Grid} {n : Nat} {lab : Nat → String} {q : Nat} {nm : String} {vs : List String}
    (E : ∀ v, (e v).tree.Ok S ∧ (e v).tree.fo = fo) (Ep : ∀ v, (p v).Ok ∧ (p v).fo = fo) (D : TreeData fo g n lab ⟨q, .cat nm vs⟩)
    (hS : g.FloatsIn n S) (hb : vs.length + n ≤ 2 ^ 64) (pct : Int) :
    AnswersWith fo (id3Ops e false pct p) (fun _ => True) g n ⟨q, .cat nm vs⟩ (fun tr _ => tr ≠ [])
      (fun tr (t : Tree) => t.BuiltFrom fo g ⟨q, .cat nm vs⟩ lab tr) (fun (t : Tree) r c => t.Leads (g.branch fo) r c) :=
  tree_answers (e := fun v => (e v).tree) E Ep D hS hb (st := some)
    (fun s v t h => by simp only [id3Ops, id3Fit, h, Res.map_ok, Bool.false_eq_true, if_false])
    (fun v t d h => by simp only [id3Ops, h, Res.map_ok])

/-- Cross validation with `folds` folds of an ID3 tree without pruning, on any table of training data, with any rule generator that
picks an attribute, for every random assignment of rows to folds that leaves a row outside each fold: it succeeds with one matrix for
each fold, which counts exactly the rows of the fold, with their own label and the label given to them. For each fold there is one
tree, built from the rows outside the fold only, and the label of each row of the fold is the one this tree gives it. -/
theorem C125_id3 (fo : FloatOps) (S : U64 → Prop) (e : Grid → Id3Env) (E : ∀ v, (e v).tree.Ok S ∧ (e v).tree.fo = fo)
    (p : Grid → PredEnv) (Ep : ∀ v, (p v).Ok ∧ (p v).fo = fo) (g : Grid) (n : Nat) (lab : Nat → String) (q : Nat) (nm : String)
    (vs : List String) (D : TreeData fo g n lab ⟨q, .cat nm vs⟩) (hS : g.FloatsIn n S) (hb : vs.length + n ≤ 2 ^ 64)
    (srt : List Spec → List Spec) (hsrt : ∀ l, (srt l).Perm l) (draw : Nat → Nat) (folds : Nat) (hdraw : ∀ i, i < n → draw i < folds)
    (hk : ∀ f, f < folds → ∃ r, r < n ∧ draw r ≠ f) (pct : Int) (old : Option Tree) :
    ∃ ms, ∃ (c : Nat → String) (t : Nat → Tree), crossValidate fo srt (id3Ops e false pct p) old g draw folds = Res.ok ms ∧
      ms.length = folds ∧
      (∀ f (h : f < ms.length), Counts ms[f] (((List.range n).filter fun r => decide (draw r = f)).map fun r => (lab r, c r))) ∧
      (∀ f, f < folds → (t f).BuiltFrom fo g ⟨q, .cat nm vs⟩ lab ((List.range n).filter fun r => decide (draw r ≠ f))) ∧
      ∀ r, r < n → (t (draw r)).Leads (g.branch fo) r (c r) := by
  obtain ⟨ms, c, t, h1, h2, h3, h4, h5⟩ := crossValidate_with (id3_answers E Ep D hS hb pct) D.rows D.distinct D.classAttr D.classIn
    D.label hsrt hdraw (fun f hf => otherRows_ne hdraw hf (hk f hf)) (s := old) trivial
  exact ⟨ms, c, t, h1, h2, fun f h => foldRows_eq draw n f ▸ h3 f h, fun f hf => builtFrom_perm (otherRows_perm hdraw hf) (h4 f hf), h5⟩

/-- The same for a random tree, which is an ID3 tree with another rule generator. -/
theorem C125_random_tree (fo : FloatOps) (S : U64 → Prop) (e : Grid → TreeEnv) (E : ∀ v, (e v).Ok S ∧ (e v).fo = fo)
    (p : Grid → PredEnv) (Ep : ∀ v, (p v).Ok ∧ (p v).fo = fo) (g : Grid) (n : Nat) (lab : Nat → String) (q : Nat) (nm : String)
    (vs : List String) (D : TreeData fo g n lab ⟨q, .cat nm vs⟩) (hS : g.FloatsIn n S) (hb : vs.length + n ≤ 2 ^ 64)
    (srt : List Spec → List Spec) (hsrt : ∀ l, (srt l).Perm l) (draw : Nat → Nat) (folds : Nat) (hdraw : ∀ i, i < n → draw i < folds)
    (hk : ∀ f, f < folds → ∃ r, r < n ∧ draw r ≠ f) (old : Option Tree) :
    ∃ ms, ∃ (c : Nat → String) (t : Nat → Tree), crossValidate fo srt (randomTreeOps e p) old g draw folds = Res.ok ms ∧
      ms.length = folds ∧
      (∀ f (h : f < ms.length), Counts ms[f] (((List.range n).filter fun r => decide (draw r = f)).map fun r => (lab r, c r))) ∧
      (∀ f, f < folds → (t f).BuiltFrom fo g ⟨q, .cat nm vs⟩ lab ((List.range n).filter fun r => decide (draw r ≠ f))) ∧
      ∀ r, r < n → (t (draw r)).Leads (g.branch fo) r (c r) := by
  obtain ⟨ms, c, t, h1, h2, h3, h4, h5⟩ := crossValidate_with (random_answers E Ep D hS hb) D.rows D.distinct D.classAttr D.classIn
    D.label hsrt hdraw (fun f hf => otherRows_ne hdraw hf (hk f hf)) (s := old) trivial
  exact ⟨ms, c, t, h1, h2, fun f h => foldRows_eq draw n f ▸ h3 f h, fun f hf => builtFrom_perm (otherRows_perm hdraw hf) (h4 f hf), h5⟩

/-- A split of dense instances into training and test data, training an ID3 tree without pruning and evaluating it: unless there is
no training row, the matrix counts exactly the test rows, with their own label and the label given to them by one tree, built from
the training rows only. -/
theorem C125_split (fo : FloatOps) (S : U64 → Prop) (e : Grid → Id3Env) (E : ∀ v, (e v).tree.Ok S ∧ (e v).tree.fo = fo)
    (p : Grid → PredEnv) (Ep : ∀ v, (p v).Ok ∧ (p v).fo = fo) (d : Dense) (n : Nat) (DO : DenseOK n d) (lab : Nat → String) (q : Nat)
    (nm : String) (vs : List String) (D : TreeData fo (.dense d) n lab ⟨q, .cat nm vs⟩) (hS : (Grid.dense d).FloatsIn n S)
    (hb : vs.length + n ≤ 2 ^ 64) (srt : List Spec → List Spec) (hsrt : ∀ l, (srt l).Perm l) (draw coin : Nat → Nat)
    (hdraw : ∀ i, draw i ≤ i) (pct : Int) (share : Int) (old : Option Tree) :
    ∃ train test src tr te, trainTestSplit srt draw coin share (.dense d) = Res.ok (train, test, src) ∧
      (tr ++ te).Perm (List.range n) ∧ tr.length = ((List.range n).countP fun i => decide ((coin i : Int) > share)) ∧
      (tr ≠ [] → ∃ t1 t2 gen cm, ∃ (c : Nat → String) (t : Tree), (id3Ops e false pct p).fit old train = Res.ok t1 ∧
        (id3Ops e false pct p).predict t1 test = Res.ok (t2, gen) ∧ getConfusionMatrix fo test gen = Res.ok cm ∧
        Counts cm (te.map fun r => (lab r, c r)) ∧ t.BuiltFrom fo (.dense d) ⟨q, .cat nm vs⟩ lab tr ∧
        ∀ r ∈ te, t.Leads ((Grid.dense d).branch fo) r (c r)) :=
  split_with (id3_answers E Ep D hS hb pct) DO D.classAttr D.classIn D.label hsrt draw coin hdraw share (s := old) trivial

section Examples
private def fo0 : FloatOps := ⟨fun _ u => if u = 1 then "one" else "other", fun u v => v.toNat < u.toNat⟩
private def aX : Attr := ⟨0, .float "x" 2⟩
private def aY : Attr := ⟨1, .cat "y" ["red", "green", "blue"]⟩
private def aC : Attr := ⟨2, .cat "c" ["a", "b"]⟩
private def opsT : List Op :=
  [.add aX, .add aY, .add aC, .addClass aC, .extend 4, .set 0 0 (packU64 1), .set 0 1 (packU64 2),
   .set 0 2 (packU64 8), .set 0 3 (packU64 9), .set 1 1 (packU64 1), .set 2 2 (packU64 1), .set 2 3 (packU64 1)]
private def env0 : TreeEnv := ⟨fo0, id, fun _ g => someOrder g, fun _ l => l, fun _ => firstAttribute 5⟩
private def pred0 : PredEnv := ⟨fo0, fun _ => none, 4096, id, id, someOrder, fun _ l => l⟩

/-- The hypotheses hold for four training rows with a float and a categorical attribute, with the rows of even number in one fold
and the others in the other. -/
example : ∃ tr, run 4096 opsT = Res.ok tr ∧ env0.Ok (fun _ => True) ∧ pred0.Ok ∧ DenseOK 4 tr.d ∧
    TreeData fo0 (.dense tr.d) 4 (fun r => ["a", "a", "b", "b"].getD r "") aC ∧
    (Grid.dense tr.d).FloatsIn 4 (fun _ => True) ∧ ∀ f, f < 2 → ∃ r, r < 4 ∧ r % 2 ≠ f := by
  have e : ((run 4096 opsT).map fun tr => treeCheck fo0 tr.d 4 ["a", "a", "b", "b"] aC) = Res.ok true := by decide +kernel
  obtain ⟨tr, htr, e⟩ := Res.map_eq_ok.1 e
  have Dt := denseOK_run (pg := 4096) (ops := opsT) (by decide) htr (by decide)
  exact ⟨tr, htr, ⟨fun _ => List.Perm.refl _, fun _ => someOrder_rowOrder, fun _ _ => List.Perm.refl _,
    fun _ => firstAttribute_chooses fo0 _ 5⟩, ⟨fun _ => List.Perm.refl _, fun _ => List.Perm.refl _, someOrder_rowOrder,
    fun _ _ => List.Perm.refl _⟩, Dt, treeData_dense Dt e, floatsIn_true (treeData_dense Dt e).typed,
    fun f hf => ⟨1 - f, by omega, by omega⟩⟩

/-- In this case every row is given its own label. -/
example : ((run 4096 opsT).bind fun tr =>
    crossValidate fo0 id (randomTreeOps (fun _ => env0) fun _ => pred0) none (.dense tr.d) (fun r => r % 2) 2) =
    Res.ok [[("a", [("a", 1)]), ("b", [("b", 1)])], [("a", [("a", 1)]), ("b", [("b", 1)])]] := by decide +kernel
end Examples

end Golearn
