import Verif.Proofs.Id3
import Verif.Proofs.TreeExamples
import Verif.Props.C47

/-! # C116: fitting an ID3 tree trains on some rows and prunes with the others -/

namespace Golearn

theorem branch_shows {fo : FloatOps} {g v : Grid} {rows : List Nat}
    (hv : ∀ a ∈ g.allAttributes, ∀ i (h : i < rows.length), v.cell a i = g.cell a rows[i]) (r : Rule) (hr : r.attr ∈ g.allAttributes) (i : Nat)
    (hi : i < rows.length) : v.branch fo r i = g.branch fo r (rows.getD i 0) := by
  unfold Grid.branch
  rw [hv _ hr i hi, List.getD_eq_getElem _ _ hi]

theorem range_getD (rows : List Nat) : (List.range rows.length).map (fun i => rows.getD i 0) = rows := by
  apply List.ext_getElem
  · simp
  · intro i h1 h2
    simp [h2]

theorem classOf_map {key key' : Rule → Nat → String} {i j : Nat} (p : Rule → Prop) (hp : ∀ r, p r → key' r i = key r j) (t : Tree) :
    t.AllRules p → (t.Knows key' i ↔ t.Knows key j) ∧ (t.Knows key j → t.classOf key' i = t.classOf key j) := by
  induction t with
  | leaf d c => intro _; exact ⟨Iff.rfl, fun _ => rfl⟩
  | split d c r keys child ih =>
    intro ha
    unfold Tree.Knows Tree.classOf
    rw [hp r ha.1]
    constructor
    · constructor
      · rintro ⟨h1, h2⟩; exact ⟨h1, (ih _ (ha.2 _ h1)).1.1 h2⟩
      · rintro ⟨h1, h2⟩; exact ⟨h1, (ih _ (ha.2 _ h1)).1.2 h2⟩
    · rintro ⟨h1, h2⟩
      exact (ih _ (ha.2 _ h1)).2 h2

/-- Fitting with a share of the rows for pruning, on a data set that any history of calls has made. If the draws give both parts a row, a tree
is built from the one part, and it fits that part. The result fits that part as well, although splits may have been given up. It gives at least as many
rows of the other part their label as that tree, if the tree has a branch for all their values and no number prints as 0 or 1. Its predictions
are labels of rows of the first part. The data set holds the same rows as before. -/
theorem C116_pruned_partial (e : Id3Env) (S : U64 → Prop) (E : e.tree.Ok S) (Ep : e.prune.Ok) (hfo : e.prune.fo = e.tree.fo)
    (hsrt : ∀ l, (e.srt l).Perm l) (hdraw : ∀ i, e.draw i ≤ i) (pg : Nat) (ops : List Op) (st : St) (hb : ∀ op ∈ ops, basicOp op = true)
    (hrun : run pg ops = Res.ok st) (hd : (addedAttrs ops).Pairwise (fun a b => a.equals b = false)) (n : Nat) (hn : n = totalRows ops)
    (g : Grid) (hg : g = .dense st.d) (lab : Nat → String) (p : Nat) (nm : String) (vs : List String)
    (D : TreeData e.tree.fo g n lab ⟨p, .cat nm vs⟩) (hS : g.FloatsIn n S) (hvs : vs.length + n ≤ 2 ^ 64)
    (pct : Int) (h1 : ∃ i, i < n ∧ (e.coin i : Int) > pct) (h2 : ∃ i, i < n ∧ (e.coin i : Int) ≤ pct) :
    ∃ (t : Tree) (d' : Dense) (train test : List Nat) (part : Grid) (t0 : Tree), id3Fit e true pct g = Res.ok (t, .dense d') ∧ (train ++ test).Perm (List.range n) ∧
      (d'.maxRow = n ∧ d'.allAttributes = st.d.allAttributes ∧ ∃ σ : Equiv.Perm Nat, (∀ r, r < n → σ r < n) ∧
        ∀ a ∈ d'.allAttributes, ∀ r, r < n → (Grid.dense d').cell a r = g.cell a (σ r)) ∧
      (part.size.2 = train.length ∧ ∀ a ∈ g.allAttributes, ∀ i (h : i < train.length), part.cell a i = g.cell a train[i]) ∧
      inferID3 e.tree part = Res.ok t0 ∧ t0.Fits (g.branch e.tree.fo) lab train ∧ t.Fits (g.branch e.tree.fo) lab train ∧
      (t.AllRules fun r => r.attr ∈ g.allAttributes ∧ r.attr ≠ ⟨p, .cat nm vs⟩) ∧
      (g.NumbersApart e.tree.fo n → (∀ r ∈ test, t0.Knows (g.branch e.tree.fo) r) →
        t0.right (g.branch e.tree.fo) lab test ≤ t.right (g.branch e.tree.fo) lab test) ∧
      ∀ (pe : PredEnv) (_ : pe.Ok) (what : Grid) (m : Nat) (_ : TreeInput pe.fo what m g.allAttributes),
        ∃ d, treePredict pe t what = Res.ok d ∧ d.maxRow = m ∧ ∀ r, r < m → ∃ q ∈ train, getClass pe.fo (.dense d) r = Res.ok (lab q) := by
  subst hg
  have DO := denseOK_run hb hrun hd
  rw [← hn] at DO
  obtain ⟨d', specs, DO', A, C, hsplit, ⟨σ, hσ, V⟩, hparts⟩ := split_parts DO D.classAttr D.classIn hsrt e.draw e.coin hdraw pct
  have hmem : ∀ (q : Nat → Bool), ∀ r ∈ (List.range n).filter q, r < n := fun q r hr => List.mem_range.1 (List.mem_filter.1 hr).1
  have hσr : ∀ (q : Nat → Bool), ∀ r ∈ ((List.range n).filter q).map σ, r < n := by
    intro q r hr
    obtain ⟨x, hx, rfl⟩ := List.mem_map.1 hr
    exact hσ x (hmem q x hx)
  -- one part
  have part : ∀ q : Nat → Bool, (∃ i, i < n ∧ q i = true) → ∃ v, v = Grid.viewFromVisible (.dense d') ((List.range n).filter q) specs ∧
      TreeData e.tree.fo v (((List.range n).filter q).map σ).length (fun i => lab ((((List.range n).filter q).map σ).getD i 0)) ⟨p, .cat nm vs⟩ ∧
      v.allAttributes.Perm st.d.allAttributes ∧
      (∀ a ∈ (Grid.dense st.d).allAttributes, ∀ i (h : i < (((List.range n).filter q).map σ).length),
        v.cell a i = (Grid.dense st.d).cell a (((List.range n).filter q).map σ)[i]) := by
    intro q ⟨i, hi, hq⟩
    obtain ⟨S1, S2, S3⟩ := hparts _ (hmem q)
    obtain ⟨P1, P2, P3, P4⟩ := S1
    have P2 : (Grid.viewFromVisible (.dense d') ((List.range n).filter q) specs).allAttributes.Perm st.d.allAttributes := A ▸ P2
    have hcell : ∀ a ∈ (Grid.dense st.d).allAttributes, ∀ i (h : i < (((List.range n).filter q).map σ).length),
        (Grid.viewFromVisible (.dense d') ((List.range n).filter q) specs).cell a i =
          (Grid.dense st.d).cell a (((List.range n).filter q).map σ)[i] := by
      intro a ha i hi
      have hi' : i < ((List.range n).filter q).length := by simpa using hi
      have ha' : a ∈ st.d.allAttributes := ha
      rw [P4 a (by show a ∈ d'.allAttributes; rw [A]; exact ha') i hi', V a ha' _ (hmem q _ (List.getElem_mem hi')), List.getElem_map]
    refine ⟨_, rfl, ?_, P2, hcell⟩
    refine treeData_shows D (hσr q) ?_ (by simpa using P1) P2 hcell S3 S2
    intro he
    have : i ∈ (List.range n).filter q := List.mem_filter.2 ⟨List.mem_range.2 hi, hq⟩
    rw [List.map_eq_nil_iff.1 he] at this
    cases this
  obtain ⟨i1, hi1, hc1⟩ := h1
  obtain ⟨i2, hi2, hc2⟩ := h2
  obtain ⟨v1, e1, T1, A1, V1⟩ := part (fun i => decide ((e.coin i : Int) > pct)) ⟨i1, hi1, decide_eq_true hc1⟩
  obtain ⟨v2, e2, T2, A2, V2⟩ := part (fun i => !decide ((e.coin i : Int) > pct)) ⟨i2, hi2, by simpa using hc2⟩
  generalize htr : ((List.range n).filter fun i => decide ((e.coin i : Int) > pct)).map σ = train at T1 V1
  generalize hte : ((List.range n).filter fun i => !decide ((e.coin i : Int) > pct)).map σ = test at T2 V2
  have hperm : (train ++ test).Perm (List.range n) := by
    rw [← htr, ← hte, ← List.map_append]
    exact ((List.filter_append_perm _ _).map _).trans (map_perm_range _ (Equiv.injective _) hσ)
  have hlt : ∀ r ∈ train ++ test, r < n := fun r hr => List.mem_range.1 (hperm.subset hr)
  have hF1 : v1.FloatsIn train.length S := by
    intro a ha hf i hi
    have ha : a ∈ (Grid.dense st.d).allAttributes := A1.subset ha
    rw [V1 a ha i hi]
    exact hS a ha hf _ (hlt _ (List.mem_append_left _ (List.getElem_mem hi)))
  obtain ⟨t0, f1, f2, f3, f4⟩ := inferLoop_spec E (v1.allAttributes.length + 1) [] v1 _ _ _ T1 hF1 (Nat.lt_succ_self _)
  have PD : PruneData e.prune.fo v2 test.length (fun i => lab (test.getD i 0)) ⟨p, .cat nm vs⟩ := by
    rw [hfo]
    refine ⟨T2.rows, T2.distinct, T2.typed, T2.readable, T2.nonempty, T2.width, T2.classAttr, T2.classIn, T2.label, p, nm, vs, rfl, ?_⟩
    have : (train ++ test).length = n := by rw [hperm.length_eq, List.length_range]
    rw [List.length_append] at this
    omega
  have hT : t0.Tests (v2.inputs ⟨p, .cat nm vs⟩) := by
    refine tests_mono t0 ?_ f4
    intro a ha
    obtain ⟨x1, x2⟩ := List.mem_filter.1 ha
    exact List.mem_filter.2 ⟨A2.symm.subset (A1.subset x1), x2⟩
  obtain ⟨t, g1, g2, g3, -⟩ := pruneTree_spec Ep t0 [] v2 _ _ _ PD hT
  have f3' : t0.AllRules fun r => r.attr ∈ (Grid.dense st.d).allAttributes ∧ r.attr ≠ ⟨p, .cat nm vs⟩ :=
    allRules_imp (fun r h => ⟨A1.subset h.1, h.2⟩) t0 f3
  have hfit0 : t0.Fits ((Grid.dense st.d).branch e.tree.fo) lab train := by
    have := fits_map (key := (Grid.dense st.d).branch e.tree.fo) (lab := lab) (f := fun i => train.getD i 0) t0 (rows := List.range train.length)
      (allRules_imp (fun r h i hi => branch_shows V1 r h.1 i (List.mem_range.1 hi)) t0 f3') (fun i _ => rfl) f2
    rwa [range_getD] at this
  obtain ⟨k1, k2⟩ := prune_keeps e.prune ((Grid.dense st.d).branch e.tree.fo) lab
    (fun r => r.attr ∈ (Grid.dense st.d).allAttributes ∧ r.attr ≠ ⟨p, .cat nm vs⟩) t0 [] v2 t g1
  have hfit := k1 _ hfit0
  have hrules := k2 f3'
  refine ⟨t, d', train, test, v1, t0, ?_, hperm, ⟨DO'.presents.rows, A, σ, hσ, fun a ha => V a (A ▸ ha)⟩, ⟨T1.rows.rows, V1⟩, f1, hfit0, hfit, hrules, ?_, ?_⟩
  · have f1 : inferID3 e.tree v1 = Res.ok t0 := f1
    unfold id3Fit
    rw [if_pos rfl, hsplit, ← e1, ← e2]
    simp only [Res.bind_ok, f1, g1, Res.map_ok]
  · intro hna hknow
    have hkey : ∀ i, i < test.length → ∀ r : Rule, r.attr ∈ (Grid.dense st.d).allAttributes ∧ r.attr ≠ ⟨p, .cat nm vs⟩ →
        v2.branch e.tree.fo r i = (Grid.dense st.d).branch e.tree.fo r (test.getD i 0) := fun i hi r hr => branch_shows V2 r hr.1 i hi
    have hget : ∀ i, i < test.length → test.getD i 0 ∈ test := by
      intro i hi
      rw [List.getD_eq_getElem _ _ hi]
      exact List.getElem_mem hi
    have hN : v2.NumbersApart e.tree.fo test.length := by
      intro a ha hf i hi s hs
      have ha : a ∈ (Grid.dense st.d).allAttributes := A2.subset ha
      rw [V2 a ha i hi] at hs
      exact hna a ha hf _ (hlt _ (List.mem_append_right _ (List.getElem_mem hi))) s hs
    have hK : ∀ i, i < test.length → t0.Knows (v2.branch e.tree.fo) i := by
      intro i hi
      have h1 := classOf_map _ (hkey i hi) t0 f3'
      exact h1.1.2 (hknow _ (hget i hi))
    rw [hfo] at g3
    obtain ⟨u1, u2⟩ := g3 hN hK
    have hright : ∀ u : Tree, (u.AllRules fun r => r.attr ∈ (Grid.dense st.d).allAttributes ∧ r.attr ≠ ⟨p, .cat nm vs⟩) →
        (∀ i, i < test.length → u.Knows (v2.branch e.tree.fo) i) →
        u.right (v2.branch e.tree.fo) (fun i => lab (test.getD i 0)) (List.range test.length) =
          u.right ((Grid.dense st.d).branch e.tree.fo) lab test := by
      intro u hu hk
      unfold Tree.right
      conv_rhs => rw [← range_getD test]
      rw [List.countP_map]
      apply List.countP_congr
      intro i hi
      have hi := List.mem_range.1 hi
      obtain ⟨c1, c2⟩ := classOf_map _ (hkey i hi) u hu
      simp only [Function.comp_apply, c2 (c1.1 (hk i hi))]
    rw [← hright t0 f3' hK, ← hright t hrules u1]
    exact u2
  · intro pe Pp what m W
    obtain ⟨d, d1, d2, d3⟩ := treePredict_spec Pp W (t := t) (Q := fun _ c => c ∈ train.map lab) (by
      intro r hr
      exact treeClass_trained W.rows W.typed W.readable W.finds (Pp.children r) hr t _ hfit (allRules_imp (fun _ h => h.1) t hrules))
    refine ⟨d, d1, d2, ?_⟩
    intro r hr
    obtain ⟨c, c1, c2⟩ := d3 r hr
    obtain ⟨q, hq, rfl⟩ := List.mem_map.1 c1
    exact ⟨q, hq, c2⟩

/-- Fitting without pruning, on any kind of instances: the tree is built from all rows, it fits them, predictions are their labels, and the data
stay as they are. -/
theorem C116_whole (e : Id3Env) (S : U64 → Prop) (E : e.tree.Ok S) (g : Grid) (n : Nat) (lab : Nat → String) (cls : Attr)
    (D : TreeData e.tree.fo g n lab cls) (hS : g.FloatsIn n S) (pct : Int) :
    ∃ t, id3Fit e false pct g = Res.ok (t, g) ∧ t.Fits (g.branch e.tree.fo) lab (List.range n) ∧
      ∀ (pe : PredEnv) (_ : pe.Ok) (what : Grid) (m : Nat) (_ : TreeInput pe.fo what m g.allAttributes),
        ∃ d, treePredict pe t what = Res.ok d ∧ d.maxRow = m ∧ ∀ r, r < m → ∃ q, q < n ∧ getClass pe.fo (.dense d) r = Res.ok (lab q) := by
  obtain ⟨t, h1, h2, -, -⟩ := inferLoop_spec E (g.allAttributes.length + 1) [] g n lab cls D hS (Nat.lt_succ_self _)
  obtain ⟨t', h3, h4⟩ := C47_predicts_trained_class e.tree S E g n lab cls D hS
  have h1 : inferID3 e.tree g = Res.ok t := h1
  rw [h1, Res.ok.injEq] at h3
  subst h3
  refine ⟨t, ?_, h2, h4⟩
  unfold id3Fit
  rw [if_neg (by simp), h1, Res.map_ok]

/-- If the draws leave no row for pruning, every split is given up: a fitted tree is a single class, whatever the data. -/
theorem C116_no_validation_rows (e : Id3Env) (hsrt : ∀ l, (e.srt l).Perm l) (hdraw : ∀ i, e.draw i ≤ i) (pg : Nat) (ops : List Op) (st : St)
    (hb : ∀ op ∈ ops, basicOp op = true) (hrun : run pg ops = Res.ok st) (hd : (addedAttrs ops).Pairwise (fun a b => a.equals b = false))
    (cls : Attr) (hc : st.d.allClassAttributes = [cls]) (pct : Int) (h1 : ∀ i, i < totalRows ops → (e.coin i : Int) > pct)
    (t : Tree) (g : Grid) (h : id3Fit e true pct (.dense st.d) = Res.ok (t, g)) : ∃ d c, t = .leaf d c := by
  have DO := denseOK_run hb hrun hd
  have hin : cls ∈ st.d.allAttributes := by
    have h : cls ∈ st.d.allClassAttributes := by rw [hc]; exact List.mem_singleton.2 rfl
    obtain ⟨pre, b, post, e1, e2, -⟩ := ((C09_class_attributes pg ops st hb hrun hd).1 cls).1 h
    obtain ⟨I, -, -⟩ := run_inv pg ops st (basic_noLate hb) hrun
    obtain ⟨-, hat⟩ := run_basic pg ops st hb hrun
    refine I.listed.symm.subset ?_
    rw [hat, e1, addedAttrs_append]
    exact List.mem_append_left _ e2
  obtain ⟨d', specs, -, -, -, hsplit, -, hparts⟩ := split_parts DO hc hin hsrt e.draw e.coin hdraw pct
  unfold id3Fit at h
  rw [if_pos rfl, hsplit, Res.bind_ok] at h
  obtain ⟨t0, -, h⟩ := Res.bind_eq_ok.1 h
  obtain ⟨t', h2, h3⟩ := Res.map_eq_ok.1 h
  obtain ⟨rfl, -⟩ := Prod.mk.inj h3
  cases t0 with
  | leaf d c =>
    rw [pruneTree, Res.ok.injEq] at h2
    exact ⟨d, c, h2.symm⟩
  | split d c r keys child =>
    refine ⟨d, c, prune_no_rows e.prune d c r keys child [] _ ?_ _ h2⟩
    obtain ⟨⟨P, -⟩, -⟩ := hparts ((List.range (totalRows ops)).filter fun i => !decide ((e.coin i : Int) > pct)) (fun r hr =>
      List.mem_range.1 (List.mem_filter.1 hr).1)
    rw [P.rows, List.length_eq_zero_iff, List.filter_eq_nil_iff]
    intro i hi
    simp [h1 i (List.mem_range.1 hi)]

section Witness
private def fo0 : FloatOps := ⟨fun _ u => if u = 1 then "one" else "other", fun u v => v.toNat < u.toNat⟩
private def aX : Attr := ⟨0, .float "x" 2⟩
private def aY : Attr := ⟨1, .cat "y" ["red", "green", "blue"]⟩
private def aC : Attr := ⟨2, .cat "c" ["a", "b"]⟩
private def opsT : List Op :=
  [.add aX, .add aY, .add aC, .addClass aC, .extend 5, .set 0 0 (packU64 1), .set 0 1 (packU64 2),
   .set 0 2 (packU64 8), .set 0 3 (packU64 9), .set 0 4 (packU64 9), .set 1 1 (packU64 1), .set 2 2 (packU64 1), .set 2 3 (packU64 1), .set 2 4 (packU64 1)]
private def pred0 : PredEnv := ⟨fo0, fun _ => none, 4096, id, id, someOrder, fun _ l => l⟩
private def env0 (draw coin : Nat → Nat) : Id3Env :=
  ⟨⟨fo0, id, fun _ g => someOrder g, fun _ l => l, fun _ => firstAttribute 5⟩, ⟨fo0, id, fun _ g => someOrder g, fun _ _ => pred0⟩, id, draw, coin⟩
private theorem pred0_ok : pred0.Ok :=
  ⟨fun _ => List.Perm.refl _, fun _ => List.Perm.refl _, someOrder_rowOrder, fun _ _ => List.Perm.refl _⟩
private theorem env0_ok (draw coin : Nat → Nat) : (env0 draw coin).tree.Ok (fun _ => True) ∧ (env0 draw coin).prune.Ok :=
  ⟨⟨fun _ => List.Perm.refl _, fun _ => someOrder_rowOrder, fun _ _ => List.Perm.refl _, fun _ => firstAttribute_chooses fo0 _ 5⟩,
    ⟨fun _ => List.Perm.refl _, fun _ => someOrder_rowOrder, fun _ _ => pred0_ok, fun _ _ => rfl⟩⟩

/-- The classes of the rows of the data as fitting leaves them, and whether the tree is a single class. -/
private def outcome (e : Id3Env) (pct : Int) : Res (List String × Bool) :=
  (run 4096 opsT).bind fun st => (id3Fit e true pct (.dense st.d)).bind fun q =>
    (mapRes (getClass fo0 q.2) (List.range 5)).map fun cs => (cs, match q.1 with | .leaf _ _ => true | _ => false)

/-- Five rows, shuffled by some draws. Three are used to train and two to prune. The hypotheses hold, and the split is kept. -/
theorem C116_witness : (∃ st, run 4096 opsT = Res.ok st ∧
      TreeData fo0 (.dense st.d) 5 (fun r => ["a", "a", "b", "b", "b"].getD r "") aC ∧ (Grid.dense st.d).FloatsIn 5 fun _ => True) ∧
    outcome (env0 (fun i => i / 2) (fun i => [70, 20, 90, 80, 10].getD i 0)) 40 = Res.ok (["a", "b", "b", "b", "a"], false) := by
  have e : ((run 4096 opsT).map fun st => treeCheck fo0 st.d 5 ["a", "a", "b", "b", "b"] aC) = Res.ok true := by decide +kernel
  obtain ⟨st, hst, e⟩ := Res.map_eq_ok.1 e
  have Dt := denseOK_run (pg := 4096) (ops := opsT) (by decide) hst (by decide)
  exact ⟨⟨st, hst, treeData_dense Dt e, floatsIn_true (treeData_dense Dt e).typed⟩, by decide +kernel⟩

/-- Fitting leaves the caller's data in another order: the classes were a, a, b, b, b. -/
theorem C116_reorders : ∃ e : Id3Env, e.tree.Ok (fun _ => True) ∧ e.prune.Ok ∧ ∃ st cs b, run 4096 opsT = Res.ok st ∧
    mapRes (getClass fo0 (.dense st.d)) (List.range 5) = Res.ok ["a", "a", "b", "b", "b"] ∧ outcome e 40 = Res.ok (cs, b) ∧
    cs ≠ ["a", "a", "b", "b", "b"] := by
  have e : ((run 4096 opsT).bind fun st => mapRes (getClass fo0 (.dense st.d)) (List.range 5)) = Res.ok ["a", "a", "b", "b", "b"] := by
    decide +kernel
  obtain ⟨st, h1, h2⟩ := Res.bind_eq_ok.1 e
  exact ⟨_, (env0_ok _ _).1, (env0_ok _ _).2, st, _, _, h1, h2, C116_witness.2, by decide⟩

/-- With the same rows and no row left for pruning, the tree is a single class. With no row left for training, the tree has no branch and pruning
panics. -/
theorem C116_empty_parts : outcome (env0 id fun _ => 90) 40 = Res.ok (["a", "a", "b", "b", "b"], true) ∧
    outcome (env0 id fun _ => 10) 40 = Res.panic := by decide +kernel

/-- The full claim: fitting a tree with a share of the rows for pruning succeeds and leaves the data as they are. -/
def C116_full : Prop := ∀ (e : Id3Env) (_ : e.tree.Ok fun _ => True) (_ : e.prune.Ok) (_ : ∀ i, e.draw i ≤ i) (d : Dense) (n : Nat) (lab : Nat → String) (cls : Attr)
  (_ : TreeData e.tree.fo (.dense d) n lab cls) (pct : Int), ∃ t, id3Fit e true pct (.dense d) = Res.ok (t, .dense d)

theorem C116_refuted : ¬ C116_full := by
  intro H
  obtain ⟨st, h1, h2, -⟩ := C116_witness.1
  obtain ⟨t, h⟩ := H (env0 id fun _ => 10) (env0_ok _ _).1 (env0_ok _ _).2 (fun _ => Nat.le_refl _) st.d 5 _ aC h2 40
  have := C116_empty_parts.2
  unfold outcome at this
  rw [h1, Res.bind_ok, h, Res.bind_ok] at this
  have e : ((run 4096 opsT).bind fun st => mapRes (getClass fo0 (.dense st.d)) (List.range 5)) = Res.ok ["a", "a", "b", "b", "b"] := by
    decide +kernel
  rw [h1, Res.bind_ok] at e
  simp only [e] at this
  cases this
end Witness

end Golearn
