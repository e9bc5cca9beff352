import Verif.Proofs.TreeProba
import Verif.Proofs.TreeExamples
import Verif.Proofs.Counts
import Mathlib.Data.List.Sort
import Mathlib.Tactic.Linarith

/-! # C97: class probabilities are the shares of the training rows at the leaf -/

namespace Golearn

theorem leafProbas_spec {lab : Nat → String} {R : List Nat} {d : GoMap String Nat} {c : String} (hd : Describes lab R d c)
    {ord : List String → List String} (ho : ∀ l, (ord l).Perm l) :
    ((leafProbas ord d).map ClassProba.cls).Perm (R.map lab).dedup ∧
      (∀ p ∈ leafProbas ord d, p.prob = some (labelShare lab R p.cls)) ∧
      ((leafProbas ord d).map fun p => p.prob.getD 0).sum = 1 := by
  obtain ⟨h1, h2, h3, h4⟩ := hd
  have hC : CountsL d (R.map lab) := countsL_of h4 h2 h3
  have hR : R.length ≠ 0 := by
    have := List.length_pos_of_mem h1.1
    rw [List.length_map] at this
    omega
  have htot : (d.map Prod.snd).sum = R.length := by rw [countsL_total hC, List.length_map]
  have hshare : ∀ x, countRatio ((d.get? x).getD 0) (d.map Prod.snd).sum = some (labelShare lab R x) := by
    intro x
    rw [htot, h2 x, countRatio, if_neg hR, labelShare]
  have hkeys : (ord (d.map Prod.fst)).Perm (R.map lab).dedup := by
    refine (ho _).trans ?_
    have := (countsL_perm hC).map Prod.fst
    rw [List.map_map] at this
    simpa [Function.comp_def] using this
  refine ⟨?_, ?_, ?_⟩
  · rw [leafProbas, List.map_map]
    simpa [Function.comp_def] using hkeys
  · intro p hp
    obtain ⟨x, _, rfl⟩ := List.mem_map.1 hp
    exact hshare x
  · rw [leafProbas, List.map_map]
    have e : ((fun p : ClassProba => p.prob.getD 0) ∘ fun x =>
        (⟨countRatio ((d.get? x).getD 0) (d.map Prod.snd).sum, x⟩ : ClassProba)) = fun x => labelShare lab R x := by
      funext x
      simp only [Function.comp, hshare x, Option.getD_some]
    rw [e, (hkeys.map _).sum_eq]
    have hs : ∀ l : List String, (l.map fun x => labelShare lab R x).sum =
        (((l.map fun x => (R.map lab).count x).sum : Nat) : ℚ) / (R.length : ℚ) := by
      intro l
      induction l with
      | nil => simp
      | cons a as ih => rw [List.map_cons, List.sum_cons, ih, List.map_cons, List.sum_cons, Nat.cast_add, add_div, labelShare]
    rw [hs, sum_count_dedup, List.length_map]
    exact div_self (by exact_mod_cast hR)

/-- For a tree built from any training data, by any rule generator and with any order of the maps, and any row to predict: the
probabilities are those of a leaf reached by some training rows `R`. At every test the row takes the branch of its own value if there
is one. The classes listed are the labels of `R`, each once; the probability of a class is its share of the rows `R`; the probabilities add
up to one and are in descending order. The class that `Predict` gives the row, with the same order of branches, has the greatest
probability. -/
theorem C97_proba (e : TreeEnv) (S : U64 → Prop) (E : e.Ok S) (g : Grid) (n : Nat) (lab : Nat → String) (cls : Attr)
    (D : TreeData e.fo g n lab cls) (hS : g.FloatsIn n S) :
    ∃ t, inferID3 e g = Res.ok t ∧
      ∀ (p : PredEnv) (_ : p.Ok) (srt : List ClassProba → List ClassProba) (_ : SortsDescending srt)
        (classOrd : List String → List String) (_ : ∀ l, (classOrd l).Perm l)
        (what : Grid) (_ : TreeInput p.fo what 1 g.allAttributes),
        ∃ out R, treePredictProba p srt classOrd t what = Res.ok out ∧
          t.EndsAt (g.branch e.fo) (what.branchLike p.fo 0) (List.range n) R ∧ R ≠ [] ∧ (∀ q ∈ R, q < n) ∧
          (out.map ClassProba.cls).Perm (R.map lab).dedup ∧
          (∀ x ∈ out, x.prob = some (labelShare lab R x.cls)) ∧
          (out.map fun x => x.prob.getD 0).sum = 1 ∧
          (out.Pairwise fun a b => labelShare lab R b.cls ≤ labelShare lab R a.cls) ∧
          ∃ d c, treePredict p t what = Res.ok d ∧ getClass p.fo (.dense d) 0 = Res.ok c ∧
            c ∈ out.map ClassProba.cls ∧ ∀ x ∈ out, labelShare lab R x.cls ≤ labelShare lab R c := by
  obtain ⟨t, h1, h2, h3, _⟩ := inferLoop_spec E (g.allAttributes.length + 1) [] g n lab cls D hS (Nat.lt_succ_self _)
  refine ⟨t, h1, ?_⟩
  intro p Pp srt hsrt classOrd hco what W
  obtain ⟨d, c, R, e1, e2, e3, e4, e5⟩ := treeDistAt_spec W.rows W.typed W.readable W.finds (Pp.children 0)
    (Nat.zero_lt_one) t (List.range n) h2 (allRules_imp (fun _ h => h.1) t h3)
  obtain ⟨q1, q2, q3⟩ := leafProbas_spec e5 hco
  obtain ⟨s1, s2⟩ := hsrt (leafProbas classOrd d)
  have hprob : ∀ x ∈ srt (leafProbas classOrd d), x.prob = some (labelShare lab R x.cls) :=
    fun x hx => q2 x (s1.mem_iff.1 hx)
  have hcls : ((srt (leafProbas classOrd d)).map ClassProba.cls).Perm (R.map lab).dedup := (s1.map _).trans q1
  -- the call
  obtain ⟨_, nm, vs, hc, _⟩ := W.cls
  obtain ⟨d0, g1, _⟩ := generate_spec p.pg W.rows.rows hc
  have hsub : ∀ b ∈ p.normal what.normalAttrs, b ∈ what.allAttributes := by
    intro b hb
    have hb' := (Pp.normal _).mem_iff.1 hb
    exact (((C27_references _ _ _ _ (List.Perm.refl _) (List.Perm.refl _)).2.2.2 b).1 hb').1
  obtain ⟨l, hl⟩ := W.rows.resolve_total hsub
  obtain ⟨_, r2⟩ := W.rows.resolves hsub (specs := p.srt l) ⟨l, hl, Pp.sort l⟩
  obtain ⟨i1, i2⟩ := W.rows.iter (p.srt l) (fun s hs => ⟨s.attr, (r2 s hs).1, (r2 s hs).2⟩)
  have hord : p.order what = [0] := by
    have := W.rows.order _ (Pp.rowOrder what)
    exact List.perm_singleton.1 this
  have hsz : ¬ what.size.2 > 1 := by rw [W.rows.rows]; omega
  have hcall : treePredictProba p srt classOrd t what = Res.ok (srt (leafProbas classOrd d)) := by
    simp only [treePredictProba, g1, Res.bind_ok, Grid.resolve, hl, Res.map_ok, if_neg hsz, hord, Grid.mapOverRows, i1]
    simp [mapOver, i2 0 Nat.zero_lt_one, e1, keepState, Res.bind, Res.map]
  obtain ⟨dd, d1, _, d3⟩ := treePredict_spec Pp W (t := t) (Q := fun _ x => x = c) (by
    intro r hr
    have : r = 0 := by omega
    subst this
    exact ⟨c, e2, rfl⟩)
  obtain ⟨c', rfl, d4⟩ := d3 0 Nat.zero_lt_one
  refine ⟨_, R, hcall, e3, ?_, fun q hq => List.mem_range.1 (e4 q hq), hcls, hprob, ?_, ?_, dd, c', d1, d4, ?_, ?_⟩
  · rintro rfl
    exact absurd e5.1.1 (by simp)
  · rw [(s1.map _).sum_eq]; exact q3
  · refine List.Pairwise.imp_of_mem ?_ (s2 fun x hx => ⟨_, q2 x hx⟩)
    intro a b ha hb h
    exact h _ _ (hprob a ha) (hprob b hb)
  · rw [hcls.mem_iff, List.mem_dedup]; exact e5.1.1
  · intro x _
    unfold labelShare
    apply div_le_div_of_nonneg_right _ (Nat.cast_nonneg _)
    exact_mod_cast e5.1.2 x.cls

/-- Data of more than one row makes it panic. -/
theorem C97_many_rows_panics (p : PredEnv) (Pp : p.Ok) (srt : List ClassProba → List ClassProba)
    (classOrd : List String → List String) (t : Tree) (what : Grid) (m : Nat) (as : List Attr)
    (W : TreeInput p.fo what m as) (hm : 1 < m) : treePredictProba p srt classOrd t what = Res.panic := by
  obtain ⟨_, nm, vs, hc, _⟩ := W.cls
  obtain ⟨d0, g1, _⟩ := generate_spec p.pg W.rows.rows hc
  have hsub : ∀ b ∈ p.normal what.normalAttrs, b ∈ what.allAttributes := by
    intro b hb
    have hb' := (Pp.normal _).mem_iff.1 hb
    exact (((C27_references _ _ _ _ (List.Perm.refl _) (List.Perm.refl _)).2.2.2 b).1 hb').1
  obtain ⟨l, hl⟩ := W.rows.resolve_total hsub
  have hsz : what.size.2 > 1 := by rw [W.rows.rows]; exact hm
  simp only [treePredictProba, g1, Res.bind_ok, Grid.resolve, hl, Res.map_ok, if_pos hsz]

section Examples
private def fo0 : FloatOps := ⟨fun _ u => if u = 1 then "one" else "other", fun u v => v.toNat < u.toNat⟩
private def aX : Attr := ⟨0, .float "x" 2⟩
private def aY : Attr := ⟨1, .cat "y" ["red", "green", "blue"]⟩
private def aC : Attr := ⟨2, .cat "c" ["a", "b"]⟩
private def opsT : List Op :=
  [.add aX, .add aY, .add aC, .addClass aC, .extend 6, .set 0 0 (packU64 1), .set 0 1 (packU64 2),
   .set 0 2 (packU64 8), .set 0 3 (packU64 9), .set 0 4 (packU64 9), .set 0 5 (packU64 9), .set 1 1 (packU64 1),
   .set 2 2 (packU64 1), .set 2 4 (packU64 1), .set 2 5 (packU64 1)]
private def labels : List String := ["a", "a", "b", "a", "b", "b"]
private def aX' : Attr := ⟨3, .float "x" 2⟩
private def aY' : Attr := ⟨4, .cat "y" ["red", "green", "blue"]⟩
private def aC' : Attr := ⟨5, .cat "c" ["a", "b"]⟩
private def opsW : List Op :=
  [.add aX', .add aY', .add aC', .addClass aC', .extend 1, .set 0 0 (packU64 13), .set 1 0 (packU64 2)]
private def env0 : TreeEnv :=
  ⟨fo0, id, fun _ g => someOrder g, fun _ l => l, fun _ => firstAttribute 5⟩
private def pred0 : PredEnv :=
  ⟨fo0, fun _ => none, 4096, id, id, someOrder, fun _ l => l⟩
private def before (a b : ClassProba) : Bool :=
  match a.prob, b.prob with
  | some x, some y => decide (y ≤ x)
  | none, some _ => false
  | _, none => true
private def sort0 (l : List ClassProba) : List ClassProba := l.insertionSort fun a b => before a b = true

private theorem before_total (a b : ClassProba) : before a b = true ∨ before b a = true := by
  unfold before
  cases a.prob <;> cases b.prob <;> simp [le_total]
private theorem before_trans (a b c : ClassProba) (h : before a b = true) (h' : before b c = true) : before a c = true := by
  unfold before at *
  cases ha : a.prob <;> cases hb : b.prob <;> cases hc : c.prob <;> simp_all <;> linarith
private theorem sort0_ok : SortsDescending sort0 := by
  intro l
  haveI : Std.Total (fun a b => before a b = true) := ⟨before_total⟩
  haveI : IsTrans ClassProba (fun a b => before a b = true) := ⟨before_trans⟩
  refine ⟨List.perm_insertionSort _ l, fun _ => ?_⟩
  refine (List.pairwise_insertionSort (fun a b => before a b = true) l).imp ?_
  intro a b h x y hx hy
  unfold before at h
  rw [hx, hy] at h
  simpa using h

private theorem env0_ok : env0.Ok fun _ => True :=
  ⟨fun _ => List.Perm.refl _, fun _ => someOrder_rowOrder, fun _ _ => List.Perm.refl _,
    fun _ => firstAttribute_chooses fo0 _ 5⟩
private theorem pred0_ok : pred0.Ok :=
  ⟨fun _ => List.Perm.refl _, fun _ => List.Perm.refl _, someOrder_rowOrder, fun _ _ => List.Perm.refl _⟩

/-- The hypotheses hold for six training rows with a float and a categorical attribute, and a row to predict. -/
example : ∃ tr pr, run 4096 opsT = Res.ok tr ∧ run 4096 opsW = Res.ok pr ∧ env0.Ok (fun _ => True) ∧ pred0.Ok ∧
    SortsDescending sort0 ∧ TreeData fo0 (.dense tr.d) 6 (fun r => labels.getD r "") aC ∧
    (Grid.dense tr.d).FloatsIn 6 (fun _ => True) ∧ TreeInput fo0 (.dense pr.d) 1 (Grid.dense tr.d).allAttributes := by
  have e : ((run 4096 opsT).bind fun tr => (run 4096 opsW).map fun pr =>
      (treeCheck fo0 tr.d 6 labels aC, inputCheck fo0 pr.d 1 tr.d.allAttributes)) =
      Res.ok (true, true) := by decide +kernel
  obtain ⟨tr, htr, e⟩ := Res.bind_eq_ok.1 e
  obtain ⟨pr, hpr, e⟩ := Res.map_eq_ok.1 e
  simp only [Prod.mk.injEq] at e
  have Dt := denseOK_run (pg := 4096) (ops := opsT) (by decide) htr (by decide)
  have Dp := denseOK_run (pg := 4096) (ops := opsW) (by decide) hpr (by decide)
  exact ⟨tr, pr, htr, hpr, env0_ok, pred0_ok, sort0_ok, treeData_dense Dt e.1, floatsIn_true (treeData_dense Dt e.1).typed,
    treeInput_dense Dp e.2⟩

/-- The row at 13 reaches the leaf of four training rows, three of them labelled b. -/
example : ((run 4096 opsT).bind fun tr => (run 4096 opsW).bind fun pr =>
      (inferID3 env0 (.dense tr.d)).bind fun t => treePredictProba pred0 sort0 id t (.dense pr.d)) =
    Res.ok [⟨some (3 / 4), "b"⟩, ⟨some (1 / 4), "a"⟩] := by decide +kernel

/-- Six rows at once panic. -/
example : ((run 4096 opsT).bind fun tr => (inferID3 env0 (.dense tr.d)).bind fun t =>
      treePredictProba pred0 sort0 id t (.dense tr.d)) = Res.panic := by decide +kernel
end Examples

end Golearn
