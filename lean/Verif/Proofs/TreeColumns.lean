import Verif.Spec.TreeColumns
import Verif.Proofs.TreePredict
import Verif.Proofs.KnnColumns

/-! # The columns a decision tree looks at: lemmas -/

namespace Golearn

theorem treeClass_same {fo : FloatOps} {g g' : Grid} {m : Nat} {as : List Attr} (P : g.Presents m) (P' : g'.Presents m)
    (S : SameContents fo g g' m as) (ord : List String → List String) {row : Nat} (hr : row < m) (t : Tree) :
    t.AllRules (fun r => r.attr ∈ as) → treeClass fo g' ord row t = treeClass fo g ord row t := by
  induction t with
  | leaf d c => intro _; rfl
  | split d c r keys child ih =>
    intro h
    obtain ⟨b, hb, b', hb', e1, e2, e3, e4⟩ := S r.attr h.1
    obtain ⟨s, s1, s2, s3⟩ := P.read b hb
    obtain ⟨s', s1', s2', s3'⟩ := P'.read b' hb'
    have hk : (if s'.attr.isFloat then thresholdKey fo r.val (g'.cell b' row) else s'.attr.getString fo (g'.cell b' row)) =
        (if s.attr.isFloat then thresholdKey fo r.val (g.cell b row) else s.attr.getString fo (g.cell b row)) := by
      have h4 := e4 row hr
      rw [s2, s2', e3]
      split at h4
      · rename_i hf; rw [if_pos hf, if_pos hf, h4]
      · rename_i hf; rw [if_neg hf, if_neg hf, h4]
    simp only [treeClass, e1, e2, s1, s1', Res.orPanic, Res.bind_ok, s3 row hr, s3' row hr, hk]
    congr 1
    funext k
    by_cases hk1 : k ∈ keys
    · rw [if_pos hk1, if_pos hk1, ih k (h.2 k hk1)]
    · rw [if_neg hk1, if_neg hk1]
      by_cases hk2 : bestChild k (ord keys) "" ∈ keys
      · rw [if_pos hk2, if_pos hk2, ih _ (h.2 _ hk2)]
      · rw [if_neg hk2, if_neg hk2]

theorem treePredict_same {p p' : PredEnv} (E : p.Ok) (E' : p'.Ok) {what what' : Grid} (R : SameRun p p' what what') {m : Nat}
    {as : List Attr} (P : what.Presents m) (P' : what'.Presents m) (hc : what'.allClassAttributes = what.allClassAttributes)
    (S : SameContents p.fo what what' m as) (t : Tree) (ht : t.AllRules fun r => r.attr ∈ as) :
    treePredict p' t what' = treePredict p t what := by
  have prep : ∀ {e : PredEnv} (_ : e.Ok) {u : Grid} (_ : u.Presents m), ∃ l, u.resolve e.srt (e.normal u.normalAttrs) = Res.ok l ∧
      u.mapPrep l = Res.ok () ∧ ∀ r, r < m → ∃ v, u.rowVals l r = Res.ok v := by
    intro e Ee u Pu
    have hsub : ∀ b ∈ e.normal u.normalAttrs, b ∈ u.allAttributes := by
      intro b hb
      have hb' := (Ee.normal _).mem_iff.1 hb
      exact (((C27_references _ _ _ _ (List.Perm.refl _) (List.Perm.refl _)).2.2.2 b).1 hb').1
    obtain ⟨l, hl⟩ := Pu.resolve_total hsub
    obtain ⟨_, r2⟩ := Pu.resolves hsub (specs := e.srt l) ⟨l, hl, Ee.sort l⟩
    obtain ⟨i1, i2⟩ := Pu.iter (e.srt l) (fun s hs => ⟨s.attr, (r2 s hs).1, (r2 s hs).2⟩)
    exact ⟨e.srt l, by unfold Grid.resolve; rw [hl, Res.map_ok], i1, fun r hr => ⟨_, i2 r hr⟩⟩
  obtain ⟨l, l1, l2, l3⟩ := prep E P
  obtain ⟨l', l1', l2', l3'⟩ := prep E' P'
  have hgen : generatePredictionVector p'.pg what' = generatePredictionVector p.pg what := by
    unfold generatePredictionVector
    rw [hc, P.rows, P'.rows, R.page]
  unfold treePredict
  simp only [hgen, l1, l1', Res.bind_ok, Grid.mapOverRows, l2, l2', R.rows, R.fo, R.parse, R.branches]
  congr 1
  funext ret
  congr 1
  refine mapOver_same (fun _ => True) _ ?_ _ trivial
  intro r hr
  have hr' : r < m := List.mem_range.1 ((P.order _ (E.rowOrder what)).mem_iff.1 hr)
  obtain ⟨v, hv⟩ := l3 r hr'
  obtain ⟨v', hv'⟩ := l3' r hr'
  refine ⟨v', v, hv', hv, fun d _ => ⟨?_, fun _ _ => trivial⟩⟩
  rw [treeClass_same P P' S _ hr' t ht]

end Golearn
