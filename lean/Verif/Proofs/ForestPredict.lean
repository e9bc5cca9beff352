import Verif.Proofs.Forest
import Verif.Props.C65

/-! # Lemmas about the predictions of a forest -/

namespace Golearn

/-- A prediction vector whose classes can all be read. -/
theorem predVec_shows {fo : FloatOps} {d : Dense} {n : Nat} {a : Attr} (h : PredVec d n a) {k : Nat → String}
    (hk : ∀ r, r < n → getClass fo (.dense d) r = Res.ok (k r)) : ShowsClasses fo (.dense d) n k := by
  have hat : (Grid.dense d).allAttributes = [a] := by
    obtain ⟨g, e1, _, e3, _⟩ := h.group
    show d.allAttributes = [a]
    unfold Dense.allAttributes
    rw [e1]
    simp [e3]
  have hlook : (Grid.dense d).getAttribute a = Res.ok ⟨some 0, 0, a⟩ := h.lookup
  have hread : ∀ r, r < n → d.get ⟨some 0, 0, a⟩ r = Res.ok ((Grid.dense d).cell a r) ∧
      a.getString fo ((Grid.dense d).cell a r) = Res.ok (k r) := by
    intro r hr
    have := hk r hr
    rw [h.getClass, Res.bind_eq_ok] at this
    obtain ⟨v, v1, v2⟩ := this
    have hc : (Grid.dense d).cell a r = v := by
      unfold Grid.cell
      rw [hlook]
      simp only [Grid.get, v1]
    rw [hc]
    exact ⟨v1, v2⟩
  refine ⟨⟨h.rows, ?_, ?_, ?_⟩, a, h.classes, by rw [hat]; simp, fun r hr => (hread r hr).2⟩
  · intro b hb
    rw [hat, List.mem_singleton] at hb
    subst hb
    exact ⟨_, hlook, rfl, fun r hr => (hread r hr).1⟩
  · intro o ho
    simp only [Grid.RowOrder] at ho
    rw [ho, h.rows]
  · intro specs hs
    refine ⟨rfl, ?_⟩
    intro r hr
    simp only [Grid.rowVals]
    apply mapRes_of_ok
    intro s hsm
    obtain ⟨b, hb, hg⟩ := hs s hsm
    rw [hat, List.mem_singleton] at hb
    subst hb
    rw [hlook, Res.ok.injEq] at hg
    subst hg
    exact (hread r hr).1

theorem treePredict_shows {e : PredEnv} (E : e.Ok) {t : Tree} {what : Grid} {n : Nat} {as : List Attr}
    (W : TreeInput e.fo what n as) {k : Nat → String} (hk : ∀ r, r < n → treeClass e.fo what (e.ord r) r t = Res.ok (k r)) :
    ∃ d, treePredict e t what = Res.ok d ∧ ShowsClasses e.fo (.dense d) n k := by
  obtain ⟨p, nm, vs, hc, hb⟩ := W.cls
  obtain ⟨d0, g1, g2, _⟩ := generate_spec e.pg W.rows.rows hc
  have hsub : ∀ b ∈ e.normal what.normalAttrs, b ∈ what.allAttributes := by
    intro b hb
    have hb' := (E.normal _).mem_iff.1 hb
    exact (((C27_references _ _ _ _ (List.Perm.refl _) (List.Perm.refl _)).2.2.2 b).1 hb').1
  obtain ⟨l, hl⟩ := W.rows.resolve_total hsub
  obtain ⟨_, r2⟩ := W.rows.resolves hsub (specs := e.srt l) ⟨l, hl, E.sort l⟩
  obtain ⟨d', vs', h1, h2, h3⟩ := predict_grid (fo := e.fo) (parse := e.parse) (Q := fun r c => c = k r) W.rows (specs := e.srt l)
    (fun s hs => ⟨s.attr, (r2 s hs).1, (r2 s hs).2⟩)
    (cb := fun d _ row => (treeClass e.fo what (e.ord row) row t).bind fun c =>
      (setClass e.fo e.parse d row c).map fun d' => (d', Ctl.cont))
    (by
      intro r hr
      exact ⟨k r, rfl, fun d => by simp only [hk r hr, Res.bind_ok]⟩)
    (E.rowOrder what) g2 hb
  refine ⟨d', ?_, predVec_shows h2 ?_⟩
  · simp only [treePredict, g1, Res.bind_ok, Grid.resolve, hl, Res.map_ok, h1, keepState]
  · intro r hr
    obtain ⟨c, rfl, hc⟩ := h3 r hr
    exact hc

/-! ## The data of one model -/

/-- The part of the data that the model which selected `sel` gets is an input for the attributes it selected. -/
theorem part_input {fo : FloatOps} {what : Grid} {m : Nat} {as sel : List Attr} {cls : Attr} (W : TreeInput fo what m as)
    (hd : what.distinct) (hsel : ∀ a ∈ sel, a ∈ as) (hcs : cls ∈ sel) (hcls : ∃ c, what.allClassAttributes = [c] ∧ c.equals cls = true)
    {srt : List Spec → List Spec} (hsrt : ∀ l, (srt l).Perm l) :
    ∃ specs, what.resolve srt sel = Res.ok specs ∧ TreeInput fo (Grid.viewFromAttrs what specs) m sel := by
  have hf : ∀ a ∈ sel, ∃ s, what.getAttribute a = Res.ok s ∧ s.attr ∈ what.allAttributes ∧ s.attr.equals a = true ∧
      what.getAttribute s.attr = Res.ok s := by
    intro a ha
    obtain ⟨b, b1, b2, b3⟩ := W.finds a (hsel a ha)
    obtain ⟨s, s1, s2, _⟩ := W.rows.read b b1
    subst s2
    exact ⟨s, b3.trans s1, b1, b2, s1⟩
  have hres : ∃ l, what.resolveUnsorted sel = Res.ok l ∧ (∀ s ∈ l, s.attr ∈ what.allAttributes ∧ what.getAttribute s.attr = Res.ok s) ∧
      ∀ a ∈ sel, ∃ s ∈ l, s.attr.equals a = true := by
    obtain ⟨l, l1, l2⟩ := mapRes_forall₂ (f := fun a => match what.getAttribute a with | .ok s => Res.ok s | _ => Res.panic)
      (R := fun a s => (s.attr ∈ what.allAttributes ∧ what.getAttribute s.attr = Res.ok s) ∧ s.attr.equals a = true) sel (by
      intro a ha
      obtain ⟨s, s1, s2, s3, s4⟩ := hf a ha
      exact ⟨s, by simp only [s1], ⟨s2, s4⟩, s3⟩)
    refine ⟨l, by unfold Grid.resolveUnsorted; exact l1, ?_, ?_⟩
    · intro s hs
      obtain ⟨a, _, h⟩ := forall₂_mem_right l2 s hs
      exact h.1
    · intro a ha
      obtain ⟨s, hs, h⟩ := forall₂_mem_right l2.flip a ha
      exact ⟨s, hs, h.2⟩
  obtain ⟨l, l1, l2, l3⟩ := hres
  have hR : Resolved what (srt l) := fun s hs => l2 s ((hsrt l).mem_iff.1 hs)
  obtain ⟨V1, V2⟩ := attrs_presents W.rows hd hR
  have hsub : ∀ b ∈ (srt l).map Spec.attr, b ∈ what.allAttributes := by
    intro b hb
    obtain ⟨s, h, rfl⟩ := List.mem_map.1 hb
    exact (hR s h).1
  refine ⟨srt l, by simp only [Grid.resolve, l1, Res.map_ok], V1, ?_, ?_, ?_, ?_⟩
  · intro b hb r hr
    rw [V2 b hb]
    exact W.typed b (hsub b hb) r hr
  · intro b hb r hr
    rw [V2 b hb]
    exact W.readable b (hsub b hb) r hr
  · obtain ⟨p, nm, vs, hc, hb⟩ := W.cls
    obtain ⟨c, c1, c2⟩ := hcls
    rw [hc, List.cons.injEq] at c1
    refine ⟨p, nm, vs, ?_, hb⟩
    obtain ⟨s, s1, s2⟩ := l3 cls hcs
    have hm : Grid.classMatched (some (srt l)) (⟨p, .cat nm vs⟩ : Attr) = true := by
      simp only [Grid.classMatched, List.any_eq_true]
      refine ⟨s, (hsrt l).mem_iff.2 s1, ?_⟩
      rw [c1.1]
      exact C28_equals_trans _ _ _ s2 (C28_equals_symm _ _ c2)
    show ((Grid.classFromSrc (some (srt l)) what.allClassAttributes).filter fun p => p.2).map Prod.fst = [_]
    rw [hc]
    simp [Grid.classFromSrc, hm, GoMap.set]
  · intro a ha
    obtain ⟨s, s1, s2⟩ := l3 a ha
    have hs := (hsrt l).mem_iff.2 s1
    refine ⟨s.attr, List.mem_map_of_mem hs, s2, ?_⟩
    have : ∀ sp, Grid.findSpec sp a = Grid.findSpec sp s.attr := by
      intro sp
      induction sp with
      | nil => rfl
      | cons x xs ih =>
        have hx : x.attr.equals a = x.attr.equals s.attr := by
          cases h1 : x.attr.equals a with
          | true => exact (C28_equals_trans _ _ _ h1 (C28_equals_symm _ _ s2)).symm
          | false =>
            cases h2 : x.attr.equals s.attr with
            | false => rfl
            | true => rw [C28_equals_trans _ _ _ h2 s2] at h1; cases h1
        unfold Grid.findSpec
        rw [hx, ih]
    show (Grid.viewFromAttrs what (srt l)).getAttribute a = _
    simp only [Grid.viewFromAttrs, Grid.getAttribute, this]

end Golearn
