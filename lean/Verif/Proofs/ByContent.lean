import Verif.Spec.ByContent
import Verif.Proofs.Save
import Verif.Props.C31

/-! # Attributes that are found by what they are -/

namespace Golearn

/-- Specifications that read the same. -/
def SpecOk : Grid → Spec → Spec → Prop
  | .dense _, s, s' => s = s'
  | .view src none _ _ _, s, s' => SpecOk src s s'
  | .view _ (some _) _ _ _, s, s' => s = s'
  | .filt f _ _ unf, s, s' => s = s' ∨ (s.attr.body = s'.attr.body ∧ Grid.flag unf s.attr = false ∧ Grid.flag unf s'.attr = false ∧
      ∀ o raw, f.transform o s.attr raw = f.transform o s'.attr raw)

theorem specOk_refl : ∀ (g : Grid) (s : Spec), SpecOk g s s
  | .dense _, _ => rfl
  | .view src none _ _ _, s => specOk_refl src s
  | .view _ (some _) _ _ _, _ => rfl
  | .filt _ _ _ _, _ => Or.inl rfl

theorem newToOld_ok {f : Filter} {src : Grid} {c unf : GoMap Attr Bool} {s s' : Spec} (h : SpecOk (.filt f src c unf) s s') :
    Grid.newToOld f src unf s = Grid.newToOld f src unf s' := by
  rcases h with rfl | ⟨hb, h1, h2, _⟩
  · rfl
  · unfold Grid.newToOld
    rw [h1, h2]
    have : (fun a : FAttr => a.old.equals s.attr || a.new.equals s.attr) = fun a => a.old.equals s'.attr || a.new.equals s'.attr := by
      funext a
      simp only [Attr.equals, hb]
    rw [this]
    rfl

theorem get_ok : ∀ (g : Grid) {s s' : Spec}, SpecOk g s s' → ∀ r, g.get s r = g.get s' r
  | .dense _, s, s', h, r => by cases h; rfl
  | .view src none none _ _, s, s', h, r => by
    simp only [Grid.get]
    exact get_ok src h r
  | .view src none (some m) _ mask, s, s', h, r => by
    simp only [Grid.get]
    cases m.get? r with
    | some r' => exact get_ok src h r'
    | none =>
      cases mask
      · exact get_ok src h r
      · rfl
  | .view src (some _) _ _ _, s, s', h, r => by cases h; rfl
  | .filt f src c unf, s, s', h, r => by
    simp only [Grid.get, newToOld_ok h]
    rcases h with rfl | ⟨_, h1, h2, h3⟩
    · rfl
    · simp only [h1, h2, h3]

theorem mapRes_rel {α β : Type} {R : α → α → Prop} {f g : α → Res β} (h : ∀ a a', R a a' → f a = g a') {l l' : List α}
    (hl : List.Forall₂ R l l') : mapRes f l = mapRes g l' := by
  induction hl with
  | nil => rfl
  | cons h1 _ ih => simp only [mapRes, h _ _ h1, ih]

theorem forall₂_eq {α : Type} {l l' : List α} (h : List.Forall₂ (fun a b => a = b) l l') : l = l' := by
  induction h with
  | nil => rfl
  | cons h _ ih => rw [h, ih]

theorem mapPrep_ok : ∀ (g : Grid) {as as' : List Spec}, List.Forall₂ (SpecOk g) as as' → g.mapPrep as = g.mapPrep as'
  | .dense _, _, _, _ => rfl
  | .view src none _ _ mask, as, as', h => by
    simp only [Grid.mapPrep]
    rw [mapPrep_ok src (h.imp fun _ _ h => h)]
  | .view src (some _) _ _ mask, as, as', h => by
    rw [forall₂_eq (h.imp fun _ _ h => h)]
  | .filt f src c unf, as, as', h => by
    simp only [Grid.mapPrep]
    rw [mapRes_rel (fun _ _ h => newToOld_ok h) h]

theorem zip_rel {f : Filter} {src : Grid} {c unf : GoMap Attr Bool} {as as' : List Spec}
    (h : List.Forall₂ (SpecOk (.filt f src c unf)) as as') (old : List Spec) (bs : List Bytes) :
    mapRes (fun p : (Spec × Spec) × Bytes => f.transform p.1.1.attr p.1.2.attr p.2) ((old.zip as).zip bs) =
      mapRes (fun p : (Spec × Spec) × Bytes => f.transform p.1.1.attr p.1.2.attr p.2) ((old.zip as').zip bs) := by
  induction h generalizing old bs with
  | nil => rfl
  | @cons x y _ _ h1 _ ih =>
    cases old with
    | nil => rfl
    | cons o os =>
      cases bs with
      | nil => rfl
      | cons b bs =>
        have : f.transform o.attr x.attr b = f.transform o.attr y.attr b := by
          rcases h1 with rfl | ⟨_, _, _, h3⟩
          · rfl
          · exact h3 o.attr b
        simp only [List.zip_cons_cons, mapRes, ih os bs, this]

theorem rowVals_ok : ∀ (g : Grid) {as as' : List Spec}, List.Forall₂ (SpecOk g) as as' → ∀ r, g.rowVals as r = g.rowVals as' r
  | .dense _, as, as', h, r => by rw [forall₂_eq (h.imp fun _ _ h => h)]
  | .view src none rows _ mask, as, as', h, r => by
    have h' : List.Forall₂ (SpecOk src) as as' := h.imp fun _ _ h => h
    simp only [Grid.rowVals]
    rw [rowVals_ok src h' r]
    split
    · cases GoMap.get? (rows.getD []) r with
      | none => rfl
      | some r' => exact mapRes_rel (R := SpecOk src) (fun _ _ h => get_ok src h r') h'
    · rfl
  | .view src (some _) _ _ mask, as, as', h, r => by
    rw [forall₂_eq (h.imp fun _ _ h => h)]
  | .filt f src c unf, as, as', h, r => by
    simp only [Grid.rowVals]
    rw [mapRes_rel (fun _ _ h => newToOld_ok h) h]
    cases mapRes (Grid.newToOld f src unf) as' with
    | err => rfl
    | panic => rfl
    | ok old =>
      dsimp only
      congr 1
      funext bs
      exact zip_rel h old bs

theorem mapOverRows_ok {σ : Type} (g : Grid) {as as' : List Spec} (h : List.Forall₂ (SpecOk g) as as') (order : List Nat)
    (cb : σ → List Bytes → Nat → Res (σ × Ctl)) (s : σ) : g.mapOverRows as order cb s = g.mapOverRows as' order cb s := by
  unfold Grid.mapOverRows
  rw [mapPrep_ok g h, show g.rowVals as = g.rowVals as' from funext (rowVals_ok g h)]

/-- Two results of a lookup: both fail in the same way, or both find specifications that read the same. -/
def SameFind (g : Grid) : Res Spec → Res Spec → Prop
  | .ok s, .ok s' => SpecOk g s s'
  | .err, .err => True
  | .panic, .panic => True
  | _, _ => False

theorem sameFind_refl (g : Grid) (r : Res Spec) : SameFind g r r := by
  cases r with
  | ok s => exact specOk_refl g s
  | err => trivial
  | panic => trivial

theorem getAttribute_sameFind {a a' : Attr} (hb : a.body = a'.body) : ∀ (g : Grid) (as : List Attr), a ∈ as → a' ∈ as → g.ByContent as →
    SameFind g (g.getAttribute a) (g.getAttribute a')
  | .dense d, _, _, _, _ => by
    rw [getAttribute_body hb (.dense d) trivial]
    exact sameFind_refl _ _
  | .view src none _ _ _, as, h, h', hc => by
    have := getAttribute_sameFind hb src as h h' hc
    simp only [Grid.getAttribute]
    revert this
    cases src.getAttribute a <;> cases src.getAttribute a' <;> exact id
  | .view _ (some ss) _ _ _, _, _, _, _ => by
    simp only [Grid.getAttribute, findSpec_body hb]
    exact sameFind_refl _ _
  | .filt f src c unf, as, h, h', hc => by
    have f1 := hc.1 a h
    have f2 := hc.1 a' h'
    simp only [Grid.getAttribute, f1, f2, Bool.false_eq_true, if_false]
    have key : ∀ (l : List FAttr) (i : Nat), (Grid.findNew a l i = none ∧ Grid.findNew a' l i = none) ∨
        ∃ j, Grid.findNew a l i = some ⟨none, j, a⟩ ∧ Grid.findNew a' l i = some ⟨none, j, a'⟩ := by
      intro l
      induction l with
      | nil => intro i; exact Or.inl ⟨rfl, rfl⟩
      | cons x xs ih =>
        intro i
        have : x.new.equals a = x.new.equals a' := by simp only [Attr.equals, hb]
        simp only [Grid.findNew, this]
        split
        · exact Or.inr ⟨i, rfl, rfl⟩
        · exact ih (i + 1)
    rcases key f.attrs 0 with ⟨k1, k2⟩ | ⟨j, k1, k2⟩
    · rw [k1, k2]; trivial
    · rw [k1, k2]
      exact Or.inr ⟨hb, f1, f2, fun o raw => hc.2 o a a' raw hb⟩

theorem filterMap_rel {R : Spec → Spec → Prop} {l l' : List Spec} (h : List.Forall₂ R l l') (p : List Nat) :
    List.Forall₂ R (p.filterMap fun i => l[i]?) (p.filterMap fun i => l'[i]?) := by
  induction p with
  | nil => exact List.Forall₂.nil
  | cons i p ih =>
    by_cases hi : i < l.length
    · have hi' : i < l'.length := by rw [← h.length_eq]; exact hi
      rw [List.filterMap_cons_some (List.getElem?_eq_getElem hi), List.filterMap_cons_some (List.getElem?_eq_getElem hi')]
      refine List.Forall₂.cons ?_ ih
      exact (List.forall₂_iff_get.1 h).2 i hi hi'
    · have hi' : ¬ i < l'.length := by rw [← h.length_eq]; exact hi
      rw [List.filterMap_cons_none (List.getElem?_eq_none (by omega)), List.filterMap_cons_none (List.getElem?_eq_none (by omega))]
      exact ih

/-- Attributes with the same contents are resolved to specifications that read the same. -/
theorem resolve_byContent (g : Grid) {srt : List Spec → List Spec} (hs : Positional srt) {as as' : List Attr}
    (h : as'.map Attr.body = as.map Attr.body) (hc : g.ByContent (as ++ as')) :
    (∃ sp sp', g.resolve srt as = Res.ok sp ∧ g.resolve srt as' = Res.ok sp' ∧ List.Forall₂ (SpecOk g) sp sp') ∨
    ((∀ sp, g.resolve srt as ≠ Res.ok sp) ∧ g.resolve srt as' = g.resolve srt as) := by
  have main : ∀ l l' : List Attr, l'.map Attr.body = l.map Attr.body → (∀ a ∈ l, a ∈ as ++ as') → (∀ a ∈ l', a ∈ as ++ as') →
      (∃ sp sp', g.resolveUnsorted l = Res.ok sp ∧ g.resolveUnsorted l' = Res.ok sp' ∧ List.Forall₂ (SpecOk g) sp sp') ∨
      (g.resolveUnsorted l = Res.panic ∧ g.resolveUnsorted l' = Res.panic) := by
    intro l
    induction l with
    | nil =>
      intro l' hl _ _
      cases l' with
      | nil => exact Or.inl ⟨[], [], rfl, rfl, List.Forall₂.nil⟩
      | cons => simp at hl
    | cons a l ih =>
      intro l' hl h1 h2
      cases l' with
      | nil => simp at hl
      | cons a' l' =>
        simp only [List.map_cons, List.cons.injEq] at hl
        have e := getAttribute_sameFind hl.1.symm g _ (h1 a (by simp)) (h2 a' (by simp)) hc
        have t := ih l' hl.2 (fun b hb => h1 b (by simp [hb])) (fun b hb => h2 b (by simp [hb]))
        unfold Grid.resolveUnsorted at t ⊢
        simp only [mapRes]
        cases ha : g.getAttribute a with
        | err =>
          cases ha' : g.getAttribute a' with
          | err => exact Or.inr ⟨rfl, rfl⟩
          | ok s => rw [ha, ha'] at e; exact e.elim
          | panic => rw [ha, ha'] at e; exact e.elim
        | panic =>
          cases ha' : g.getAttribute a' with
          | err => rw [ha, ha'] at e; exact e.elim
          | ok s => rw [ha, ha'] at e; exact e.elim
          | panic => exact Or.inr ⟨rfl, rfl⟩
        | ok s =>
          cases ha' : g.getAttribute a' with
          | err => rw [ha, ha'] at e; exact e.elim
          | panic => rw [ha, ha'] at e; exact e.elim
          | ok s' =>
            rw [ha, ha'] at e
            rcases t with ⟨sp, sp', t1, t2, t3⟩ | ⟨t1, t2⟩
            · refine Or.inl ⟨s :: sp, s' :: sp', ?_, ?_, List.Forall₂.cons e t3⟩
              · simp only [Res.bind_ok, t1]
              · simp only [Res.bind_ok, t2]
            · refine Or.inr ⟨?_, ?_⟩
              · simp only [Res.bind_ok, t1]; rfl
              · simp only [Res.bind_ok, t2]; rfl
  obtain ⟨π, _, hπ⟩ := hs
  unfold Grid.resolve
  rcases main as as' h (by simp +contextual) (by simp +contextual) with ⟨sp, sp', t1, t2, t3⟩ | ⟨t1, t2⟩
  · refine Or.inl ⟨srt sp, srt sp', by rw [t1]; rfl, by rw [t2]; rfl, ?_⟩
    rw [hπ sp, hπ sp', ← t3.length_eq]
    exact filterMap_rel t3 _
  · refine Or.inr ⟨?_, by rw [t1, t2]⟩
    intro sp e
    rw [t1] at e
    cases e

end Golearn
