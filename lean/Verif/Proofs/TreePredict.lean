import Verif.Proofs.Tree
import Verif.Proofs.PredLoop

/-! # Lemmas about predictions with decision trees -/

namespace Golearn

theorem bestChild_mem (v : String) (l : List String) (b : String) (h : l ≠ []) : bestChild v l b ∈ l := by
  induction l generalizing b with
  | nil => exact absurd rfl h
  | cons c cs ih =>
    unfold bestChild
    split
    · simp
    · cases cs with
      | nil => simp [bestChild]
      | cons d ds => exact List.mem_cons_of_mem _ (ih c (by simp))

/-- The key computed for a row exists. -/
theorem descent_key {fo : FloatOps} {g : Grid} {n : Nat} (P : g.Presents n) (T : g.typed n) (R : g.Readable fo n)
    {a : Attr} {as : List Attr} (ha : a ∈ as) (hf : g.Finds as) (val : U64) {row : Nat} (hr : row < n) :
    ∃ s v k, g.getAttribute a = Res.ok s ∧ g.get s row = Res.ok v ∧
      (if s.attr.isFloat then thresholdKey fo val v else s.attr.getString fo v) = Res.ok k := by
  obtain ⟨b, hb, _, hab⟩ := hf a ha
  obtain ⟨s, h1, h2, h3⟩ := P.read b hb
  have := branch_key (fo := fo) T R (r := ⟨b, val⟩) hb hr
  exact ⟨s, g.cell b row, g.branch fo ⟨b, val⟩ row, by rw [hab, h1], h3 row hr, by rw [h2]; exact this⟩

/-- A descent ends at a class of the training data. -/
theorem treeClass_trained {fo : FloatOps} {key : Rule → Nat → String} {lab : Nat → String} {g : Grid} {n : Nat}
    {as : List Attr} (P : g.Presents n) (T : g.typed n) (R : g.Readable fo n) (hf : g.Finds as)
    {ord : List String → List String} (ho : ∀ l, (ord l).Perm l) {row : Nat} (hr : row < n) (t : Tree) :
    ∀ rows, t.Fits key lab rows → t.AllRules (fun r => r.attr ∈ as) →
      ∃ c, treeClass fo g ord row t = Res.ok c ∧ c ∈ rows.map lab := by
  induction t with
  | leaf d c => intro rows h _; exact ⟨c, rfl, h.1.1⟩
  | split d c r keys child ih =>
    intro rows h ha
    obtain ⟨s, v, k, k1, k2, k3⟩ := descent_key P T R ha.1 hf r.val hr
    obtain ⟨_, ⟨p, hp, _⟩, _, h4, h5⟩ := h
    have hkne : keys ≠ [] := List.ne_nil_of_mem ((h4 (key r p)).2 ⟨p, hp, rfl⟩)
    have down : ∀ k ∈ keys, ∃ c, treeClass fo g ord row (child k) = Res.ok c ∧ c ∈ rows.map lab := by
      intro k hk
      obtain ⟨c, c1, c2⟩ := ih k _ (h5 k hk) (ha.2 k hk)
      refine ⟨c, c1, ?_⟩
      obtain ⟨q, hq, hqc⟩ := List.mem_map.1 c2
      exact List.mem_map.2 ⟨q, (List.mem_filter.1 hq).1, hqc⟩
    rw [treeClass]
    simp only [k1, Res.orPanic, Res.bind_ok, k2, k3]
    by_cases hk : k ∈ keys
    · rw [if_pos hk]; exact down k hk
    · rw [if_neg hk]
      have hb : bestChild k (ord keys) "" ∈ keys := by
        rw [← (ho keys).mem_iff]
        refine bestChild_mem _ _ _ ?_
        intro he
        have := (ho keys).length_eq
        rw [he] at this
        exact hkne (List.length_eq_zero_iff.1 this.symm)
      rw [if_pos hb]; exact down _ hb

/-- A training row reaches the leaf of the rows that take the same branches. -/
theorem treeClass_mates {fo : FloatOps} {lab : Nat → String} {g : Grid} {n : Nat}
    (P : g.Presents n) (T : g.typed n) (R : g.Readable fo n)
    {ord : List String → List String} {row : Nat} (hr : row < n) (t : Tree) :
    ∀ rows, t.Fits (g.branch fo) lab rows → t.AllRules (fun r => r.attr ∈ g.allAttributes) → row ∈ rows →
      ∃ c, treeClass fo g ord row t = Res.ok c ∧ Majority ((t.mates (g.branch fo) rows row).map lab) c := by
  induction t with
  | leaf d c => intro rows h _ _; exact ⟨c, rfl, h.1⟩
  | split d c r keys child ih =>
    intro rows h ha hm
    obtain ⟨s, k1, k2, k3⟩ := P.read _ ha.1
    have k4 := branch_key (fo := fo) T R ha.1 hr
    obtain ⟨_, _, _, h4, h5⟩ := h
    have hk : g.branch fo r row ∈ keys := (h4 _).2 ⟨row, hm, rfl⟩
    rw [treeClass]
    simp only [k1, Res.orPanic, Res.bind_ok, k3 row hr, k2, k4, if_pos hk]
    exact ih _ _ (h5 _ hk) (ha.2 _ hk) (List.mem_filter.2 ⟨hm, by simp⟩)

theorem treeClass_unique {fo : FloatOps} {g : Grid} {ord : List String → List String} {row : Nat} {t : Tree}
    {c c' : String} (h : treeClass fo g ord row t = Res.ok c) (h' : treeClass fo g ord row t = Res.ok c') : c = c' := by
  rw [h] at h'; exact Res.ok.inj h'

/-- A prediction stores the class of each row. -/
theorem treePredict_spec {e : PredEnv} (E : e.Ok) {t : Tree} {what : Grid} {n : Nat} {as : List Attr}
    (W : TreeInput e.fo what n as) {Q : Nat → String → Prop}
    (hQ : ∀ r, r < n → ∃ c, treeClass e.fo what (e.ord r) r t = Res.ok c ∧ Q r c) :
    ∃ d, treePredict e t what = Res.ok d ∧ d.maxRow = n ∧
      ∀ r, r < n → ∃ c, Q r c ∧ getClass e.fo (.dense d) r = Res.ok c := by
  obtain ⟨p, nm, vs, hc, hb⟩ := W.cls
  obtain ⟨d0, g1, g2, _⟩ := generate_spec e.pg W.rows.rows hc
  have hsub : ∀ b ∈ e.normal what.normalAttrs, b ∈ what.allAttributes := by
    intro b hb
    have hb' := (E.normal _).mem_iff.1 hb
    exact (((C27_references _ _ _ _ (List.Perm.refl _) (List.Perm.refl _)).2.2.2 b).1 hb').1
  obtain ⟨l, hl⟩ := W.rows.resolve_total hsub
  obtain ⟨_, r2⟩ := W.rows.resolves hsub (specs := e.srt l) ⟨l, hl, E.sort l⟩
  obtain ⟨d', vs', h1, h2, h3⟩ := predict_grid (fo := e.fo) (parse := e.parse) (Q := Q) W.rows (specs := e.srt l)
    (fun s hs => ⟨s.attr, (r2 s hs).1, (r2 s hs).2⟩)
    (cb := fun d _ row => (treeClass e.fo what (e.ord row) row t).bind fun c =>
      (setClass e.fo e.parse d row c).map fun d' => (d', Ctl.cont))
    (by
      intro r hr
      obtain ⟨c, c1, c2⟩ := hQ r hr
      exact ⟨c, c2, fun d => by simp only [c1, Res.bind_ok]⟩)
    (E.rowOrder what) g2 hb
  refine ⟨d', ?_, h2.rows, h3⟩
  simp only [treePredict, g1, Res.bind_ok, Grid.resolve, hl, Res.map_ok, h1, keepState]

end Golearn
