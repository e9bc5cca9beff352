import Verif.Proofs.ByContent

/-! # Loaded trees on lazily filtered grids -/

namespace Golearn

theorem specOk_body : ∀ (g : Grid) {s s' : Spec}, SpecOk g s s' → s.attr.body = s'.attr.body
  | .dense _, _, _, h => by cases h; rfl
  | .view src none _ _ _, _, _, h => specOk_body src h
  | .view _ (some _) _ _ _, _, _, h => by cases h; rfl
  | .filt _ _ _ _, _, _, h => by
    rcases h with rfl | h
    · rfl
    · exact h.1

theorem isFloat_body {a b : Attr} (h : a.body = b.body) : a.isFloat = b.isFloat := by
  unfold Attr.isFloat; rw [h]

theorem getString_body (fo : FloatOps) {a b : Attr} (h : a.body = b.body) (v : Bytes) : a.getString fo v = b.getString fo v := by
  unfold Attr.getString; rw [h]

/-- One step of a tree at two attributes with the same content. -/
theorem step_same (g : Grid) (fo : FloatOps) {α : Type} {a a' : Attr} (hb : a.body = a'.body) (as : List Attr) (h : a ∈ as) (h' : a' ∈ as)
    (hc : g.ByContent as) (row : Nat) (val : U64) (f f' : String → Res α) (hf : ∀ k, f k = f' k) :
    ((g.getAttribute a).orPanic.bind fun s => (g.get s row).bind fun v =>
      (if s.attr.isFloat then thresholdKey fo val v else s.attr.getString fo v).bind f) =
    ((g.getAttribute a').orPanic.bind fun s => (g.get s row).bind fun v =>
      (if s.attr.isFloat then thresholdKey fo val v else s.attr.getString fo v).bind f') := by
  have hff : f = f' := funext hf
  subst hff
  have hs := getAttribute_sameFind hb g as h h' hc
  cases h1 : g.getAttribute a with
  | ok s =>
    cases h2 : g.getAttribute a' with
    | ok s' =>
      rw [h1, h2] at hs
      have hs : SpecOk g s s' := hs
      simp only [Res.orPanic, Res.bind_ok, get_ok g hs row, isFloat_body (specOk_body g hs), getString_body fo (specOk_body g hs)]
    | err => rw [h1, h2] at hs; exact hs.elim
    | panic => rw [h1, h2] at hs; exact hs.elim
  | err =>
    cases h2 : g.getAttribute a' with
    | ok s' => rw [h1, h2] at hs; exact hs.elim
    | err => rfl
    | panic => rw [h1, h2] at hs; exact hs.elim
  | panic =>
    cases h2 : g.getAttribute a' with
    | ok s' => rw [h1, h2] at hs; exact hs.elim
    | err => rw [h1, h2] at hs; exact hs.elim
    | panic => rfl

theorem same_class_content (fo : FloatOps) (g : Grid) (as : List Attr) (hc : g.ByContent as) (ord : List String → List String)
    (row : Nat) (t t' : Tree) (h : t.Same t') (ht : t.AllRules fun r => r.attr ∈ as) (ht' : t'.AllRules fun r => r.attr ∈ as) :
    treeClass fo g ord row t' = treeClass fo g ord row t ∧ treeDistAt fo g ord row t' = treeDistAt fo g ord row t := by
  induction t generalizing t' with
  | leaf d c =>
    cases t' with
    | leaf d' c' =>
      obtain ⟨rfl, rfl⟩ := h
      exact ⟨rfl, rfl⟩
    | split => exact h.elim
  | split d c r keys child ih =>
    cases t' with
    | leaf => exact h.elim
    | split d' c' r' keys' child' =>
      obtain ⟨rfl, rfl, hv, hb, rfl, hk⟩ := h
      have key : ∀ k ∈ keys, treeClass fo g ord row (child' k) = treeClass fo g ord row (child k) ∧
          treeDistAt fo g ord row (child' k) = treeDistAt fo g ord row (child k) :=
        fun k hm => ih k _ (hk k hm) (ht.2 k hm) (ht'.2 k hm)
      rw [treeClass, treeClass, treeDistAt, treeDistAt, hv]
      constructor
      all_goals
        refine step_same g fo (by first | exact hb | exact hb.symm) as ht'.1 ht.1 hc row _ _ _ fun k => ?_
        split
        · rename_i hm
          first | exact (key k hm).1 | exact (key k hm).2
        · split
          · rename_i hm
            first | exact (key _ hm).1 | exact (key _ hm).2
          · rfl

end Golearn
