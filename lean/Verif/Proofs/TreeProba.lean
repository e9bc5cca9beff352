import Verif.Proofs.TreePredict
import Verif.Spec.TreeProba

/-! # Lemmas about class probabilities of decision trees -/

namespace Golearn

theorem descent_branch {fo : FloatOps} {g : Grid} {n : Nat} (P : g.Presents n) (T : g.typed n) (R : g.Readable fo n)
    {r : Rule} {as : List Attr} (ha : r.attr ∈ as) (hf : g.Finds as) {row : Nat} (hr : row < n) :
    ∃ s v, g.getAttribute r.attr = Res.ok s ∧ g.get s row = Res.ok v ∧
      (if s.attr.isFloat then thresholdKey fo r.val v else s.attr.getString fo v) = Res.ok (g.branchLike fo row r) := by
  obtain ⟨b, hb, _, hab⟩ := hf _ ha
  obtain ⟨s, h1, h2, h3⟩ := P.read b hb
  have := branch_key (fo := fo) T R (r := ⟨b, r.val⟩) hb hr
  refine ⟨s, g.cell b row, by rw [hab, h1], h3 row hr, ?_⟩
  rw [Grid.branchLike, hab, h1]
  simp only [h2]
  exact this

/-- A descent ends at a leaf that describes some of the training rows; the class predicted is that of the leaf. -/
theorem treeDistAt_spec {fo : FloatOps} {key : Rule → Nat → String} {lab : Nat → String} {g : Grid} {n : Nat}
    {as : List Attr} (P : g.Presents n) (T : g.typed n) (R : g.Readable fo n) (hf : g.Finds as)
    {ord : List String → List String} (ho : ∀ l, (ord l).Perm l) {row : Nat} (hr : row < n) (t : Tree) :
    ∀ rows, t.Fits key lab rows → t.AllRules (fun r => r.attr ∈ as) →
      ∃ d c R, treeDistAt fo g ord row t = Res.ok d ∧ treeClass fo g ord row t = Res.ok c ∧
        t.EndsAt key (g.branchLike fo row) rows R ∧ (∀ q ∈ R, q ∈ rows) ∧ Describes lab R d c := by
  induction t with
  | leaf d c => intro rows h _; exact ⟨d, c, rows, rfl, rfl, rfl, fun _ h => h, h⟩
  | split d c r keys child ih =>
    intro rows h ha
    obtain ⟨s, v, k1, k2, k3⟩ := descent_branch P T R ha.1 hf hr
    obtain ⟨_, ⟨p, hp, _⟩, _, h4, h5⟩ := h
    have hkne : keys ≠ [] := List.ne_nil_of_mem ((h4 (key r p)).2 ⟨p, hp, rfl⟩)
    rw [treeDistAt, treeClass]
    simp only [k1, Res.orPanic, Res.bind_ok, k2, k3]
    have down : ∀ b ∈ keys, (g.branchLike fo row r ∈ keys → b = g.branchLike fo row r) →
        ∃ d' c' R, treeDistAt fo g ord row (child b) = Res.ok d' ∧ treeClass fo g ord row (child b) = Res.ok c' ∧
        (Tree.split d c r keys child).EndsAt key (g.branchLike fo row) rows R ∧ (∀ q ∈ R, q ∈ rows) ∧
        Describes lab R d' c' := by
      intro b hb hbt
      obtain ⟨d', c', R', e1, e2, e3, e4, e5⟩ := ih b _ (h5 b hb) (ha.2 b hb)
      exact ⟨d', c', R', e1, e2, ⟨b, hb, hbt, e3⟩, fun q hq => (List.mem_filter.1 (e4 q hq)).1, e5⟩
    by_cases hk : g.branchLike fo row r ∈ keys
    · rw [if_pos hk, if_pos hk]; exact down _ hk fun _ => rfl
    · rw [if_neg hk, if_neg hk]
      have hb : bestChild (g.branchLike fo row r) (ord keys) "" ∈ keys := by
        rw [← (ho keys).mem_iff]
        refine bestChild_mem _ _ _ ?_
        intro he
        have := (ho keys).length_eq
        rw [he] at this
        exact hkne (List.length_eq_zero_iff.1 this.symm)
      rw [if_pos hb, if_pos hb]; exact down _ hb fun h => absurd h hk

end Golearn
