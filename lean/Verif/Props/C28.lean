import Verif.Proofs.Attr
import Verif.Spec.Attr

/-! # C28: attribute equality is an equivalence and implies compatibility -/

namespace Golearn

/-- `Equals` decides exactly "same type, same name, same values". -/
theorem C28_equals_iff (a b : Attr) : a.equals b = true ↔ sameAttr a b := by
  obtain ⟨_, ba⟩ := a
  obtain ⟨_, bb⟩ := b
  cases ba <;> cases bb <;> simp [Attr.equals, sameAttr, Attr.sameValues_iff]
  all_goals exact eq_comm

/-- `Compatible` decides exactly "same type and same values". -/
theorem C28_compatible_iff (a b : Attr) : a.compatible b = true ↔ sameRepr a b := by
  obtain ⟨_, ba⟩ := a
  obtain ⟨_, bb⟩ := b
  cases ba <;> cases bb <;> simp [Attr.compatible, sameRepr, Attr.sameValues_iff]

theorem C28_equals_refl (a : Attr) : a.equals a = true := by
  rw [C28_equals_iff]
  obtain ⟨_, ba⟩ := a
  cases ba <;> simp [sameAttr]

theorem C28_equals_symm (a b : Attr) (h : a.equals b = true) : b.equals a = true := by
  rw [C28_equals_iff] at *
  obtain ⟨_, ba⟩ := a
  obtain ⟨_, bb⟩ := b
  cases ba <;> cases bb <;> simp_all [sameAttr]

theorem C28_equals_trans (a b c : Attr) (h : a.equals b = true) (h' : b.equals c = true) :
    a.equals c = true := by
  rw [C28_equals_iff] at *
  obtain ⟨_, ba⟩ := a
  obtain ⟨_, bb⟩ := b
  obtain ⟨_, bc⟩ := c
  cases ba <;> cases bb <;> cases bc <;> simp_all [sameAttr]

theorem C28_equals_compatible (a b : Attr) (h : a.equals b = true) : a.compatible b = true := by
  rw [C28_equals_iff] at h
  rw [C28_compatible_iff]
  obtain ⟨_, ba⟩ := a
  obtain ⟨_, bb⟩ := b
  cases ba <;> cases bb <;> simp_all [sameAttr, sameRepr]

/-- `Compatible` is an equivalence too. -/
theorem C28_compatible_equiv : Equivalence (fun a b : Attr => a.compatible b = true) := by
  refine ⟨?_, ?_, ?_⟩
  · intro a; rw [C28_compatible_iff]; obtain ⟨_, ba⟩ := a; cases ba <;> simp [sameRepr]
  · intro a b h
    rw [C28_compatible_iff] at *
    obtain ⟨_, ba⟩ := a
    obtain ⟨_, bb⟩ := b
    cases ba <;> cases bb <;> simp_all [sameRepr]
  · intro a b c h h'
    rw [C28_compatible_iff] at *
    obtain ⟨_, ba⟩ := a
    obtain ⟨_, bb⟩ := b
    obtain ⟨_, bc⟩ := c
    cases ba <;> cases bb <;> cases bc <;> simp_all [sameRepr]

/-- Two distinct attribute objects that are equal, and two compatible ones that are not. -/
example : (⟨0, .cat "a" ["x", "y"]⟩ : Attr).equals ⟨1, .cat "a" ["x", "y"]⟩ = true ∧
    (⟨0, .cat "a" ["x", "y"]⟩ : Attr).equals ⟨1, .cat "b" ["x", "y"]⟩ = false ∧
    (⟨0, .cat "a" ["x", "y"]⟩ : Attr).compatible ⟨1, .cat "b" ["x", "y"]⟩ = true := by decide

end Golearn
