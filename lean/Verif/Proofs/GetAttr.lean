import Verif.Model.Dense

namespace Golearn

theorem findInGroup_spec (id : Nat) (q : Attr) (as : List Attr) (j : Nat) :
    match Dense.findInGroup id q as j with
    | none => ∀ a ∈ as, a.equals q = false
    | some s => ∃ k, s = ⟨some id, j + k, s.attr⟩ ∧ as[k]? = some s.attr ∧
        s.attr.equals q = true ∧ ∀ i, i < k → ∀ a, as[i]? = some a → a.equals q = false := by
  induction as generalizing j with
  | nil => simp [Dense.findInGroup]
  | cons x xs ih =>
    unfold Dense.findInGroup
    by_cases hx : x.equals q = true
    · rw [if_pos hx]
      exact ⟨0, rfl, rfl, hx, by intro i hi; omega⟩
    · rw [if_neg hx]
      have hx' : x.equals q = false := by simpa using hx
      have := ih (j + 1)
      cases hf : Dense.findInGroup id q xs (j + 1) with
      | none =>
        rw [hf] at this
        intro a ha
        rcases List.mem_cons.1 ha with rfl | h
        · exact hx'
        · exact this a h
      | some s =>
        rw [hf] at this
        obtain ⟨k, h1, h2, h3, h4⟩ := this
        refine ⟨k + 1, ?_, by simpa using h2, h3, ?_⟩
        · rw [h1]; simp; omega
        · intro i hi a ha
          cases i with
          | zero => simp at ha; rw [← ha]; exact hx'
          | succ i => exact h4 i (by omega) a (by simpa using ha)

theorem findInGroups_spec (q : Attr) (gs : List Group) (b : Nat) :
    match Dense.findInGroups q gs b with
    | none => (gs.flatMap (·.attrs)).find? (fun a => a.equals q) = none
    | some s => ∃ i g, s.pond = some (b + i) ∧ gs[i]? = some g ∧
        g.attrs[s.position]? = some s.attr ∧ s.attr.equals q = true ∧
        (gs.flatMap (·.attrs)).find? (fun a => a.equals q) = some s.attr := by
  induction gs generalizing b with
  | nil => simp [Dense.findInGroups]
  | cons x xs ih =>
    unfold Dense.findInGroups
    have h1 := findInGroup_spec b q x.attrs 0
    cases hf : Dense.findInGroup b q x.attrs 0 with
    | some s =>
      rw [hf] at h1
      obtain ⟨k, e1, e2, e3, e4⟩ := h1
      simp only [Nat.zero_add] at e1
      have hp : s.position = k := by rw [e1]
      have hpd : s.pond = some b := by rw [e1]
      refine ⟨0, x, by simpa using hpd, rfl, by rw [hp]; exact e2, e3, ?_⟩
      simp only [List.flatMap_cons, List.find?_append]
      have : x.attrs.find? (fun a => a.equals q) = some s.attr := by
        rw [List.find?_eq_some_iff_getElem]
        obtain ⟨hk, hke⟩ := List.getElem?_eq_some_iff.1 e2
        refine ⟨e3, k, hk, hke, ?_⟩
        intro i hi
        rw [e4 i hi x.attrs[i] (List.getElem?_eq_getElem (by omega))]
        rfl
      rw [this]; rfl
    | none =>
      rw [hf] at h1
      simp only
      have hx : x.attrs.find? (fun a => a.equals q) = none := by
        rw [List.find?_eq_none]
        intro a ha
        rw [h1 a ha]; simp
      have := ih (b + 1)
      cases hg : Dense.findInGroups q xs (b + 1) with
      | none =>
        rw [hg] at this
        simp only [List.flatMap_cons, List.find?_append, hx, Option.none_or]
        exact this
      | some s =>
        rw [hg] at this
        obtain ⟨i, g, e1, e2, e3, e4, e5⟩ := this
        refine ⟨i + 1, g, by rw [e1]; congr 1; omega, by simpa using e2, e3, e4, ?_⟩
        simp only [List.flatMap_cons, List.find?_append, hx, Option.none_or]
        exact e5

end Golearn
