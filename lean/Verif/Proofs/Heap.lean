import Verif.Model.KdTree
import Mathlib.Data.List.Basic
import Mathlib.Data.List.Perm.Basic
import Mathlib.Data.List.Induction
import Mathlib.Order.Lattice

/-! # The neighbour heap -/

namespace Golearn

variable {R : Type} [LinearOrder R] [Zero R]

namespace Heap

/-- No element is longer than its parent. -/
def OK (t : Heap R) : Prop := ∀ c, 0 < c → c < t.length → t.ln c ≤ t.ln ((c - 1) / 2)

theorem swap_length (t : Heap R) (i j : Nat) : (t.swap i j).length = t.length := by
  unfold swap
  split <;> simp

theorem swap_ln (t : Heap R) {i j : Nat} (hi : i < t.length) (hj : j < t.length) (k : Nat) :
    (t.swap i j).ln k = if k = j then t.ln i else if k = i then t.ln j else t.ln k := by
  unfold swap
  rw [List.getElem?_eq_getElem hi, List.getElem?_eq_getElem hj]
  unfold ln
  simp only
  by_cases h1 : k = j
  · subst h1
    rw [if_pos rfl, List.getElem?_set_self (by simpa using hj), List.getElem?_eq_getElem hi]
  · rw [if_neg h1, List.getElem?_set_ne (Ne.symm h1)]
    by_cases h2 : k = i
    · subst h2
      rw [if_pos rfl, List.getElem?_set_self hi, List.getElem?_eq_getElem hj]
    · rw [if_neg h2, List.getElem?_set_ne (Ne.symm h2)]

theorem swap_perm (t : Heap R) (i j : Nat) : (t.swap i j).Perm t := by
  unfold swap
  split
  · rename_i x y hx hy
    obtain ⟨hi, rfl⟩ := List.getElem?_eq_some_iff.1 hx
    obtain ⟨hj, rfl⟩ := List.getElem?_eq_some_iff.1 hy
    exact List.set_set_perm hi hj
  · exact List.Perm.refl _

theorem siftUp_perm (fuel : Nat) (t : Heap R) (target : Nat) : (siftUp fuel t target).Perm t := by
  induction fuel generalizing t target with
  | zero => exact List.Perm.refl _
  | succ fuel ih =>
    unfold siftUp
    split
    · exact List.Perm.refl _
    · split
      · exact List.Perm.refl _
      · exact (ih _ _).trans (swap_perm _ _ _)

theorem siftUp_ok (fuel : Nat) (t : Heap R) (target : Nat) (h1 : 1 ≤ target) (h2 : target ≤ t.length)
    (hf : target ≤ fuel)
    (ha : ∀ c, 0 < c → c < t.length → c ≠ target - 1 → t.ln c ≤ t.ln ((c - 1) / 2))
    (hb : ∀ c, 0 < c → c < t.length → (c - 1) / 2 = target - 1 → 1 < target →
      t.ln c ≤ t.ln ((target - 2) / 2)) : OK (siftUp fuel t target) := by
  induction fuel generalizing t target with
  | zero => omega
  | succ fuel ih =>
    unfold siftUp
    split
    · intro c hc hcl
      exact ha c hc hcl (by omega)
    · rename_i ht
      have ep : target / 2 - 1 = (target - 2) / 2 := by omega
      split
      · rename_i hge
        intro c hc hcl
        by_cases h : c = target - 1
        · subst h
          rw [show (target - 1 - 1) / 2 = target / 2 - 1 by omega]
          exact hge
        · exact ha c hc hcl h
      · rename_i hge
        rw [ge_iff_le, not_le] at hge
        have hi : target - 1 < t.length := by omega
        have hj : target / 2 - 1 < t.length := by omega
        refine ih _ _ (by omega) (by rw [swap_length]; omega) (by omega) ?_ ?_
        · intro c hc hcl hne
          rw [swap_length] at hcl
          rw [swap_ln t hi hj, swap_ln t hi hj, if_neg hne]
          by_cases h : c = target - 1
          · rw [if_pos h, if_pos (by omega)]
            exact hge.le
          · rw [if_neg h]
            by_cases h3 : (c - 1) / 2 = target / 2 - 1
            · rw [if_pos h3]
              have := ha c hc hcl h
              rw [h3] at this
              exact this.trans hge.le
            · rw [if_neg h3]
              by_cases h4 : (c - 1) / 2 = target - 1
              · rw [if_pos h4, ep]
                exact hb c hc hcl h4 (by omega)
              · rw [if_neg h4]; exact ha c hc hcl h
        · intro c hc hcl hp ht2
          rw [swap_length] at hcl
          have hc1 : c ≠ target / 2 - 1 := by omega
          have hg1 : (target / 2 - 2) / 2 ≠ target / 2 - 1 := by omega
          have hg2 : (target / 2 - 2) / 2 ≠ target - 1 := by omega
          rw [swap_ln t hi hj, swap_ln t hi hj, if_neg hc1, if_neg hg1, if_neg hg2]
          have hpar := ha (target / 2 - 1) (by omega) hj (by omega)
          rw [show (target / 2 - 1 - 1) / 2 = (target / 2 - 2) / 2 by omega] at hpar
          by_cases h : c = target - 1
          · rw [if_pos h]; exact hpar
          · rw [if_neg h]
            have := ha c hc hcl h
            rw [hp] at this
            exact this.trans hpar

theorem siftDown_perm (fuel : Nat) (t : Heap R) (target : Nat) : (siftDown fuel t target).Perm t := by
  induction fuel generalizing t target with
  | zero => exact List.Perm.refl _
  | succ fuel ih =>
    unfold siftDown
    split
    · exact List.Perm.refl _
    · simp only
      split
      · exact List.Perm.refl _
      · exact (ih _ _).trans (swap_perm _ _ _)

theorem largest_spec (t : Heap R) (target : Nat) (h1 : 1 ≤ target) (h2 : target * 2 - 1 < t.length) :
    (t.largest target = target ∨ t.largest target = target * 2 ∨
      (t.largest target = target * 2 + 1 ∧ target * 2 < t.length)) ∧
    t.ln (target - 1) ≤ t.ln (t.largest target - 1) ∧
    t.ln (target * 2 - 1) ≤ t.ln (t.largest target - 1) ∧
    (target * 2 < t.length → t.ln (target * 2) ≤ t.ln (t.largest target - 1)) := by
  unfold largest
  simp only
  by_cases hA : t.ln (target * 2 - 1) > t.ln (target - 1)
  · simp only [if_pos hA]
    by_cases hB : target * 2 < t.length
    · simp only [if_pos hB]
      by_cases hC : t.ln (target * 2) > t.ln (target * 2 - 1)
      · simp only [if_pos hC]
        refine ⟨Or.inr (Or.inr ⟨trivial, hB⟩), ?_, ?_, ?_⟩
        · exact (hA.trans hC).le
        · exact hC.le
        · intro _; exact le_refl _
      · simp only [if_neg hC]
        exact ⟨Or.inr (Or.inl trivial), hA.le, le_refl _, fun _ => not_lt.1 hC⟩
    · simp only [if_neg hB]
      exact ⟨Or.inr (Or.inl trivial), hA.le, le_refl _, fun h => absurd h hB⟩
  · simp only [if_neg hA]
    by_cases hB : target * 2 < t.length
    · simp only [if_pos hB]
      by_cases hC : t.ln (target * 2) > t.ln (target - 1)
      · simp only [if_pos hC]
        refine ⟨Or.inr (Or.inr ⟨trivial, hB⟩), hC.le, ?_, ?_⟩
        · exact (not_lt.1 hA).trans hC.le
        · intro _; exact le_refl _
      · simp only [if_neg hC]
        exact ⟨Or.inl trivial, le_refl _, not_lt.1 hA, fun _ => not_lt.1 hC⟩
    · simp only [if_neg hB]
      exact ⟨Or.inl trivial, le_refl _, not_lt.1 hA, fun h => absurd h hB⟩

theorem siftDown_ok (fuel : Nat) (t : Heap R) (target : Nat) (h1 : 1 ≤ target)
    (hf : t.length + 1 ≤ target + fuel)
    (ha : ∀ c, 0 < c → c < t.length → (c - 1) / 2 ≠ target - 1 → t.ln c ≤ t.ln ((c - 1) / 2))
    (hb : ∀ c, 0 < c → c < t.length → (c - 1) / 2 = target - 1 → 1 < target →
      t.ln c ≤ t.ln ((target - 2) / 2)) : OK (siftDown fuel t target) := by
  induction fuel generalizing t target with
  | zero =>
    intro c hc hcl
    unfold siftDown at *
    exact ha c hc hcl (by omega)
  | succ fuel ih =>
    unfold siftDown
    split
    · rename_i hge
      intro c hc hcl
      exact ha c hc hcl (by omega)
    · rename_i hlt
      rw [ge_iff_le, not_le] at hlt
      obtain ⟨l1, l2, l3, l4⟩ := largest_spec t target h1 hlt
      simp only
      split
      · rename_i he
        rw [he] at l3 l4
        intro c hc hcl
        by_cases h : (c - 1) / 2 = target - 1
        · rw [h]
          have : c = target * 2 - 1 ∨ c = target * 2 := by omega
          rcases this with rfl | rfl
          · exact l3
          · exact l4 hcl
        · exact ha c hc hcl h
      · rename_i hne
        set l := t.largest target with hl
        have hi : l - 1 < t.length := by omega
        have hj : target - 1 < t.length := by omega
        have hlg : target < l := by omega
        refine ih _ _ (by omega) (by rw [swap_length]; omega) ?_ ?_
        · intro c hc hcl hp
          rw [swap_length] at hcl
          rw [swap_ln t hi hj, swap_ln t hi hj]
          by_cases h : c = target - 1
          · rw [if_pos h]
            have e1 : (c - 1) / 2 ≠ target - 1 := by omega
            rw [if_neg e1, if_neg hp]
            have := hb (l - 1) (by omega) hi (by omega) (by omega)
            rw [show (c - 1) / 2 = (target - 2) / 2 by omega]
            exact this
          · rw [if_neg h]
            by_cases h2 : c = l - 1
            · rw [if_pos h2, if_pos (by omega)]
              exact l2
            · rw [if_neg h2]
              by_cases h3 : (c - 1) / 2 = target - 1
              · rw [if_pos h3]
                have : c = target * 2 - 1 ∨ c = target * 2 := by omega
                rcases this with rfl | rfl
                · exact l3
                · exact l4 hcl
              · rw [if_neg h3, if_neg hp]
                exact ha c hc hcl h3
        · intro c hc hcl hp hl1
          rw [swap_length] at hcl
          have c1 : c ≠ target - 1 := by omega
          have c2 : c ≠ l - 1 := by omega
          rw [swap_ln t hi hj, swap_ln t hi hj, if_neg c1, if_neg c2, if_pos (by omega)]
          have := ha c hc hcl (by omega)
          rw [hp] at this
          exact this

theorem insert_perm (t : Heap R) (v : List R) (len : R) (row : Nat) :
    (t.insert v len row).Perm (⟨v, len, row⟩ :: t) :=
  (siftUp_perm _ _ _).trans (List.perm_append_comm)

theorem insert_ok {t : Heap R} (h : OK t) (v : List R) (len : R) (row : Nat) : OK (t.insert v len row) := by
  unfold insert
  have hln : ∀ c, c < t.length → Heap.ln (t ++ [⟨v, len, row⟩]) c = t.ln c := by
    intro c hc
    unfold ln
    rw [List.getElem?_append_left hc]
  refine siftUp_ok _ _ _ (by omega) (by simp) (le_refl _) ?_ ?_
  · intro c hc hcl hne
    rw [List.length_append, List.length_singleton] at hcl
    rw [hln c (by omega), hln _ (by omega)]
    exact h c hc (by omega)
  · intro c hc hcl hp _
    rw [List.length_append, List.length_singleton] at hcl
    omega

theorem maximum_ln (t : Heap R) : t.maximum.len = t.ln 0 := by
  cases t <;> rfl

theorem top_max {t : Heap R} (h : OK t) (c : Nat) (hc : c < t.length) : t.ln c ≤ t.ln 0 := by
  induction c using Nat.strong_induction_on with
  | _ c ih =>
    by_cases h0 : c = 0
    · rw [h0]
    · exact (h c (by omega) hc).trans (ih ((c - 1) / 2) (by omega) (by omega))

theorem maximum_mem {t : Heap R} (h : t ≠ []) : t.maximum ∈ t := by
  cases t with
  | nil => exact absurd rfl h
  | cons a t => exact List.mem_cons_self

theorem le_maximum {t : Heap R} (h : OK t) {x : HNode R} (hx : x ∈ t) : x.len ≤ t.maximum.len := by
  obtain ⟨c, hc, rfl⟩ := List.getElem_of_mem hx
  rw [maximum_ln]
  have := top_max h c hc
  unfold ln at this
  rw [List.getElem?_eq_getElem hc] at this
  exact this

theorem extract_spec {t : Heap R} (h : OK t) (hne : t ≠ []) :
    OK t.extractMax ∧ t.Perm (t.maximum :: t.extractMax) := by
  obtain ⟨m, rest, rfl⟩ := List.exists_cons_of_ne_nil hne
  rcases List.eq_nil_or_concat rest with rfl | ⟨mid, x, rfl⟩
  · have e : Heap.extractMax [m] = [] := by
      unfold extractMax
      exact List.perm_nil.1 (siftDown_perm _ _ _)
    rw [e]
    exact ⟨fun c _ hc => by simp at hc, List.Perm.refl _⟩
  · rw [List.concat_eq_append] at *
    have e : Heap.extractMax (m :: (mid ++ [x])) = siftDown (mid.length + 2) (x :: mid) 1 := by
      unfold extractMax
      have h1 : (m :: (mid ++ [x])).getLast? = some x := by
        rw [← List.cons_append, List.getLast?_append]; rfl
      have h2 : ((m :: (mid ++ [x])).set 0 x).dropLast = x :: mid := by
        rw [List.set_cons_zero, ← List.cons_append, List.dropLast_concat]
      rw [h1]
      simp only [h2]
      simp
    rw [e]
    have hln : ∀ c, 0 < c → c < mid.length + 1 → Heap.ln (x :: mid) c = Heap.ln (m :: (mid ++ [x])) c := by
      intro c hc hcl
      obtain ⟨d, rfl⟩ : ∃ d, c = d + 1 := ⟨c - 1, by omega⟩
      unfold ln
      rw [List.getElem?_cons_succ, List.getElem?_cons_succ, List.getElem?_append_left (by omega)]
    constructor
    · refine siftDown_ok _ _ _ (le_refl _) (by simp) ?_ ?_
      · intro c hc hcl hp
        rw [List.length_cons] at hcl
        rw [hln c hc hcl, hln _ (by omega) (by omega)]
        exact h c hc (by simp; omega)
      · intro c hc hcl hp h1
        omega
    · have : (Heap.maximum (m :: (mid ++ [x]))) = m := rfl
      rw [this]
      refine List.Perm.cons _ ?_
      exact (List.perm_append_comm (l₁ := mid) (l₂ := [x])).trans (siftDown_perm _ _ _).symm

theorem extract_nil : Heap.extractMax ([] : Heap R) = [] := rfl

end Heap

end Golearn
