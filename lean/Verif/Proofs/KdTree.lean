import Verif.Spec.KdTree
import Mathlib.Data.List.Basic
import Mathlib.Data.List.Perm.Basic
import Mathlib.Data.List.Range
import Mathlib.Data.List.Sort
import Mathlib.Data.List.GetD

/-! # Building the k-d tree -/

namespace Golearn

variable {R : Type} [LinearOrder R] [Zero R]

theorem runLength_spec (data : List (List R)) (f : Nat) (x : R) (l : List Nat) :
    runLength data f x l ≤ l.length ∧
    (∀ i (h : i < l.length), i < runLength data f x l → coord (data.getD l[i] []) f = x) ∧
    (∀ h : runLength data f x l < l.length, coord (data.getD (l[runLength data f x l]) []) f ≠ x) := by
  induction l with
  | nil => exact ⟨Nat.le_refl _, fun i h => absurd h (Nat.not_lt_zero i), fun h => absurd h (Nat.not_lt_zero _)⟩
  | cons a l ih =>
    obtain ⟨h1, h2, h3⟩ := ih
    unfold runLength
    by_cases hx : coord (data.getD a []) f = x
    · simp only [if_pos hx]
      refine ⟨by simpa using h1, ?_, ?_⟩
      · intro i h hi
        cases i with
        | zero => exact hx
        | succ i => exact h2 i (by simpa using h) (by omega)
      · intro h
        exact h3 (by simpa using h)
    · simp only [if_neg hx]
      exact ⟨Nat.zero_le _, fun i _ hi => absurd hi (Nat.not_lt_zero i), fun _ => hx⟩

/-- Where the sorted rows are divided. -/
theorem divide_spec (data : List (List R)) (f : Nat) (d : List Nat) (hd : 2 ≤ d.length)
    (hs : d.Pairwise fun i j => coord (data.getD i []) f ≤ coord (data.getD j []) f) (div : Nat)
    (hdiv : div = d.length / 2 +
      runLength data f (coord (data.getD (d.getD (d.length / 2) 0) []) f) (d.drop (d.length / 2 + 1))) :
    1 ≤ div ∧ div < d.length ∧ d = d.take div ++ d.getD div 0 :: d.drop (div + 1) ∧
    (∀ q ∈ d.take div, coord (data.getD q []) f ≤ coord (data.getD (d.getD div 0) []) f) ∧
    (∀ q ∈ d.drop (div + 1), coord (data.getD (d.getD div 0) []) f < coord (data.getD q []) f) := by
  set x := coord (data.getD (d.getD (d.length / 2) 0) []) f with hx
  obtain ⟨r1, r2, r3⟩ := runLength_spec data f x (d.drop (d.length / 2 + 1))
  rw [List.length_drop] at r1
  have hlt : div < d.length := by omega
  have hg : d.getD div 0 = d[div] := List.getD_eq_getElem _ _ hlt
  have hgm : d.getD (d.length / 2) 0 = d[d.length / 2] := List.getD_eq_getElem _ _ (by omega)
  have e : d = d.take div ++ d.getD div 0 :: d.drop (div + 1) := by
    rw [hg, ← List.drop_eq_getElem_cons hlt, List.take_append_drop]
  have hval : coord (data.getD (d.getD div 0) []) f = x := by
    by_cases h0 : div = d.length / 2
    · rw [h0]
    · have := r2 (div - (d.length / 2 + 1)) (by rw [List.length_drop]; omega) (by omega)
      rw [List.getElem_drop] at this
      have e2 : d.length / 2 + 1 + (div - (d.length / 2 + 1)) = div := by omega
      rw [hg]
      simp only [e2] at this
      exact this
  have hs' : (d.take div ++ d.getD div 0 :: d.drop (div + 1)).Pairwise
      fun i j => coord (data.getD i []) f ≤ coord (data.getD j []) f := by
    rw [← e]; exact hs
  refine ⟨by omega, hlt, e, ?_, ?_⟩
  · intro q hq
    exact (List.pairwise_append.1 hs').2.2 q hq _ List.mem_cons_self
  · intro q hq
    have hp := (List.pairwise_append.1 hs').2.1
    rw [List.pairwise_cons] at hp
    by_cases hnd : div + 1 < d.length
    · have hne := r3 (by rw [List.length_drop]; omega)
      rw [List.getElem_drop] at hne
      have e2 : d.length / 2 + 1 + runLength data f x (d.drop (d.length / 2 + 1)) = div + 1 := by omega
      simp only [e2] at hne
      have hdr : d.drop (div + 1) = d[div + 1] :: d.drop (div + 2) := List.drop_eq_getElem_cons hnd
      have hfirst : coord (data.getD (d.getD div 0) []) f < coord (data.getD (d[div + 1]) []) f := by
        refine lt_of_le_of_ne (hp.1 _ (by rw [hdr]; exact List.mem_cons_self)) ?_
        rw [hval]; exact fun h => hne h.symm
      rw [hdr] at hq hp
      rcases List.mem_cons.1 hq with rfl | hq
      · exact hfirst
      · exact lt_of_lt_of_le hfirst ((List.pairwise_cons.1 hp.2).1 q hq)
    · rw [List.drop_eq_nil_of_le (by omega)] at hq
      cases hq

theorem buildHandle_spec {data : List (List R)} {m : Nat} {srt : Nat → List Nat → List Nat}
    (hs : SortsBy data srt) (hm : 0 < m) (fuel : Nat) (rows : List Nat) (f : Nat) (hf : f < m)
    (h2 : 2 ≤ rows.length) (hfu : rows.length ≤ fuel) :
    (buildHandle data m srt fuel rows f).rows.Perm rows ∧
    (buildHandle data m srt fuel rows f).Separates data m := by
  induction fuel generalizing rows f with
  | zero => omega
  | succ fuel ih =>
    obtain ⟨hp, hsort⟩ := hs f rows
    have hl := hp.length_eq
    unfold buildHandle
    simp only
    set d := srt f rows with hd
    generalize hdiv : d.length / 2 +
      runLength data f (coord (data.getD (d.getD (d.length / 2) 0) []) f) (d.drop (d.length / 2 + 1)) = div
    obtain ⟨d1, d2, d3, d4, d5⟩ := divide_spec data f d (by omega) hsort div hdiv.symm
    have hm1 : (f + 1) % m < m := Nat.mod_lt _ hm
    -- the left side
    have left : ∀ n, n = (if div = 1 then KNode.leaf (data.getD (d.getD 0 0) []) (d.getD 0 0)
        else buildHandle data m srt fuel (d.take div) ((f + 1) % m)) →
        n.rows.Perm (d.take div) ∧ n.Separates data m := by
      intro n hn
      by_cases h1 : div = 1
      · rw [if_pos h1] at hn
        subst hn
        refine ⟨?_, rfl⟩
        have : d.take div = [d.getD 0 0] := by
          rw [h1]
          cases hdd : d with
          | nil => rw [hdd] at d2; simp at d2
          | cons a t => rfl
        rw [this]; exact List.Perm.refl _
      · rw [if_neg h1] at hn
        subst hn
        exact ih (d.take div) _ hm1 (by rw [List.length_take]; omega) (by rw [List.length_take]; omega)
    have right : ∀ n, n = (if div + 2 = d.length then
          KNode.leaf (data.getD (d.getD (div + 1) 0) []) (d.getD (div + 1) 0)
        else if div + 1 ≠ d.length then buildHandle data m srt fuel (d.drop (div + 1)) ((f + 1) % m)
        else KNode.nil) → n.rows.Perm (d.drop (div + 1)) ∧ n.Separates data m := by
      intro n hn
      by_cases h1 : div + 2 = d.length
      · rw [if_pos h1] at hn
        subst hn
        refine ⟨?_, rfl⟩
        have : d.drop (div + 1) = [d.getD (div + 1) 0] := by
          rw [List.getD_eq_getElem _ _ (by omega), List.drop_eq_getElem_cons (by omega),
            List.drop_eq_nil_of_le (by omega)]
        rw [this]; exact List.Perm.refl _
      · rw [if_neg h1] at hn
        by_cases h3 : div + 1 ≠ d.length
        · rw [if_pos h3] at hn
          subst hn
          exact ih (d.drop (div + 1)) _ hm1 (by rw [List.length_drop]; omega) (by rw [List.length_drop]; omega)
        · rw [if_neg h3] at hn
          subst hn
          rw [List.drop_eq_nil_of_le (by omega)]
          exact ⟨List.Perm.refl _, trivial⟩
    obtain ⟨l1, l2⟩ := left _ rfl
    obtain ⟨r1, r2⟩ := right _ rfl
    constructor
    · rw [KNode.rows]
      refine List.Perm.trans ?_ hp
      have hp2 : d.Perm (d.getD div 0 :: (d.take div ++ d.drop (div + 1))) := by
        conv_lhs => rw [d3]
        exact List.perm_middle
      exact ((l1.append r1).cons _).trans hp2.symm
    · rw [KNode.Separates]
      exact ⟨rfl, hf, fun q hq => d4 q (l1.mem_iff.1 hq), fun q hq => d5 q (r1.mem_iff.1 hq), l2, r2⟩

theorem kdBuild_spec {data : List (List R)} {srt : Nat → List Nat → List Nat} {root : KNode R}
    (hs : SortsBy data srt) (h : kdBuild srt data = Res.ok root) :
    root.rows.Perm (List.range data.length) ∧ ∃ m, Rectangular data m ∧ root.Separates data m := by
  unfold kdBuild at h
  split at h
  · cases h
  · rename_i r rs
    split at h
    · rename_i hall
      rw [List.all_eq_true] at hall
      have hrect : Rectangular (r :: rs) r.length := by
        intro v hv
        rcases List.mem_cons.1 hv with rfl | hv
        · rfl
        · simpa using hall v hv
      split at h
      · rename_i he
        rw [Res.ok.injEq] at h
        rw [List.isEmpty_iff] at he
        subst he; subst h
        exact ⟨List.Perm.refl _, r.length, hrect, rfl⟩
      · rename_i he
        split at h
        · cases h
        · rename_i hr
          rw [Res.ok.injEq] at h
          subst h
          have hne : rs ≠ [] := by intro e; rw [e] at he; simp at he
          have hpos := List.length_pos_iff.2 hne
          obtain ⟨a, b⟩ := buildHandle_spec hs (Nat.pos_of_ne_zero hr) (r :: rs).length
            (List.range (r :: rs).length) 0 (Nat.pos_of_ne_zero hr)
            (by rw [List.length_range, List.length_cons]; omega) (by rw [List.length_range])
          exact ⟨a, r.length, hrect, b⟩
    · cases h

end Golearn
