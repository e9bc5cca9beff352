import Verif.Proofs.KdTree

/-! # C41: the k-d tree holds every row exactly once -/

namespace Golearn

variable {R : Type} [LinearOrder R] [Zero R]

/-- A tree built from data stores every row number exactly once, every node stores the point of its row,
and every splitting node separates the rows below it by its feature. -/
theorem C41_build (data : List (List R)) (srt : Nat → List Nat → List Nat) (hs : SortsBy data srt)
    (root : KNode R) (h : kdBuild srt data = Res.ok root) :
    root.rows.Perm (List.range data.length) ∧ ∃ m, Rectangular data m ∧ root.Separates data m :=
  kdBuild_spec hs h

/-- Building fails with an error exactly on no data and on rows of different lengths. It panics only for
two rows or more without any feature; in all other cases there is a tree. -/
theorem C41_accepts (data : List (List R)) (srt : Nat → List Nat → List Nat) :
    (kdBuild srt data = Res.err ↔ data = [] ∨ ¬ ∃ m, Rectangular data m) ∧
    (kdBuild srt data = Res.panic ↔ 2 ≤ data.length ∧ Rectangular data 0) ∧
    (∀ m, 0 < m → data ≠ [] → Rectangular data m → ∃ root, kdBuild srt data = Res.ok root) := by
  cases data with
  | nil =>
    refine ⟨⟨fun _ => Or.inl rfl, fun _ => rfl⟩, ⟨fun h => ?_, fun h => ?_⟩, fun m _ h => absurd rfl h⟩
    · cases h
    · simp at h
  | cons r rs =>
    have hrect : (∃ m, Rectangular (r :: rs) m) ↔ (rs.all fun v => v.length == r.length) = true := by
      rw [List.all_eq_true]
      constructor
      · rintro ⟨m, hm⟩ v hv
        rw [beq_iff_eq, hm v (List.mem_cons_of_mem _ hv), hm r List.mem_cons_self]
      · intro h
        refine ⟨r.length, fun v hv => ?_⟩
        rcases List.mem_cons.1 hv with rfl | hv
        · rfl
        · simpa using h v hv
    rw [hrect]
    have e : kdBuild srt (r :: rs) = if rs.all fun v => v.length == r.length then
        if rs.isEmpty then Res.ok (.leaf r 0)
        else if r.length = 0 then Res.panic
        else Res.ok (buildHandle (r :: rs) r.length srt (r :: rs).length (List.range (r :: rs).length) 0)
      else Res.err := rfl
    rw [e]
    by_cases hall : (rs.all fun v => v.length == r.length) = true
    · rw [if_pos hall]
      by_cases he : rs.isEmpty = true
      · rw [if_pos he]
        rw [List.isEmpty_iff] at he
        subst he
        refine ⟨⟨fun h => (by cases h), fun h => ?_⟩, ⟨fun h => (by cases h), fun h => ?_⟩, fun m _ _ _ => ⟨_, rfl⟩⟩
        · simp at h
        · simp at h
      · rw [if_neg he]
        have hne : rs ≠ [] := by intro e; rw [e] at he; simp at he
        have hpos := List.length_pos_iff.2 hne
        by_cases hz : r.length = 0
        · rw [if_pos hz]
          refine ⟨⟨fun h => (by cases h), fun h => ?_⟩, ⟨fun _ => ?_, fun _ => rfl⟩, fun m hm _ hrc => ?_⟩
          · simp [hall] at h
          · rw [List.length_cons]
            refine ⟨by omega, fun v hv => ?_⟩
            rcases List.mem_cons.1 hv with rfl | hv
            · exact hz
            · rw [List.all_eq_true] at hall
              have := hall v hv
              rw [beq_iff_eq] at this
              omega
          · have := hrc r List.mem_cons_self
            omega
        · rw [if_neg hz]
          refine ⟨⟨fun h => (by cases h), fun h => ?_⟩, ⟨fun h => (by cases h), fun h => ?_⟩, fun m _ _ _ => ⟨_, rfl⟩⟩
          · simp [hall] at h
          · exact absurd (h.2 r List.mem_cons_self) hz
    · rw [if_neg hall]
      refine ⟨⟨fun _ => Or.inr (by simpa using hall), fun _ => rfl⟩, ⟨fun h => (by cases h), fun h => ?_⟩, fun m _ _ hrc => ?_⟩
      · exact absurd (hrect.1 ⟨0, h.2⟩) hall
      · exact absurd (hrect.1 ⟨m, hrc⟩) hall

/-- Insertion sort by a feature: a sort that meets `SortsBy`. -/
def kdSort (data : List (List Int)) (f : Nat) (l : List Nat) : List Nat :=
  l.insertionSort fun i j => coord (data.getD i []) f ≤ coord (data.getD j []) f

theorem kdSort_sorts (data : List (List Int)) : SortsBy data (kdSort data) := by
  intro f l
  have : Std.Total (fun i j : Nat => coord (data.getD i []) f ≤ coord (data.getD j []) f) :=
    ⟨fun _ _ => le_total _ _⟩
  have : IsTrans Nat (fun i j : Nat => coord (data.getD i []) f ≤ coord (data.getD j []) f) :=
    ⟨fun _ _ _ => le_trans⟩
  exact ⟨List.perm_insertionSort _ _, List.pairwise_insertionSort _ _⟩

/-- Five points with ties in both features. -/
example : ∃ root, kdBuild (kdSort [[2, 3], [5, 4], [2, 1], [5, 7], [5, 0]])
    ([[2, 3], [5, 4], [2, 1], [5, 7], [5, 0]] : List (List Int)) = Res.ok root ∧
    root.rows = [4, 1, 0, 2, 3] := by
  refine ⟨_, rfl, ?_⟩
  decide +kernel

end Golearn
