import Verif.Proofs.Instances

/-! # C27: attribute set operations obey set laws -/

namespace Golearn

theorem attrMatched_iff (a : Attr) (l : List Attr) :
    attrMatched a l = true ↔ ∃ b ∈ l, a.equals b = true := by
  induction l with
  | nil => simp [attrMatched]
  | cons b bs ih =>
    unfold attrMatched
    by_cases h : a.equals b = true
    · simp [h]
    · simp [h, ih]

/-- `AttributeIntersect(a1, a2)` lists, in the order of `a1`, exactly the members of `a1` that equal
some member of `a2`. -/
theorem C27_intersect (a1 a2 : List Attr) :
    attrIntersect a1 a2 = a1.filter fun a => a2.any fun b => a.equals b := by
  induction a1 with
  | nil => rfl
  | cons a as ih =>
    have : attrMatched a a2 = a2.any fun b => a.equals b := by
      rw [Bool.eq_iff_iff, attrMatched_iff, List.any_eq_true]
    simp only [attrIntersect, List.filter_cons, ih, this]

/-- `AttributeDifference(a1, a2)` lists, in the order of `a1`, exactly the members of `a1` that equal
no member of `a2`. -/
theorem C27_difference (a1 a2 : List Attr) :
    attrDifference a1 a2 = a1.filter fun a => !(a2.any fun b => a.equals b) := by
  induction a1 with
  | nil => rfl
  | cons a as ih =>
    have : attrMatched a a2 = a2.any fun b => a.equals b := by
      rw [Bool.eq_iff_iff, attrMatched_iff, List.any_eq_true]
    simp only [attrDifference, List.filter_cons, ih, this]
    cases a2.any fun b => a.equals b <;> simp

/-- Together they partition `a1`. -/
theorem C27_partition (a1 a2 : List Attr) :
    (attrIntersect a1 a2 ++ attrDifference a1 a2).Perm a1 := by
  rw [C27_intersect, C27_difference]
  exact List.filter_append_perm _ _

theorem buildAttrSet_spec (l : List Attr) :
    ((buildAttrSet l).map Prod.fst).Nodup ∧ ∀ a, a ∈ (buildAttrSet l).map Prod.fst ↔ a ∈ l := by
  have key : ∀ (l : List Attr) (m : GoMap Attr Bool), (m.map Prod.fst).Nodup →
      ((l.foldl (fun m a => m.set a true) m).map Prod.fst).Nodup ∧
      ∀ a, a ∈ (l.foldl (fun m a => m.set a true) m).map Prod.fst ↔ a ∈ m.map Prod.fst ∨ a ∈ l := by
    intro l
    induction l with
    | nil => intro m h; exact ⟨h, by simp⟩
    | cons x xs ih =>
      intro m h
      obtain ⟨i1, i2⟩ := ih (m.set x true) (GoMap.nodup_set _ _ _ h)
      refine ⟨i1, ?_⟩
      intro a
      rw [List.foldl_cons, i2 a, GoMap.mem_keys_set, List.mem_cons]
      tauto
  obtain ⟨k1, k2⟩ := key l [] (by simp)
  exact ⟨k1, fun a => by rw [buildAttrSet, k2 a]; simp⟩

theorem GoMap.isSome_iff_mem {κ ν : Type} [DecidableEq κ] (m : GoMap κ ν) (k : κ) :
    (m.get? k).isSome ↔ k ∈ m.map Prod.fst := by
  induction m with
  | nil => simp [GoMap.get?]
  | cons p ps ih =>
    obtain ⟨k', v⟩ := p
    simp only [GoMap.get?, List.map_cons, List.mem_cons]
    by_cases h : k' = k
    · simp [h]
    · simp only [h, if_false, ih]
      constructor
      · exact Or.inr
      · rintro (e | e)
        · exact absurd e.symm h
        · exact e

/-- The pointer versions: each result (in whatever order the map was walked) has no repetitions and
contains exactly the attributes that are in `a1` and in `a2`, respectively in `a1` and not in `a2`. -/
theorem C27_references (a1 a2 : List Attr) (i d : List Attr)
    (hi : i.Perm (attrIntersectRefs a1 a2)) (hd : d.Perm (attrDifferenceRefs a1 a2)) :
    i.Nodup ∧ d.Nodup ∧ (∀ a, a ∈ i ↔ a ∈ a1 ∧ a ∈ a2) ∧ ∀ a, a ∈ d ↔ a ∈ a1 ∧ a ∉ a2 := by
  obtain ⟨n1, m1⟩ := buildAttrSet_spec a1
  obtain ⟨_, m2⟩ := buildAttrSet_spec a2
  refine ⟨hi.nodup_iff.2 (n1.filter _), hd.nodup_iff.2 (n1.filter _), ?_, ?_⟩
  · intro a
    rw [hi.mem_iff, attrIntersectRefs, List.mem_filter, m1, GoMap.isSome_iff_mem, m2]
  · intro a
    rw [hd.mem_iff, attrDifferenceRefs, List.mem_filter, m1, Bool.not_eq_true',
      ← Bool.not_eq_true, GoMap.isSome_iff_mem, m2]

section Examples
private def f (p : Nat) (n : String) : Attr := ⟨p, .float n 2⟩
/-- Equality by name is used by the value versions, identity by the reference versions. -/
example : attrIntersect [f 0 "a", f 1 "b", f 2 "a"] [f 3 "a"] = [f 0 "a", f 2 "a"] ∧
    attrDifference [f 0 "a", f 1 "b", f 2 "a"] [f 3 "a"] = [f 1 "b"] ∧
    attrIntersectRefs [f 0 "a", f 1 "b"] [f 3 "a", f 1 "b"] = [f 1 "b"] ∧
    attrDifferenceRefs [f 0 "a", f 1 "b"] [f 3 "a", f 1 "b"] = [f 0 "a"] := by decide +kernel
end Examples

end Golearn
