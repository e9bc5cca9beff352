import Verif.Props.C43
import Mathlib.Algebra.Order.BigOperators.Group.List
import Mathlib.Algebra.Order.Field.Basic
import Mathlib.Algebra.Order.Ring.Rat

/-! # C45: regression with k nearest neighbours averages the values of the neighbours -/

namespace Golearn

variable {R : Type} [Field R] [LinearOrder R]

theorem regressDists_spec (dist : List R → List R → R) (data : List (List R)) (x : List R) :
    let m := regressDists dist data x
    (m.map Prod.fst).Nodup ∧ (∀ r, r ∈ m.map Prod.fst ↔ r < data.length) ∧ m.length = data.length ∧
    ∀ r, r < data.length → m.get? r = some (dist (data.getD r []) x) := by
  obtain ⟨d1, d2, d3⟩ := dists_foldl (fun i => dist (data.getD i []) x) (List.range data.length) [] (by simp)
  have hk : ∀ r, r ∈ (regressDists dist data x).map Prod.fst ↔ r < data.length := by
    intro r
    have := d2 r
    simpa [regressDists] using this
  refine ⟨d1, hk, ?_, fun r hr => d3 r (List.mem_range.2 hr)⟩
  have hp : ((regressDists dist data x).map Prod.fst).Perm (List.range data.length) :=
    (List.perm_ext_iff_of_nodup d1 List.nodup_range).2 (fun r => (hk r).trans List.mem_range.symm)
  rw [← List.length_map (f := Prod.fst), hp.length_eq, List.length_range]

/-- The first `k` rows in the sorted order are `k` rows nearest to the target. -/
theorem regress_nearest (sortKeys : (Nat → R) → List Nat → List Nat) (hs : SortsKeys sortKeys) (dist : List R → List R → R)
    (data : List (List R)) (x : List R) (k : Nat) (hk : k ≤ data.length) :
    ∃ out : List (Nat × R), Nearest data (fun a b => dist b a) x k out ∧
      out.map Prod.fst = (sortIntMap sortKeys (regressDists dist data x)).take k ∧
      (sortIntMap sortKeys (regressDists dist data x)).length = data.length := by
  obtain ⟨d1, d2, d3, d4⟩ := regressDists_spec dist data x
  obtain ⟨s1, s2, s3, s4, s5⟩ := sortIntMap_spec hs _ d1 k (by rw [d3]; exact hk)
  have hsl : (sortIntMap sortKeys (regressDists dist data x)).length = data.length := by
    unfold sortIntMap
    rw [(hs _ _).1.length_eq, List.length_map, d3]
  set sorted := sortIntMap sortKeys (regressDists dist data x) with hsorted
  have hv : ∀ r, r < data.length → ((regressDists dist data x).get? r).getD 0 = dist (data.getD r []) x := by
    intro r hr
    rw [d4 r hr]; rfl
  refine ⟨(sorted.take k).map fun v => (v, ((regressDists dist data x).get? v).getD 0), ⟨by rw [List.length_map, s1], ?_, ?_, ?_, ?_⟩,
    by rw [List.map_map]; exact List.map_id' _, hsl⟩
  · rw [List.map_map]
    exact (by simpa [Function.comp_def] using s2)
  · intro p hp
    obtain ⟨v, hvm, rfl⟩ := List.mem_map.1 hp
    have hvn := (d2 v).1 (s3 v hvm)
    exact ⟨hvn, hv v hvn⟩
  · rw [List.pairwise_map]; exact s4
  · intro q hq hqo p hp
    obtain ⟨v, hvm, rfl⟩ := List.mem_map.1 hp
    rw [← hv q hq]
    refine s5 q ((d2 q).2 hq) ?_ v hvm
    intro h
    apply hqo
    rw [List.map_map]
    exact List.mem_map.2 ⟨q, h, rfl⟩

/-- The prediction is the mean of the values of `k` rows nearest to the target: the sum of their values divided
by their number, whatever the order of the map and of equal distances. -/
theorem C45_mean (sortKeys : (Nat → R) → List Nat → List Nat) (hs : SortsKeys sortKeys) (dist : List R → List R → R)
    (data : List (List R)) (values : List R) (x : List R) (k : Nat) (hk0 : 0 < k) (hk : k ≤ data.length) :
    ∃ (out : List (Nat × R)) (y : R), Nearest data (fun a b => dist b a) x k out ∧
      knnRegress sortKeys dist data values x k = Res.ok (some y) ∧
      y = (out.map fun p => values.getD p.1 0).sum / (out.length : R) := by
  obtain ⟨out, h1, h2, hsl⟩ := regress_nearest sortKeys hs dist data x k hk
  refine ⟨out, _, h1, ?_, rfl⟩
  unfold knnRegress
  simp only [hsl]
  rw [if_neg (by omega), if_neg (by omega), h1.length, ← h2, List.map_map]
  rfl

/-- So the prediction lies between the smallest and the largest value of these neighbours. -/
theorem C45_between [IsStrictOrderedRing R] (sortKeys : (Nat → R) → List Nat → List Nat) (hs : SortsKeys sortKeys)
    (dist : List R → List R → R) (data : List (List R)) (values : List R) (x : List R) (k : Nat) (hk0 : 0 < k)
    (hk : k ≤ data.length) (lo hi : R) :
    ∃ (out : List (Nat × R)) (y : R), Nearest data (fun a b => dist b a) x k out ∧
      knnRegress sortKeys dist data values x k = Res.ok (some y) ∧
      ((∀ p ∈ out, lo ≤ values.getD p.1 0) → lo ≤ y) ∧ ((∀ p ∈ out, values.getD p.1 0 ≤ hi) → y ≤ hi) := by
  obtain ⟨out, y, h1, h2, h3⟩ := C45_mean sortKeys hs dist data values x k hk0 hk
  have hpos : (0 : R) < (out.length : R) := by
    rw [h1.length]
    exact_mod_cast hk0
  refine ⟨out, y, h1, h2, ?_, ?_⟩
  · intro h
    rw [h3, le_div_iff₀ hpos]
    have := List.card_nsmul_le_sum (out.map fun p => values.getD p.1 0) lo (by
      intro v hv
      obtain ⟨p, hp, rfl⟩ := List.mem_map.1 hv
      exact h p hp)
    rw [List.length_map, nsmul_eq_mul] at this
    rw [mul_comm]; exact this
  · intro h
    rw [h3, div_le_iff₀ hpos]
    have := List.sum_le_card_nsmul (out.map fun p => values.getD p.1 0) hi (by
      intro v hv
      obtain ⟨p, hp, rfl⟩ := List.mem_map.1 hv
      exact h p hp)
    rw [List.length_map, nsmul_eq_mul] at this
    rw [mul_comm]; exact this

/-- More neighbours than rows: the sorted keys are sliced beyond their end, a panic. No neighbours: zero
divided by zero. -/
theorem C45_bounds (sortKeys : (Nat → R) → List Nat → List Nat) (hs : SortsKeys sortKeys) (dist : List R → List R → R)
    (data : List (List R)) (values : List R) (x : List R) :
    (∀ k, data.length < k → knnRegress sortKeys dist data values x k = Res.panic) ∧
    knnRegress sortKeys dist data values x 0 = Res.ok none := by
  obtain ⟨d1, d2, d3, d4⟩ := regressDists_spec dist data x
  have hsl : (sortIntMap sortKeys (regressDists dist data x)).length = data.length := by
    unfold sortIntMap
    rw [(hs _ _).1.length_eq, List.length_map, d3]
  refine ⟨fun k hk => ?_, ?_⟩
  · unfold knnRegress
    simp only [hsl]
    rw [if_pos hk]
  · unfold knnRegress
    simp

/-- Four rows, the two nearest of which have the values 10 and 13. -/
example : knnRegress (R := Rat) keySort (fun a b => (List.zipWith (fun x y => |x - y|) a b).sum)
    [[0, 0], [5, 5], [1, 0], [9, 9]] [10, 20, 13, 40] [1, 1] 2 = Res.ok (some (23 / 2)) := by decide +kernel

end Golearn
