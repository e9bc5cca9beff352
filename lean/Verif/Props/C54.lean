import Verif.Props.C53

/-! # C54: moving the threshold of a CART split gives the split at the new threshold -/

namespace Golearn

variable {K : Type} [Field K] [LinearOrder K] {Y : Type}

/-- On rows sorted by the feature, the split at a threshold moved up to a larger one, not above the last value, is the split
made from scratch there. -/
theorem C54_update (data : List (List K)) (y : List Y) (hlen : data.length = y.length) (f : Nat)
    (hf : ∀ x ∈ data, f < x.length) (hs : data.Pairwise fun a b => a.getD f 0 ≤ b.getD f 0) (t t' : K) (htt : t ≤ t')
    (hlast : ∃ x ∈ data, t' ≤ x.getD f 0) :
    ∃ s s', createSplit data f y t = Res.ok s ∧ updateSplit s f t' = Res.ok s' ∧ createSplit data f y t' = Res.ok s' := by
  have h1 : (data.zip y).map Prod.fst = data := List.map_fst_zip hlen.le
  have h2 : (data.zip y).map Prod.snd = y := List.map_snd_zip hlen.ge
  have hr : HasCol f (data.zip y) := fun p hp => hf p.1 (List.of_mem_zip hp).1
  have e := createSplit_spec t (data.zip y) hr
  have e' := createSplit_spec t' (data.zip y) hr
  rw [h1, h2] at e e'
  refine ⟨_, _, e, updateSplit_spec htt _ hr ?_ ?_, e'⟩
  · have : ((data.zip y).map Prod.fst).Pairwise fun a b => a.getD f 0 ≤ b.getD f 0 := by rw [h1]; exact hs
    rwa [List.pairwise_map] at this
  · obtain ⟨x, hx, hxt⟩ := hlast
    rw [← h1, List.mem_map] at hx
    obtain ⟨p, hp, rfl⟩ := hx
    exact ⟨p, hp, hxt⟩

/-- So any ascending scan of thresholds, each one an update of the last split, ends with the split from scratch at its last
threshold. -/
theorem C54_scan (data : List (List K)) (y : List Y) (hlen : data.length = y.length) (f : Nat)
    (hf : ∀ x ∈ data, f < x.length) (hs : data.Pairwise fun a b => a.getD f 0 ≤ b.getD f 0) (t : K) (ts : List K)
    (hts : (t :: ts).Pairwise (· ≤ ·)) (hlast : ∃ x ∈ data, ∀ t' ∈ t :: ts, t' ≤ x.getD f 0) :
    ts.foldl (fun s t' => s.bind fun s => updateSplit s f t') (createSplit data f y t) =
      createSplit data f y (ts.getLastD t) := by
  induction ts generalizing t with
  | nil => rfl
  | cons t' ts ih =>
    obtain ⟨h1, h2⟩ := List.pairwise_cons.1 hts
    obtain ⟨x, hx, hxt⟩ := hlast
    obtain ⟨s, s', e1, e2, e3⟩ := C54_update data y hlen f hf hs t t' (h1 t' (by simp)) ⟨x, hx, hxt t' (by simp)⟩
    rw [List.foldl_cons, e1, Res.bind_ok, e2, ← e3, ih t' h2 ⟨x, hx, fun u hu => hxt u (List.mem_cons_of_mem _ hu)⟩,
      List.getLastD_cons]

/-- Five sorted rows; three thresholds in turn. -/
example : ([5 / 2, 7 / 2] : List ℚ).foldl (fun s t' => s.bind fun s => updateSplit s 0 t')
      (createSplit [[1], [2], [2], [3], [4]] 0 [10, 20, 30, 40, 50] (3 / 2)) =
      Res.ok ⟨[[1], [2], [2], [3]], [[4]], [10, 20, 30, 40], [50]⟩ ∧
    ([[1], [2], [2], [3], [4]] : List (List ℚ)).Pairwise (fun a b => a.getD 0 0 ≤ b.getD 0 0) := by decide +kernel

/-- Rows that are not sorted are cut elsewhere: the scan stops at the first row that is not below the threshold. -/
theorem C54_needs_order : ((createSplit [[3], [1], [2]] 0 [10, 20, 30] (1 : ℚ)).bind fun s => updateSplit s 0 (5 / 2)) ≠
    createSplit [[3], [1], [2]] 0 [10, 20, 30] (5 / 2) := by decide +kernel

/-- Past the last value the update panics: it looks at the first row of an empty slice. -/
theorem C54_past_the_end : ((createSplit [[1], [2]] 0 [10, 20] (1 : ℚ)).bind fun s => updateSplit s 0 3) = Res.panic := by
  decide +kernel

end Golearn
