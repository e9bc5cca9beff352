import Verif.Proofs.KdSearch
import Verif.Props.C41
import Mathlib.Algebra.Order.BigOperators.Group.List
import Mathlib.Algebra.Order.Group.Unbundled.Abs
import Mathlib.Algebra.Order.Group.Int
import Mathlib.Data.List.Nodup
import Mathlib.Data.List.Count
import Mathlib.Tactic.Linarith

/-! # C42: the k-d tree search returns the k nearest rows -/

namespace Golearn

variable {R : Type} [LinearOrder R] [Zero R]

/-- The property: a search for `k` rows in a tree built from data returns the `k` nearest rows. -/
def SearchFindsNearest (R : Type) [LinearOrder R] [Zero R] : Prop :=
  ∀ (data : List (List R)) (m : Nat) (srt : Nat → List Nat → List Nat) (root : KNode R) (k : Nat)
    (dist : List R → List R → R) (target : List R),
    SortsBy data srt → kdBuild srt data = Res.ok root → AxisBound dist → Rectangular data m →
    target.length = m → 0 < k → k ≤ data.length →
    ∃ out, kdSearch data root k dist target = Res.ok out ∧ Nearest data dist target k out

/-- Whatever the data: the search succeeds with `k` results in ascending order. A result is a row with
its distance, or row 0 with the distance of the origin, which is not a row at all: the tree has places
without a row, which the search visits. No row that is left out is closer than a result. -/
theorem C42_search_general_partial (data : List (List R)) (m : Nat) (srt : Nat → List Nat → List Nat)
    (root : KNode R) (k : Nat) (dist : List R → List R → R) (target : List R) (hs : SortsBy data srt)
    (hbuild : kdBuild srt data = Res.ok root) (hd : AxisBound dist) (hrect : Rectangular data m)
    (ht : target.length = m) (hk : 0 < k) (hkn : k ≤ data.length) :
    ∃ out, kdSearch data root k dist target = Res.ok out ∧ out.length = k ∧
      (out.Pairwise fun p q => p.2 ≤ q.2) ∧
      (∀ p ∈ out, (p.1 < data.length ∧ p.2 = dist target (data.getD p.1 [])) ∨
        p = (0, dist target (List.replicate m 0))) ∧
      ∀ q, q < data.length → q ∉ out.map Prod.fst → ∀ p ∈ out, p.2 ≤ dist target (data.getD q []) := by
  obtain ⟨H, j, rest, hj, hlen, hout, hok, hperm, hbest⟩ := kdSearch_out hs hbuild hd hrect ht hk hkn
  obtain ⟨d1, d2⟩ := drained_spec _ H hok rfl
  refine ⟨_, hout, ?_, ?_, ?_, ?_⟩
  · rw [List.length_map, List.length_reverse, d1.length_eq, hlen]
  · rw [List.pairwise_map, List.pairwise_reverse]
    exact d2
  · intro p hp
    obtain ⟨x, hx, rfl⟩ := List.mem_map.1 hp
    have hxH := d1.mem_iff.1 (List.mem_reverse.1 hx)
    rcases List.mem_append.1 (hperm.mem_iff.1 (List.mem_append_left _ hxH)) with h | h
    · obtain ⟨q, hq, rfl⟩ := List.mem_map.1 h
      exact Or.inl ⟨List.mem_range.1 hq, rfl⟩
    · rw [List.eq_of_mem_replicate h, ← ht]
      exact Or.inr rfl
  · intro q hq hnot p hp
    obtain ⟨x, hx, rfl⟩ := List.mem_map.1 hp
    have hxH := d1.mem_iff.1 (List.mem_reverse.1 hx)
    have hqe : rowEntry data dist target q ∈ H ++ rest :=
      hperm.mem_iff.2 (List.mem_append_left _ (List.mem_map.2 ⟨q, List.mem_range.2 hq, rfl⟩))
    rcases List.mem_append.1 hqe with h | h
    · refine absurd (List.mem_map.2 ⟨(q, dist target (data.getD q [])), List.mem_map.2
        ⟨rowEntry data dist target q, List.mem_reverse.2 (d1.mem_iff.2 h), rfl⟩, rfl⟩) hnot
    · exact hbest _ h _ hxH

theorem nearest_of_real {data : List (List R)} {dist : List R → List R → R} {target : List R}
    {H rest : List (HNode R)} {j : Nat} (hok : Heap.OK H)
    (hperm : (H ++ rest).Perm ((List.range data.length).map (rowEntry data dist target) ++
        List.replicate j (phantom dist target)))
    (hbest : ∀ x ∈ rest, ∀ y ∈ H, y.len ≤ x.len) (hph : j = 0 ∨ phantom dist target ∉ H) :
    Nearest data dist target H.length ((drained H.length H).reverse.map fun x => (x.row, x.len)) := by
  obtain ⟨d1, d2⟩ := drained_spec _ H hok rfl
  have hrows : (List.range data.length).map (rowEntry data dist target) |>.Nodup := by
    refine List.Nodup.map ?_ List.nodup_range
    intro a b h
    exact congrArg HNode.row h
  have hHreal : ∀ x ∈ H, ∃ q, q < data.length ∧ x = rowEntry data dist target q := by
    intro x hx
    rcases List.mem_append.1 (hperm.mem_iff.1 (List.mem_append_left _ hx)) with h | h
    · obtain ⟨q, hq, rfl⟩ := List.mem_map.1 h
      exact ⟨q, List.mem_range.1 hq, rfl⟩
    · rcases hph with rfl | hph
      · cases h
      · rw [List.eq_of_mem_replicate h] at hx
        exact absurd hx hph
  have hHnd : H.Nodup := by
    classical
    rw [List.nodup_iff_count_le_one]
    intro x
    by_cases hx : x ∈ H
    · have hc := hperm.count_eq x
      rw [List.count_append, List.count_append] at hc
      have h1 := List.nodup_iff_count_le_one.1 hrows x
      have h2 : List.count x (List.replicate j (phantom dist target)) = 0 := by
        rw [List.count_eq_zero]
        intro h
        rcases hph with rfl | hph
        · cases h
        · rw [List.eq_of_mem_replicate h] at hx
          exact hph hx
      omega
    · rw [List.count_eq_zero_of_not_mem hx]; exact Nat.zero_le _
  refine ⟨?_, ?_, ?_, ?_, ?_⟩
  · rw [List.length_map, List.length_reverse, d1.length_eq]
  · rw [List.map_map, List.map_reverse, List.nodup_reverse, (d1.map _).nodup_iff]
    refine List.Nodup.map_on ?_ hHnd
    intro x hx y hy hxy
    obtain ⟨a, _, rfl⟩ := hHreal x hx
    obtain ⟨b, _, rfl⟩ := hHreal y hy
    have : a = b := hxy
    rw [this]
  · intro p hp
    obtain ⟨x, hx, rfl⟩ := List.mem_map.1 hp
    obtain ⟨q, hq, rfl⟩ := hHreal x (d1.mem_iff.1 (List.mem_reverse.1 hx))
    exact ⟨hq, rfl⟩
  · rw [List.pairwise_map, List.pairwise_reverse]
    exact d2
  · intro q hq hnot p hp
    obtain ⟨x, hx, rfl⟩ := List.mem_map.1 hp
    have hxH := d1.mem_iff.1 (List.mem_reverse.1 hx)
    have hqe : rowEntry data dist target q ∈ H ++ rest :=
      hperm.mem_iff.2 (List.mem_append_left _ (List.mem_map.2 ⟨q, List.mem_range.2 hq, rfl⟩))
    rcases List.mem_append.1 hqe with h | h
    · refine absurd (List.mem_map.2 ⟨(q, dist target (data.getD q [])), List.mem_map.2
        ⟨rowEntry data dist target q, List.mem_reverse.2 (d1.mem_iff.2 h), rfl⟩, rfl⟩) hnot
    · exact hbest _ h _ hxH

/-- The search returns the `k` nearest rows when at least `k` rows are closer to the target than the
origin is. The full statement is `SearchFindsNearest`, which fails. -/
theorem C42_search_partial (data : List (List R)) (m : Nat) (srt : Nat → List Nat → List Nat)
    (root : KNode R) (k : Nat) (dist : List R → List R → R) (target : List R) (hs : SortsBy data srt)
    (hbuild : kdBuild srt data = Res.ok root) (hd : AxisBound dist) (hrect : Rectangular data m)
    (ht : target.length = m) (hk : 0 < k)
    (hclose : k ≤ (List.range data.length).countP fun q =>
      decide (dist target (data.getD q []) < dist target (List.replicate m 0))) :
    ∃ out, kdSearch data root k dist target = Res.ok out ∧ Nearest data dist target k out := by
  have hkn : k ≤ data.length := by
    refine hclose.trans (List.countP_le_length.trans ?_)
    rw [List.length_range]
  obtain ⟨H, j, rest, hj, hlen, hout, hok, hperm, hbest⟩ := kdSearch_out hs hbuild hd hrect ht hk hkn
  refine ⟨_, hout, ?_⟩
  have hn : Nearest data dist target H.length ((drained H.length H).reverse.map fun x => (x.row, x.len)) := by
    refine nearest_of_real hok hperm hbest ?_
    refine Or.inr fun hmem => ?_
    -- every row closer than the origin is in the heap, and the phantom is not closer than the origin
    set close : HNode R → Bool := fun x => decide (x.len < dist target (List.replicate m 0)) with hc
    have hph : close (phantom dist target) = false := by
      simp only [hc, phantom, ht, lt_irrefl, decide_false]
    have hrest : rest.countP close = 0 := by
      rw [List.countP_eq_zero]
      intro x hx
      have h1 := hbest x hx _ hmem
      simp only [phantom, ht] at h1
      simp only [hc, decide_eq_true_eq, not_lt]
      exact h1
    have hcount := hperm.countP_eq close
    rw [List.countP_append, List.countP_append, hrest, List.countP_map] at hcount
    have hpz : (List.replicate j (phantom dist target)).countP close = 0 := by
      rw [List.countP_eq_zero]
      intro x hx
      rw [List.eq_of_mem_replicate hx, hph]
      simp
    rw [hpz] at hcount
    have hge : k ≤ H.countP close := by
      rw [Nat.add_zero, Nat.add_zero] at hcount
      rw [hcount]
      exact hclose
    have hall : H.countP close = H.length := le_antisymm List.countP_le_length (by rw [hlen]; exact hge)
    rw [List.countP_eq_length] at hall
    have := hall _ hmem
    rw [hph] at this
    cases this
  rw [hlen] at hn ⊢
  exact hn

/-- Rows that differ in every feature. -/
def DistinctFeatures (data : List (List R)) (m : Nat) : Prop :=
  ∀ i j f, i < data.length → j < data.length → f < m →
    coord (data.getD i []) f = coord (data.getD j []) f → i = j

theorem runLength_distinct {data : List (List R)} {m : Nat} (hdis : DistinctFeatures data m) {f : Nat} (hf : f < m)
    {x : Nat} (hx : x < data.length) {l : List Nat} (hl : ∀ q ∈ l, q < data.length) (hxl : x ∉ l) :
    runLength data f (coord (data.getD x []) f) l = 0 := by
  cases l with
  | nil => rfl
  | cons a t =>
    unfold runLength
    rw [if_neg]
    intro h
    have := hdis a x f (hl a List.mem_cons_self) hx hf h
    exact hxl (this ▸ List.mem_cons_self)

theorem nils_full {data : List (List R)} {m : Nat} {srt : Nat → List Nat → List Nat} (hs : SortsBy data srt)
    (hm : 0 < m) (hdis : DistinctFeatures data m) (p fuel : Nat) (rows : List Nat) (f : Nat) (hf : f < m)
    (hl : rows.length = 2 ^ (p + 2) - 1) (hfu : rows.length ≤ fuel) (hnd : rows.Nodup)
    (hlt : ∀ q ∈ rows, q < data.length) : (buildHandle data m srt fuel rows f).nils = 0 := by
  induction p generalizing fuel rows f with
  | zero =>
    cases fuel with
    | zero => rw [hl] at hfu; omega
    | succ fuel =>
      obtain ⟨hp, hsort⟩ := hs f rows
      have hlen := hp.length_eq
      unfold buildHandle
      simp only
      set d := srt f rows with hd
      have h3 : d.length = 3 := by rw [hlen, hl]; rfl
      have hrun : runLength data f (coord (data.getD (d.getD (d.length / 2) 0) []) f) (d.drop (d.length / 2 + 1)) = 0 := by
        refine runLength_distinct hdis hf (hlt _ (hp.mem_iff.1 ?_)) (fun q hq => hlt q (hp.mem_iff.1 (List.mem_of_mem_drop hq))) ?_
        · rw [List.getD_eq_getElem _ _ (by omega)]; exact List.getElem_mem _
        · rw [List.getD_eq_getElem _ _ (by omega)]
          have hndd : d.Nodup := hp.nodup_iff.2 hnd
          have e := List.drop_eq_getElem_cons (l := d) (i := d.length / 2) (by omega)
          have : (d.drop (d.length / 2)).Nodup := hndd.sublist (List.drop_sublist _ _)
          rw [e] at this
          exact (List.nodup_cons.1 this).1
      rw [hrun, h3]
      rfl
  | succ p ih =>
    cases fuel with
    | zero =>
      have := Nat.one_lt_two_pow (n := p + 1 + 2) (by omega)
      omega
    | succ fuel =>
      obtain ⟨hp, hsort⟩ := hs f rows
      have hlen := hp.length_eq
      unfold buildHandle
      simp only
      set d := srt f rows with hd
      have h4 : 4 ≤ 2 ^ (p + 2) := by
        have : 2 ^ 2 ≤ 2 ^ (p + 2) := Nat.pow_le_pow_right (by omega) (by omega)
        omega
      have hL : d.length = 2 * 2 ^ (p + 2) - 1 := by rw [hlen, hl, show p + 1 + 2 = (p + 2) + 1 by omega, Nat.pow_succ]; omega
      have hndd : d.Nodup := hp.nodup_iff.2 hnd
      have hrun : runLength data f (coord (data.getD (d.getD (d.length / 2) 0) []) f) (d.drop (d.length / 2 + 1)) = 0 := by
        refine runLength_distinct hdis hf (hlt _ (hp.mem_iff.1 ?_)) (fun q hq => hlt q (hp.mem_iff.1 (List.mem_of_mem_drop hq))) ?_
        · rw [List.getD_eq_getElem _ _ (by omega)]; exact List.getElem_mem _
        · rw [List.getD_eq_getElem _ _ (by omega)]
          have e := List.drop_eq_getElem_cons (l := d) (i := d.length / 2) (by omega)
          have : (d.drop (d.length / 2)).Nodup := hndd.sublist (List.drop_sublist _ _)
          rw [e] at this
          exact (List.nodup_cons.1 this).1
      rw [hrun, Nat.add_zero]
      have hmid : d.length / 2 = 2 ^ (p + 2) - 1 := by omega
      rw [hmid, if_neg (by omega), if_neg (by omega), if_pos (by omega), KNode.nils]
      have hm1 : (f + 1) % m < m := Nat.mod_lt _ hm
      rw [ih fuel (d.take (2 ^ (p + 2) - 1)) _ hm1 (by rw [List.length_take]; omega) (by rw [List.length_take]; omega)
          (hndd.sublist (List.take_sublist _ _)) (fun q hq => hlt q (hp.mem_iff.1 (List.mem_of_mem_take hq))),
        ih fuel (d.drop (2 ^ (p + 2) - 1 + 1)) _ hm1 (by rw [List.length_drop]; omega) (by rw [List.length_drop]; omega)
          (hndd.sublist (List.drop_sublist _ _)) (fun q hq => hlt q (hp.mem_iff.1 (List.mem_of_mem_drop hq)))]

/-- The search returns the `k` nearest rows, for every `k` and target, when the number of rows is one less
than a power of two and no two rows agree in a feature: then every place in the tree holds a row. -/
theorem C42_full_tree_partial (data : List (List R)) (m p : Nat) (srt : Nat → List Nat → List Nat)
    (root : KNode R) (k : Nat) (dist : List R → List R → R) (target : List R) (hs : SortsBy data srt)
    (hbuild : kdBuild srt data = Res.ok root) (hd : AxisBound dist) (hrect : Rectangular data m)
    (ht : target.length = m) (hk : 0 < k) (hkn : k ≤ data.length) (hsize : data.length = 2 ^ p - 1)
    (hdis : DistinctFeatures data m) :
    ∃ out, kdSearch data root k dist target = Res.ok out ∧ Nearest data dist target k out := by
  obtain ⟨H, j, rest, hj, hlen, hout, hok, hperm, hbest⟩ := kdSearch_out hs hbuild hd hrect ht hk hkn
  have hnil : root.nils = 0 := by
    unfold kdBuild at hbuild
    split at hbuild
    · cases hbuild
    · rename_i a l
      split at hbuild
      · split at hbuild
        · rw [Res.ok.injEq] at hbuild
          rw [← hbuild]; rfl
        · rename_i he
          split at hbuild
          · cases hbuild
          · rename_i hz
            rw [Res.ok.injEq] at hbuild
            rw [← hbuild]
            have hm : a.length = m := hrect a List.mem_cons_self
            have hne : l ≠ [] := by intro e; rw [e] at he; simp at he
            have hpos := List.length_pos_iff.2 hne
            rw [List.length_cons] at hsize
            obtain ⟨p', rfl⟩ : ∃ p', p = p' + 2 := by
              refine ⟨p - 2, ?_⟩
              by_contra hlt
              have : p = 0 ∨ p = 1 := by omega
              rcases this with rfl | rfl <;> omega
            refine nils_full hs (by omega) (hm ▸ hdis) p' _ _ 0 (by omega) ?_ (by rw [List.length_range])
              List.nodup_range (fun q hq => List.mem_range.1 hq)
            rw [List.length_range, List.length_cons, hsize]
      · cases hbuild
  refine ⟨_, hout, ?_⟩
  have := nearest_of_real hok hperm hbest (Or.inl (by omega))
  rw [hlen] at this ⊢
  exact this

/-- A search for more rows than there are, or for a target of the wrong size, fails with an error. -/
theorem C42_errors (data : List (List R)) (root : KNode R) (k : Nat) (dist : List R → List R → R) (target : List R)
    (m : Nat) (hne : data ≠ []) (hrect : Rectangular data m) (h : data.length < k ∨ target.length ≠ m) :
    kdSearch data root k dist target = Res.err := by
  unfold kdSearch
  by_cases hk : k > data.length
  · rw [if_pos hk]
  · rw [if_neg hk]
    rcases h with h | h
    · exact absurd h hk
    · obtain ⟨a, l, rfl⟩ := List.exists_cons_of_ne_nil hne
      simp only
      rw [if_pos]
      rw [hrect a List.mem_cons_self]
      exact h

/-- The sum of the differences in all features. -/
def manhattanInt (x y : List Int) : Int := (List.zipWith (fun a b => |a - b|) x y).sum

theorem manhattanInt_axis : AxisBound manhattanInt where
  coord_le x y f hl hf := by
    have h1 : coord x f = x[f] := by unfold coord; rw [List.getElem?_eq_getElem hf]; rfl
    have h2 : coord y f = y[f]'(hl ▸ hf) := by unfold coord; rw [List.getElem?_eq_getElem (hl ▸ hf)]; rfl
    have h3 : manhattanInt [coord x f] [coord y f] = |x[f] - y[f]'(hl ▸ hf)| := by
      rw [h1, h2]; simp [manhattanInt]
    rw [h3]
    unfold manhattanInt
    refine List.single_le_sum ?_ _ ?_
    · intro a ha
      obtain ⟨i, hi, rfl⟩ := List.getElem_of_mem ha
      rw [List.getElem_zipWith]
      exact abs_nonneg _
    · have hz : f < (List.zipWith (fun a b => |a - b|) x y).length := by rw [List.length_zipWith]; omega
      have := List.getElem_mem hz
      rw [List.getElem_zipWith] at this
      exact this
  between a b c h := by
    simp only [manhattanInt, List.zipWith_cons_cons, List.zipWith_nil_right, List.sum_cons, List.sum_nil, add_zero]
    rcases h with ⟨h1, h2⟩ | ⟨h1, h2⟩
    · rw [abs_of_nonpos (by omega), abs_of_nonpos (by omega)]; omega
    · rw [abs_of_nonneg (by omega), abs_of_nonneg (by omega)]; omega

/-- Two rows, at 1 and 2, and the target 0: the search for two rows returns row 0 twice, once with the
distance 0 of the origin. -/
theorem C42_search_witness :
    (kdBuild (kdSort [[1], [2]]) ([[1], [2]] : List (List Int))).bind (fun root =>
      kdSearch [[1], [2]] root 2 manhattanInt [0]) = Res.ok [(0, 0), (0, 1)] := by decide +kernel

/-- So the search does not always return the nearest rows. -/
theorem C42_search_fails : ¬ SearchFindsNearest Int := by
  intro h
  have hw := C42_search_witness
  obtain ⟨root, hb, hs⟩ := Res.bind_eq_ok.1 hw
  obtain ⟨out, ho, hn⟩ := h [[1], [2]] 1 _ root 2 manhattanInt [0] (kdSort_sorts _) hb manhattanInt_axis
    (by intro v hv; simp at hv; rcases hv with rfl | rfl <;> rfl) rfl (by omega) (by decide)
  rw [hs, Res.ok.injEq] at ho
  have hd := hn.distinct
  rw [← ho] at hd
  exact absurd hd (by decide)

/-- Asking for no row at all is an index panic on a tree of one row. -/
theorem C42_zero_panics : kdSearch [[1]] (KNode.leaf [1] 0) 0 manhattanInt [0] = Res.panic := by decide +kernel

/-- Five points; the two nearest to (9, 8), both closer than the origin: the hypotheses of
`C42_search_partial` hold. -/
example : (kdBuild (kdSort [[2, 3], [5, 4], [9, 6], [5, 7], [5, 0]])
      ([[2, 3], [5, 4], [9, 6], [5, 7], [5, 0]] : List (List Int))).bind (fun root =>
      kdSearch [[2, 3], [5, 4], [9, 6], [5, 7], [5, 0]] root 2 manhattanInt [9, 8]) = Res.ok [(2, 2), (3, 5)] ∧
    2 ≤ (List.range 5).countP (fun q => decide (manhattanInt [9, 8]
      (([[2, 3], [5, 4], [9, 6], [5, 7], [5, 0]] : List (List Int)).getD q []) <
      manhattanInt [9, 8] (List.replicate 2 0))) := by decide +kernel

/-- Three points without ties: the hypotheses of `C42_full_tree_partial` hold, the origin is the target. -/
example : (kdBuild (kdSort [[2], [5], [9]]) ([[2], [5], [9]] : List (List Int))).bind (fun root =>
      kdSearch [[2], [5], [9]] root 3 manhattanInt [0]) = Res.ok [(0, 2), (1, 5), (2, 9)] ∧
    (∀ i < 3, ∀ j < 3, coord (([[2], [5], [9]] : List (List Int)).getD i []) 0 =
      coord (([[2], [5], [9]] : List (List Int)).getD j []) 0 → i = j) := by decide +kernel

end Golearn
