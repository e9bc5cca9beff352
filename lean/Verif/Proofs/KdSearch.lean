import Verif.Props.C40
import Verif.Proofs.KdTree

/-! # Searching the k-d tree -/

namespace Golearn

variable {R : Type} [LinearOrder R] [Zero R]

/-- The heap holds the `k` best of the entries `S`. -/
def Best (k : Nat) (H : Heap R) (S : List (HNode R)) : Prop :=
  Heap.OK H ∧ ∃ rest, (H ++ rest).Perm S ∧ H.length = min k S.length ∧ ∀ x ∈ rest, ∀ y ∈ H, y.len ≤ x.len

theorem Best.perm {k : Nat} {H : Heap R} {S S' : List (HNode R)} (h : Best k H S) (hp : S.Perm S') :
    Best k H S' := by
  obtain ⟨h1, rest, h2, h3, h4⟩ := h
  exact ⟨h1, rest, h2.trans hp, by rw [← hp.length_eq]; exact h3, h4⟩

theorem Best.insert {k : Nat} {H : Heap R} {S : List (HNode R)} (h : Best k H S) (hlt : H.length < k)
    (v : List R) (l : R) (r : Nat) : Best k (H.insert v l r) (⟨v, l, r⟩ :: S) := by
  obtain ⟨h1, rest, h2, h3, h4⟩ := h
  have hS : H.length = S.length := by omega
  have hrest : rest = [] := by
    have := h2.length_eq
    rw [List.length_append] at this
    exact List.length_eq_zero_iff.1 (by omega)
  subst hrest
  rw [List.append_nil] at h2
  refine ⟨Heap.insert_ok h1 v l r, [], ?_, ?_, fun x hx => absurd hx List.not_mem_nil⟩
  · rw [List.append_nil]
    exact (Heap.insert_perm H v l r).trans (h2.cons _)
  · rw [(Heap.insert_perm H v l r).length_eq, List.length_cons, List.length_cons]
    omega

theorem Best.replace {k : Nat} (hk : 0 < k) {H : Heap R} {S : List (HNode R)} (h : Best k H S)
    (hge : k ≤ H.length) (v : List R) (l : R) (r : Nat) (hlt : l < H.maximum.len) :
    Best k (H.extractMax.insert v l r) (⟨v, l, r⟩ :: S) := by
  obtain ⟨h1, rest, h2, h3, h4⟩ := h
  have hne : H ≠ [] := by intro e; rw [e] at hge; simp at hge; omega
  obtain ⟨e1, e2⟩ := Heap.extract_spec h1 hne
  have p1 := Heap.insert_perm H.extractMax v l r
  refine ⟨Heap.insert_ok e1 v l r, H.maximum :: rest, ?_, ?_, ?_⟩
  · refine ((p1.append_right _).trans ?_)
    rw [List.cons_append]
    refine List.Perm.cons _ ?_
    refine List.perm_middle.trans ?_
    rw [← List.cons_append]
    exact (e2.symm.append_right _).trans h2
  · have := e2.length_eq
    rw [List.length_cons] at this
    rw [p1.length_eq, List.length_cons, List.length_cons]
    omega
  · intro x hx y hy
    have hyle : y.len ≤ H.maximum.len := by
      rcases List.mem_cons.1 (p1.mem_iff.1 hy) with rfl | hy
      · exact hlt.le
      · exact Heap.le_maximum h1 (e2.mem_iff.2 (List.mem_cons_of_mem _ hy))
    rcases List.mem_cons.1 hx with rfl | hx
    · exact hyle
    · exact hyle.trans (h4 x hx _ (Heap.maximum_mem hne))

theorem Best.skip {k : Nat} {H : Heap R} {S T : List (HNode R)} (h : Best k H S)
    (hge : k ≤ H.length) (hT : ∀ x ∈ T, H.maximum.len ≤ x.len) : Best k H (T ++ S) := by
  obtain ⟨h1, rest, h2, h3, h4⟩ := h
  refine ⟨h1, T ++ rest, ?_, ?_, ?_⟩
  · refine List.Perm.trans ?_ (h2.append_left T)
    rw [← List.append_assoc, ← List.append_assoc]
    exact List.perm_append_comm.append_right _
  · rw [List.length_append]; omega
  · intro x hx y hy
    rcases List.mem_append.1 hx with hx | hx
    · exact (Heap.le_maximum h1 hy).trans (hT x hx)
    · exact h4 x hx y hy

theorem Best.offer {k : Nat} (hk : 0 < k) {H : Heap R} {S : List (HNode R)} (h : Best k H S)
    (v : List R) (l : R) (r : Nat) : Best k (offer k H v l r) (⟨v, l, r⟩ :: S) := by
  unfold Golearn.offer
  split
  · exact h.insert (by assumption) v l r
  · rename_i hge
    split
    · exact h.replace hk (by omega) v l r (by assumption)
    · rename_i hlt
      refine Best.skip (T := [⟨v, l, r⟩]) h (by omega) ?_
      intro x hx
      rw [List.mem_singleton] at hx
      subst hx
      exact not_lt.1 hlt

/-- The entry of a row. -/
def rowEntry (data : List (List R)) (dist : List R → List R → R) (target : List R) (r : Nat) : HNode R :=
  ⟨data.getD r [], dist target (data.getD r []), r⟩

/-- The entry that is made from a node without a row. -/
def phantom (dist : List R → List R → R) (target : List R) : HNode R :=
  ⟨[], dist target (List.replicate target.length 0), 0⟩

/-- How many places in a tree hold no row. -/
def KNode.nils : KNode R → Nat
  | .leaf _ _ => 0
  | .nil => 1
  | .split _ _ _ left right => left.nils + right.nils

variable {data : List (List R)} {dist : List R → List R → R} {target : List R} {m : Nat}

theorem searchAll_best {k : Nat} (hk : 0 < k) (n : KNode R) (hn : n.Separates data m) {H : Heap R}
    {S : List (HNode R)} (h : Best k H S) :
    Best k (searchAllNodes k dist target H n)
      (n.rows.map (rowEntry data dist target) ++ (List.replicate n.nils (phantom dist target) ++ S)) := by
  induction n generalizing H S with
  | leaf v r =>
    have e : v = data.getD r [] := hn
    subst e
    exact h.offer hk _ _ _
  | nil => exact h.offer hk _ _ _
  | split f v r left right ihl ihr =>
    obtain ⟨e, _, _, _, hl, hr⟩ := hn
    subst e
    have h1 := ihr hr (ihl hl (h.offer hk (data.getD r []) (dist target (data.getD r [])) r))
    refine Best.perm h1 ?_
    rw [KNode.rows, KNode.nils, List.map_cons, List.map_append, List.replicate_add]
    simp only [List.perm_iff_count, List.count_append, List.count_cons, List.cons_append, rowEntry]
    intro a
    omega

theorem rows_lt_of_perm {root : KNode R} {n : Nat} (h : root.rows.Perm (List.range n)) :
    ∀ q ∈ root.rows, q < n := fun q hq => List.mem_range.1 (h.mem_iff.1 hq)

theorem searchHandle_best (hd : AxisBound dist) (hrect : Rectangular data m) (ht : target.length = m)
    {k : Nat} (hk : 0 < k) (n : KNode R) (hn : n.Separates data m) (hlt : ∀ q ∈ n.rows, q < data.length) :
    ∃ j, j ≤ n.nils ∧ Best k (searchHandle k dist target [] n)
      (n.rows.map (rowEntry data dist target) ++ List.replicate j (phantom dist target)) := by
  have empty : Best k ([] : Heap R) [] :=
    ⟨fun c _ hc => absurd hc (Nat.not_lt_zero c), [], List.Perm.refl _, by simp, fun x hx => absurd hx List.not_mem_nil⟩
  have hlen : ∀ q, q < data.length → (data.getD q []).length = m := by
    intro q hq
    rw [List.getD_eq_getElem _ _ hq]
    exact hrect _ (List.getElem_mem hq)
  induction n with
  | leaf v r =>
    have e : v = data.getD r [] := hn
    subst e
    refine ⟨0, Nat.le_refl _, ?_⟩
    exact empty.insert (by simpa using hk) _ _ _
  | nil => exact ⟨0, Nat.zero_le _, empty⟩
  | split f v r left right ihl ihr =>
    obtain ⟨e, hf, sl, sr, hl, hr⟩ := hn
    have hrlt : r < data.length := hlt r (by rw [KNode.rows]; exact List.mem_cons_self)
    have hll : ∀ q ∈ left.rows, q < data.length := fun q hq =>
      hlt q (by rw [KNode.rows]; exact List.mem_cons_of_mem _ (List.mem_append_left _ hq))
    have hrl : ∀ q ∈ right.rows, q < data.length := fun q hq =>
      hlt q (by rw [KNode.rows]; exact List.mem_cons_of_mem _ (List.mem_append_right _ hq))
    -- the side that is searched first, and the other side
    have key : ∀ near far : KNode R, far.Separates data m →
        (∀ q ∈ far.rows, q < data.length ∧
          ((coord target f ≤ coord v f ∧ coord v f ≤ coord (data.getD q []) f) ∨
          (coord (data.getD q []) f ≤ coord v f ∧ coord v f ≤ coord target f))) →
        (∃ j, j ≤ near.nils ∧ Best k (searchHandle k dist target [] near)
          (near.rows.map (rowEntry data dist target) ++ List.replicate j (phantom dist target))) →
        ∃ j, j ≤ near.nils + far.nils ∧ Best k
          (let h1 := searchHandle k dist target [] near
           if k > h1.length then searchAllNodes k dist target (h1.insert v (dist target v) r) far
           else if h1.maximum.len > dist target v then
             searchAllNodes k dist target (h1.extractMax.insert v (dist target v) r) far
           else if h1.maximum.len > dist [coord target f] [coord v f] then searchAllNodes k dist target h1 far
           else h1)
          (r :: (near.rows ++ far.rows) |>.map (rowEntry data dist target) |>.append
            (List.replicate j (phantom dist target))) := by
      rintro near far hfar hside ⟨j, hj, hb⟩
      have hv : rowEntry data dist target r = ⟨v, dist target v, r⟩ := by rw [e]; rfl
      simp only
      have goAll : ∀ H, Best k H (rowEntry data dist target r :: (near.rows.map (rowEntry data dist target) ++
          List.replicate j (phantom dist target))) →
          ∃ j, j ≤ near.nils + far.nils ∧ Best k (searchAllNodes k dist target H far)
          (r :: (near.rows ++ far.rows) |>.map (rowEntry data dist target) |>.append
            (List.replicate j (phantom dist target))) := by
        intro H hH
        refine ⟨j + far.nils, by omega, Best.perm (searchAll_best hk far hfar hH) ?_⟩
        show List.Perm _ (_ ++ _)
        rw [List.map_cons, List.map_append, List.replicate_add]
        simp only [List.perm_iff_count, List.count_append, List.count_cons, List.cons_append]
        intro a
        omega
      split
      · refine goAll _ ?_
        rw [hv]
        exact hb.insert (by assumption) _ _ _
      · rename_i hge
        rw [gt_iff_lt, not_lt] at hge
        split
        · refine goAll _ ?_
          rw [hv]
          exact hb.replace hk hge _ _ _ (by assumption)
        · rename_i hmax
          rw [gt_iff_lt, not_lt] at hmax
          have hb2 : Best k (searchHandle k dist target [] near)
              (rowEntry data dist target r :: (near.rows.map (rowEntry data dist target) ++
                List.replicate j (phantom dist target))) := by
            refine Best.skip (T := [rowEntry data dist target r]) hb hge ?_
            intro x hx
            rw [List.mem_singleton] at hx
            rw [hx, hv]
            exact hmax
          split
          · exact goAll _ hb2
          · rename_i hfar1
            rw [gt_iff_lt, not_lt] at hfar1
            refine ⟨j, by omega, ?_⟩
            refine Best.perm (Best.skip (T := far.rows.map (rowEntry data dist target)) hb2 hge ?_) ?_
            · intro x hx
              obtain ⟨q, hq, rfl⟩ := List.mem_map.1 hx
              obtain ⟨hq1, hq2⟩ := hside q hq
              refine hfar1.trans (le_trans (hd.between _ _ (coord (data.getD q []) f) ?_)
                (hd.coord_le target (data.getD q []) f (by rw [ht, hlen q hq1]) (by omega)))
              rcases hq2 with h | h
              · exact Or.inl h
              · exact Or.inr h
            · show List.Perm _ (_ ++ _)
              rw [List.map_cons, List.map_append]
              simp only [List.perm_iff_count, List.count_append, List.count_cons, List.cons_append]
              intro a
              omega
    rw [searchHandle]
    by_cases hdir : coord target f ≤ coord v f
    · simp only [hdir, decide_true, if_true]
      obtain ⟨j, hj, hb⟩ := key left right hr
        (fun q hq => ⟨hrl q hq, Or.inl ⟨hdir, (sr q hq).le⟩⟩) (ihl hl hll)
      exact ⟨j, hj, hb⟩
    · simp only [hdir, decide_false, Bool.false_eq_true, if_false]
      obtain ⟨j, hj, hb⟩ := key right left hl
        (fun q hq => ⟨hll q hq, Or.inr ⟨sl q hq, (not_le.1 hdir).le⟩⟩) (ihr hr hrl)
      refine ⟨j, by rw [KNode.nils]; omega, Best.perm hb ?_⟩
      show List.Perm (_ ++ _) (_ ++ _)
      rw [KNode.rows, List.map_cons, List.map_cons]
      exact (((List.perm_append_comm).map _).cons _).append_right _

theorem drainHeap_spec (fuel : Nat) (h : Heap R) (i : Nat) (out : List (Nat × R)) (hf : h.length < fuel)
    (hi : i = h.length) (ho : i ≤ out.length) (hok : Heap.OK h) :
    drainHeap fuel h i out =
      Res.ok (((drained h.length h).reverse.map fun x => (x.row, x.len)) ++ out.drop i) := by
  induction fuel generalizing h i out with
  | zero => omega
  | succ fuel ih =>
    unfold drainHeap
    by_cases he : h.isEmpty
    · rw [if_pos he]
      rw [List.isEmpty_iff] at he
      subst he
      have : i = 0 := by simpa using hi
      subst this
      rfl
    · rw [if_neg he]
      have hne : h ≠ [] := by intro e; rw [e] at he; simp at he
      obtain ⟨e1, e2⟩ := Heap.extract_spec hok hne
      have hl := e2.length_eq
      rw [List.length_cons] at hl
      obtain ⟨n, hn⟩ : ∃ n, h.length = n + 1 := ⟨h.extractMax.length, hl⟩
      rw [hn] at hi
      subst hi
      simp only
      have hlen : h.extractMax.length = n := by omega
      rw [ih h.extractMax n _ (by omega) hlen.symm (by rw [List.length_set]; omega) e1]
      rw [hlen, hn]
      congr 1
      rw [drained, List.reverse_cons, List.map_append, List.append_assoc]
      congr 1
      rw [List.drop_set, if_neg (Nat.lt_irrefl n), Nat.sub_self]
      rw [List.drop_eq_getElem_cons (by omega)]
      rfl

theorem kdSearch_out {srt : Nat → List Nat → List Nat} (hs : SortsBy data srt) {root : KNode R} (hbuild : kdBuild srt data = Res.ok root)
    (hd : AxisBound dist) (hrect : Rectangular data m) (ht : target.length = m) {k : Nat} (hk : 0 < k)
    (hkn : k ≤ data.length) :
    ∃ H j rest, j ≤ root.nils ∧ H.length = k ∧
      kdSearch data root k dist target = Res.ok ((drained H.length H).reverse.map fun x => (x.row, x.len)) ∧
      Heap.OK H ∧
      (H ++ rest).Perm ((List.range data.length).map (rowEntry data dist target) ++
        List.replicate j (phantom dist target)) ∧
      ∀ x ∈ rest, ∀ y ∈ H, y.len ≤ x.len := by
  obtain ⟨hrows, m', hrect', hsep⟩ := kdBuild_spec hs hbuild
  cases hdd : data with
  | nil => rw [hdd] at hkn; simp at hkn; omega
  | cons a l =>
    have hm : m' = m := by
      rw [← hrect a (by rw [hdd]; exact List.mem_cons_self), hrect' a (by rw [hdd]; exact List.mem_cons_self)]
    subst hm
    obtain ⟨j, hj, hok, rest, h2, h3, h4⟩ := searchHandle_best hd hrect ht hk root hsep (rows_lt_of_perm hrows)
    rw [← hdd]
    have hlen : (searchHandle k dist target [] root).length = k := by
      rw [h3, List.length_append, List.length_map, hrows.length_eq, List.length_range]
      omega
    refine ⟨searchHandle k dist target [] root, j, rest, hj, hlen, ?_, hok, h2.trans ((hrows.map _).append_right _), h4⟩
    unfold kdSearch
    rw [if_neg (by omega)]
    have ha : target.length = a.length := by rw [ht, hrect a (by rw [hdd]; exact List.mem_cons_self)]
    rw [hdd]
    simp only [ne_eq, ha, not_true_eq_false, if_false]
    rw [drainHeap_spec _ _ _ _ (by omega) hlen.symm (by simp) hok]
    simp

end Golearn
