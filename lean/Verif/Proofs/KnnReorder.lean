import Verif.Spec.SaveKnn
import Verif.Proofs.KnnSearch
import Verif.Proofs.SaveGrid

/-! # Lemmas: nearest neighbours in a table whose rows have been renumbered -/

namespace Golearn

/-! ## Rows found by the k-d tree are rows of the data -/

section
variable {R : Type} [LinearOrder R] [Zero R]

theorem extractMax_mem {t : Heap R} {x : HNode R} (h : x ∈ t.extractMax) : x ∈ t := by
  unfold Heap.extractMax at h
  split at h
  · exact h
  · rename_i y hy
    have h1 := List.dropLast_subset _ ((Heap.siftDown_perm _ _ _).subset h)
    rcases List.mem_or_eq_of_mem_set h1 with h2 | rfl
    · exact h2
    · exact List.mem_of_getLast? hy

theorem insert_row {t : Heap R} {v : List R} {len : R} {row : Nat} {x : HNode R} (h : x ∈ t.insert v len row) :
    x ∈ t ∨ x.row = row := by
  rcases List.mem_cons.1 ((Heap.insert_perm t v len row).subset h) with rfl | h
  · exact Or.inr rfl
  · exact Or.inl h

/-- All rows in the heap are below `n`. -/
def HeapIn (n : Nat) (t : Heap R) : Prop := ∀ x ∈ t, x.row < n

theorem HeapIn.insert {n : Nat} {t : Heap R} (h : HeapIn n t) {v : List R} {len : R} {row : Nat} (hr : row < n) :
    HeapIn n (t.insert v len row) := by
  intro x hx
  rcases insert_row hx with hx | hx
  · exact h x hx
  · rw [hx]; exact hr

theorem HeapIn.extract {n : Nat} {t : Heap R} (h : HeapIn n t) : HeapIn n t.extractMax := fun x hx => h x (extractMax_mem hx)

theorem HeapIn.offer {n k : Nat} {t : Heap R} (h : HeapIn n t) {v : List R} {len : R} {row : Nat} (hr : row < n) :
    HeapIn n (offer k t v len row) := by
  unfold Golearn.offer
  split
  · exact h.insert hr
  · split
    · exact h.extract.insert hr
    · exact h

variable {n k : Nat} {dist : List R → List R → R} {x : List R}

theorem searchAll_in (hn : 0 < n) : ∀ (node : KNode R), (∀ q ∈ node.rows, q < n) → ∀ h : Heap R, HeapIn n h →
    HeapIn n (searchAllNodes k dist x h node)
  | .leaf v r, hr, h, hh => hh.offer (hr r (by simp [KNode.rows]))
  | .nil, _, h, hh => hh.offer hn
  | .split f v r left right, hr, h, hh => by
    refine searchAll_in hn right (fun q hq => hr q (by simp [KNode.rows, hq])) _ ?_
    refine searchAll_in hn left (fun q hq => hr q (by simp [KNode.rows, hq])) _ ?_
    exact hh.offer (hr r (by simp [KNode.rows]))

theorem searchHandle_in (hn : 0 < n) : ∀ (node : KNode R), (∀ q ∈ node.rows, q < n) → ∀ h : Heap R, HeapIn n h →
    HeapIn n (searchHandle k dist x h node)
  | .leaf v r, hr, h, hh => hh.insert (hr r (by simp [KNode.rows]))
  | .nil, _, h, hh => hh
  | .split f v r left right, hr, h, hh => by
    have hl : ∀ q ∈ left.rows, q < n := fun q hq => hr q (by simp [KNode.rows, hq])
    have hR : ∀ q ∈ right.rows, q < n := fun q hq => hr q (by simp [KNode.rows, hq])
    have hv : r < n := hr r (by simp [KNode.rows])
    have h1 := searchHandle_in hn left hl h hh
    have h2 := searchHandle_in hn right hR h hh
    have key : ∀ (t : Heap R) (other : KNode R), HeapIn n t → (∀ q ∈ other.rows, q < n) →
        HeapIn n (if k > t.length then searchAllNodes k dist x (t.insert v (dist x v) r) other
          else if t.maximum.len > dist x v then searchAllNodes k dist x (t.extractMax.insert v (dist x v) r) other
          else if t.maximum.len > dist [coord x f] [coord v f] then searchAllNodes k dist x t other
          else t) := by
      intro t other hc ho
      split
      · exact searchAll_in hn _ ho _ (hc.insert hv)
      · split
        · exact searchAll_in hn _ ho _ (hc.extract.insert hv)
        · split
          · exact searchAll_in hn _ ho _ hc
          · exact hc
    rw [searchHandle]
    by_cases hd : coord x f ≤ coord v f
    · simp only [hd, decide_true, if_true]
      exact key _ _ h1 hR
    · simp only [hd, decide_false, Bool.false_eq_true, if_false]
      exact key _ _ h2 hl

theorem drainHeap_in (hn : 0 < n) : ∀ (fuel : Nat) (h : Heap R) (i : Nat) (out res : List (Nat × R)), HeapIn n h →
    (∀ p ∈ out, p.1 < n) → drainHeap fuel h i out = Res.ok res → ∀ p ∈ res, p.1 < n
  | 0, h, i, out, res, _, ho, e => by
    simp only [drainHeap, Res.ok.injEq] at e
    exact e ▸ ho
  | fuel + 1, h, i, out, res, hh, ho, e => by
    unfold drainHeap at e
    split at e
    · simp only [Res.ok.injEq] at e
      exact e ▸ ho
    · split at e
      · cases e
      · refine drainHeap_in hn fuel _ _ _ res hh.extract ?_ e
        intro p hp
        rcases List.mem_or_eq_of_mem_set hp with hp | rfl
        · exact ho p hp
        · show h.maximum.row < n
          cases h with
          | nil => exact hn
          | cons a t => exact hh a List.mem_cons_self

theorem kdSearch_in {data : List (List R)} {srt : Nat → List Nat → List Nat} (hs : SortsBy data srt) {root : KNode R}
    (hb : kdBuild srt data = Res.ok root) {out : List (Nat × R)} (h : kdSearch data root k dist x = Res.ok out) :
    ∀ p ∈ out, p.1 < data.length := by
  have hrows := (kdBuild_spec hs hb).1
  have hlt : ∀ q ∈ root.rows, q < data.length := fun q hq => List.mem_range.1 (hrows.mem_iff.1 hq)
  unfold kdSearch at h
  split at h
  · cases h
  · cases data with
    | nil => cases hb
    | cons r rs =>
      dsimp only at h
      split at h
      · cases h
      · refine drainHeap_in (by simp) _ _ _ _ out (searchHandle_in (by simp) root hlt [] (by intro x hx; cases hx)) ?_ h
        intro p hp
        rw [List.eq_of_mem_replicate hp]
        simp
end

/-! ## Renumbering -/

section
variable {order : List Nat} {n : Nat}

theorem rowOf_lt (ho : order.Perm (List.range n)) {i : Nat} (hi : i < n) :
    ∃ h : i < order.length, rowOf order i = order[i] := by
  have hl : order.length = n := by rw [ho.length_eq, List.length_range]
  exact ⟨by omega, by simp [rowOf, hl, hi]⟩

theorem rowOf_in (ho : order.Perm (List.range n)) {i : Nat} (hi : i < n) : rowOf order i < n := by
  obtain ⟨h, e⟩ := rowOf_lt ho hi
  rw [e]
  exact List.mem_range.1 (ho.subset (List.getElem_mem h))

theorem rowPos_rowOf (ho : order.Perm (List.range n)) (i : Nat) : rowPos order (rowOf order i) = i := by
  have hl : order.length = n := by rw [ho.length_eq, List.length_range]
  have hnd : order.Nodup := ho.nodup_iff.2 List.nodup_range
  by_cases hi : i < n
  · obtain ⟨h, e⟩ := rowOf_lt ho hi
    rw [e, rowPos, if_pos (List.getElem_mem h)]
    exact hnd.idxOf_getElem i h
  · have e : rowOf order i = i := by
      rw [rowOf, List.getD_eq_getElem?_getD, List.getElem?_eq_none (by omega)]; rfl
    rw [e, rowPos, if_neg]
    intro h
    exact hi (List.mem_range.1 (ho.subset h))

theorem rowOf_rowPos (ho : order.Perm (List.range n)) (r : Nat) : rowOf order (rowPos order r) = r := by
  have hl : order.length = n := by rw [ho.length_eq, List.length_range]
  unfold rowPos
  split
  · rename_i h
    have := List.idxOf_lt_length_iff.2 h
    rw [rowOf, List.getD_eq_getElem?_getD, List.getElem?_eq_getElem this]
    simp
  · rename_i h
    have : ¬ r < order.length := by
      intro hr
      exact h (ho.symm.subset (List.mem_range.2 (by omega)))
    rw [rowOf, List.getD_eq_getElem?_getD, List.getElem?_eq_none (by omega)]; rfl

theorem rowOf_inj (ho : order.Perm (List.range n)) {i j : Nat} (h : rowOf order i = rowOf order j) : i = j := by
  rw [← rowPos_rowOf ho i, h, rowPos_rowOf ho j]

theorem order_eq (ho : order.Perm (List.range n)) : order = (List.range n).map (rowOf order) := by
  have hl : order.length = n := by rw [ho.length_eq, List.length_range]
  apply List.ext_getElem
  · simp [hl]
  · intro i h1 h2
    simp [rowOf, h1]

/-- A map whose keys have been renumbered. -/
def renumber {V : Type} (order : List Nat) (m : GoMap Nat V) : GoMap Nat V := m.map fun p => (rowOf order p.1, p.2)

theorem renumber_get {V : Type} (ho : order.Perm (List.range n)) (m : GoMap Nat V) (i : Nat) :
    (renumber order m).get? (rowOf order i) = m.get? i := by
  induction m with
  | nil => rfl
  | cons p m ih =>
    have : (rowOf order p.1 = rowOf order i) = (p.1 = i) := propext ⟨fun h => rowOf_inj ho h, fun h => by rw [h]⟩
    obtain ⟨k, v⟩ := p
    simp only [renumber, List.map_cons, GoMap.get?] at ih ⊢
    simp only [this, ih]

theorem renumber_set {V : Type} (ho : order.Perm (List.range n)) (m : GoMap Nat V) (i : Nat) (v : V) :
    (renumber order m).set (rowOf order i) v = renumber order (m.set i v) := by
  induction m with
  | nil => rfl
  | cons p m ih =>
    have : (rowOf order p.1 = rowOf order i) = (p.1 = i) := propext ⟨fun h => rowOf_inj ho h, fun h => by rw [h]⟩
    obtain ⟨k, w⟩ := p
    simp only [renumber, List.map_cons, GoMap.set] at ih ⊢
    simp only [this, ih]
    split <;> rfl

theorem renumber_foldl {V : Type} (ho : order.Perm (List.range n)) (f : Nat → V) (l : List Nat) (m : GoMap Nat V) :
    (l.map (rowOf order)).foldl (fun m r => m.set r (f (rowPos order r))) (renumber order m) =
      renumber order (l.foldl (fun m i => m.set i (f i)) m) := by
  induction l generalizing m with
  | nil => rfl
  | cons i l ih =>
    simp only [List.map_cons, List.foldl_cons, rowPos_rowOf ho, renumber_set ho]
    exact ih _

end

/-! ## Two computations that correspond -/

/-- Two outcomes correspond. -/
inductive SimRes {α β : Type} (R : α → β → Prop) : Res α → Res β → Prop
  | ok {a : α} {b : β} : R a b → SimRes R (.ok a) (.ok b)
  | err : SimRes R .err .err
  | panic : SimRes R .panic .panic

theorem mapOver_sim {σ σ' : Type} {vals : Nat → Res (List Bytes)} {cb : σ → List Bytes → Nat → Res (σ × Ctl)}
    {cb' : σ' → List Bytes → Nat → Res (σ' × Ctl)} {R : σ → σ' → Prop}
    (h : ∀ s s' v r, R s s' → SimRes (fun p q => R p.1 q.1 ∧ p.2 = q.2) (cb s v r) (cb' s' v r)) (order : List Nat) {s : σ} {s' : σ'}
    (hs : R s s') : SimRes (fun p q => R p.1 q.1 ∧ p.2 = q.2) (mapOver vals cb s order) (mapOver vals cb' s' order) := by
  induction order generalizing s s' with
  | nil => exact .ok ⟨hs, rfl⟩
  | cons r rs ih =>
    simp only [mapOver]
    cases vals r with
    | err => exact .err
    | panic => exact .panic
    | ok v =>
      simp only [Res.bind_ok]
      have := h s s' v r hs
      revert this
      generalize cb s v r = x
      generalize cb' s' v r = y
      intro this
      cases this with
      | err => exact .err
      | panic => exact .panic
      | @ok p q hpq =>
        obtain ⟨p, c⟩ := p
        obtain ⟨q, c'⟩ := q
        obtain ⟨h1, h2⟩ := hpq
        dsimp only at h1 h2
        subst h2
        cases c with
        | cont => exact ih h1
        | stop => exact .ok ⟨h1, rfl⟩
        | error => exact .ok ⟨h1, rfl⟩

section
variable {R : Type} [LinearOrder R] [Zero R]

/-- The loop over the rows to predict, with searches and votes that correspond. -/
theorem knnLoop_sim {σ σ' τ : Type} {Rs : σ → σ' → Prop} {fo : FloatOps} {parse : String → Option U64} {val : U64 → R}
    {search : Nat → List R → σ → Res (σ × List (Nat × R))} {search' : Nat → List R → σ' → Res (σ' × List (Nat × R))}
    {votes votes' : Nat → List (Nat × R) → τ → Res (τ × String)}
    (h : ∀ row x s s', Rs s s' → SimRes (fun p q => Rs p.1 q.1 ∧ ∀ v, votes row p.2 v = votes' row q.2 v)
      (search row x s) (search' row x s')) (what : Grid) (ws : List Spec) (order : List Nat) (ret : Dense) (v0 : τ) {s0 : σ} {s0' : σ'}
    (h0 : Rs s0 s0') :
    (keepState (what.mapOverRows ws order (knnCallback fo parse val search votes) ⟨ret, s0, v0⟩) ⟨ret, s0, v0⟩).map KnnState.ret =
      (keepState (what.mapOverRows ws order (knnCallback fo parse val search' votes') ⟨ret, s0', v0⟩) ⟨ret, s0', v0⟩).map KnnState.ret := by
  unfold Grid.mapOverRows
  cases what.mapPrep ws with
  | err => rfl
  | panic => rfl
  | ok u =>
    simp only [Res.bind_ok]
    have main := mapOver_sim (vals := what.rowVals ws) (cb := knnCallback fo parse val search votes)
      (cb' := knnCallback fo parse val search' votes')
      (R := fun (a : KnnState σ τ) (b : KnnState σ' τ) => a.ret = b.ret ∧ a.votes = b.votes ∧ Rs a.search b.search) (by
        rintro ⟨ret, s, v⟩ ⟨ret', s', v'⟩ vals row ⟨e1, e2, e3⟩
        dsimp only at e1 e2 e3
        subst e1 e2
        unfold knnCallback
        cases readRow val vals with
        | err => exact .err
        | panic => exact .panic
        | ok x =>
          simp only [Res.bind_ok]
          have := h row x s s' e3
          revert this
          generalize search row x s = a
          generalize search' row x s' = b
          intro this
          cases this with
          | err => exact .ok ⟨⟨rfl, rfl, e3⟩, rfl⟩
          | panic => exact .panic
          | @ok p q hpq =>
            dsimp only
            rw [hpq.2 v]
            cases votes' row q.2 v with
            | err => exact .err
            | panic => exact .panic
            | ok w =>
              simp only [Res.bind_ok]
              cases setClass fo parse ret row w.2 with
              | err => exact .err
              | panic => exact .panic
              | ok d => exact .ok ⟨⟨rfl, rfl, hpq.1⟩, rfl⟩) order
      (s := ⟨ret, s0, v0⟩) (s' := ⟨ret, s0', v0⟩) ⟨rfl, rfl, h0⟩
    revert main
    generalize mapOver (what.rowVals ws) (knnCallback fo parse val search votes) ⟨ret, s0, v0⟩ order = a
    generalize mapOver (what.rowVals ws) (knnCallback fo parse val search' votes') ⟨ret, s0', v0⟩ order = b
    intro main
    cases main with
    | err => rfl
    | panic => rfl
    | ok hpq =>
      simp only [keepState, Res.map_ok]
      rw [hpq.1.1]

end

end Golearn
