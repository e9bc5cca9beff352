import Verif.Spec.Liblinear
import Mathlib.Algebra.Order.Field.Basic
import Mathlib.Tactic.Ring
import Mathlib.Algebra.BigOperators.Group.List.Basic
import Mathlib.Tactic.Linarith

/-! # Lemmas about liblinear's sparse vectors -/

namespace Golearn

section
variable {K : Type} [Field K] [LinearOrder K]

/-- The nodes of the entries a conversion keeps, counted from column `i`. -/
def sparse (keep : K → Prop) [DecidablePred keep] : List K → Nat → List (FNode K)
  | [], _ => []
  | x :: xs, i => if keep x then ⟨(i : Int) + 1, x⟩ :: sparse keep xs (i + 1) else sparse keep xs (i + 1)

omit [LinearOrder K] in
theorem sparse_length (keep : K → Prop) [DecidablePred keep] (xs : List K) (i : Nat) :
    (sparse keep xs i).length = xs.countP fun v => decide (keep v) := by
  induction xs generalizing i with
  | nil => rfl
  | cons x xs ih =>
    unfold sparse
    rw [List.countP_cons]
    split
    · next h => simp [ih, h]
    · next h => simp [ih, h]

omit [LinearOrder K] in
theorem sparse_index (keep : K → Prop) [DecidablePred keep] (xs : List K) (i : Nat) :
    ∀ nd ∈ sparse keep xs i, (i : Int) + 1 ≤ nd.index ∧ nd.index ≤ (i : Int) + xs.length := by
  induction xs generalizing i with
  | nil => intro nd h; cases h
  | cons x xs ih =>
    intro nd h
    unfold sparse at h
    split at h
    · rcases List.mem_cons.1 h with rfl | h
      · simp only [List.length_cons]; omega
      · have := ih _ _ h
        simp only [List.length_cons]; push_cast at this ⊢; omega
    · have := ih _ _ h
      simp only [List.length_cons]; push_cast at this ⊢; omega

omit [LinearOrder K] in
theorem sparse_sorted (keep : K → Prop) [DecidablePred keep] (xs : List K) (i : Nat) :
    ((sparse keep xs i).map FNode.index).Pairwise (· < ·) := by
  induction xs generalizing i with
  | nil => exact List.Pairwise.nil
  | cons x xs ih =>
    unfold sparse
    split
    · rw [List.map_cons, List.pairwise_cons]
      refine ⟨?_, ih _⟩
      intro v hv
      obtain ⟨nd, hnd, rfl⟩ := List.mem_map.1 hv
      have := (sparse_index keep xs (i + 1) nd hnd).1
      push_cast at this
      simp only
      omega
    · exact ih _

omit [LinearOrder K] in
theorem entry_cons (nd : FNode K) (nds : List (FNode K)) (j : Nat) :
    entry (nd :: nds) j = (if nd.index = (j : Int) + 1 then nd.value else 0) + entry nds j := by
  unfold entry
  rw [List.filter_cons]
  split <;> simp_all

omit [LinearOrder K] in
theorem entry_out (nds : List (FNode K)) (j : Nat) (h : ∀ nd ∈ nds, nd.index ≠ (j : Int) + 1) : entry nds j = 0 := by
  unfold entry
  rw [List.filter_eq_nil_iff.2]
  · rfl
  · intro nd hnd
    simpa using h nd hnd

omit [LinearOrder K] in
theorem entry_sparse (keep : K → Prop) [DecidablePred keep] (xs : List K) (i j : Nat) (hj : j < xs.length) :
    entry (sparse keep xs i) (i + j) = if keep (xs.getD j 0) then xs.getD j 0 else 0 := by
  induction xs generalizing i j with
  | nil => simp at hj
  | cons x xs ih =>
    have hout : entry (sparse keep xs (i + 1)) i = 0 := entry_out _ _ (fun nd hnd => by
      have := (sparse_index keep xs (i + 1) nd hnd).1
      push_cast at this
      omega)
    cases j with
    | zero =>
      unfold sparse
      by_cases h : keep x
      · simp [h, entry_cons, hout]
      · simp [h, hout]
    | succ j =>
      have hj' : j < xs.length := by simpa using hj
      have := ih (i + 1) j hj'
      have e : i + 1 + j = i + (j + 1) := by omega
      rw [e] at this
      unfold sparse
      by_cases h : keep x
      · rw [if_pos h, entry_cons, if_neg (by simp only; omega), this]
        simp
      · rw [if_neg h, this]
        simp

/-- What is kept represents the row in which everything else is 0. -/
theorem sparse_represents (keep : K → Prop) [DecidablePred keep] (xs : List K) :
    Represents (sparse keep xs 0) (xs.map fun v => if keep v then v else 0) := by
  refine ⟨sparse_sorted _ _ _, ?_, ?_⟩
  · intro nd hnd
    have := sparse_index keep xs 0 nd hnd
    simp only [List.length_map]
    push_cast at this
    omega
  · intro j hj
    rw [List.length_map] at hj
    have := entry_sparse keep xs 0 j hj
    rw [Nat.zero_add] at this
    rw [this]
    simp [List.getD_eq_getElem?_getD, List.getElem?_eq_getElem hj]

theorem sparse_nonzero (xs : List K) : Represents (sparse (fun v => v ≠ 0) xs 0) xs := by
  have := sparse_represents (fun v : K => v ≠ 0) xs
  have e : (xs.map fun v => if v ≠ 0 then v else 0) = xs := by
    conv_rhs => rw [← List.map_id xs]
    apply List.map_congr_left
    intro v _
    simp
    intro h; exact h.symm
  rwa [e] at this

theorem sparse_positive (xs : List K) : Represents (sparse (fun v => 0 < v) xs 0) (positivePart xs) := by
  have := sparse_represents (fun v : K => 0 < v) xs
  have e : (xs.map fun v => if 0 < v then v else 0) = positivePart xs := by
    unfold positivePart
    apply List.map_congr_left
    intro v _
    split
    · next h => rw [max_eq_left h.le]
    · next h => rw [max_eq_right (not_lt.1 h)]
  rwa [e] at this

/-! ## Writing nodes -/

omit [LinearOrder K] in
theorem storeNode_append (pre rest : List (FNode K)) (r nd : FNode K) :
    storeNode (pre ++ r :: rest) pre.length nd = Res.ok (pre ++ nd :: rest) := by
  unfold storeNode
  rw [if_pos (by simp)]
  simp

theorem vectorLoop_spec (xs : List K) (i : Nat) (pre rest : List (FNode K))
    (h : (sparse (fun v => 0 < v) xs i).length ≤ rest.length) :
    vectorLoop xs i (pre ++ rest) pre.length =
      Res.ok (pre ++ sparse (fun v => 0 < v) xs i ++ rest.drop (sparse (fun v => 0 < v) xs i).length,
        pre.length + (sparse (fun v => 0 < v) xs i).length) := by
  induction xs generalizing i pre rest with
  | nil => simp [vectorLoop, sparse]
  | cons x xs ih =>
    unfold vectorLoop sparse
    unfold sparse at h
    by_cases hx : 0 < x
    · rw [if_pos hx] at h ⊢
      rw [if_pos hx]
      cases rest with
      | nil => simp at h
      | cons r rest =>
        rw [storeNode_append, Res.bind_ok]
        have := ih (i + 1) (pre ++ [⟨(i : Int) + 1, x⟩]) rest (by simpa using h)
        rw [List.append_assoc, List.singleton_append] at this
        rw [List.length_append, List.length_singleton] at this
        rw [this]
        simp
        omega
    · rw [if_neg hx] at h ⊢
      rw [if_neg hx]
      exact ih (i + 1) pre rest h

omit [LinearOrder K] in
theorem readNodes_end (nds rest : List (FNode K)) (h : ∀ nd ∈ nds, nd.index ≠ -1) :
    readNodes (nds ++ ⟨-1, 0⟩ :: rest) = some nds := by
  induction nds with
  | nil => simp [readNodes]
  | cons nd nds ih =>
    rw [List.cons_append, readNodes, if_neg (h nd (by simp)), ih (fun x hx => h x (by simp [hx]))]
    rfl

omit [LinearOrder K] in
theorem sparse_not_end (keep : K → Prop) [DecidablePred keep] (xs : List K) (i : Nat) :
    ∀ nd ∈ sparse keep xs i, nd.index ≠ -1 := by
  intro nd hnd
  have := (sparse_index keep xs i nd hnd).1
  omega

theorem convertVector_spec (x : List K) :
    ∃ space, convertVector x 0 = Res.ok space ∧ readNodes space = some (sparse (fun v => 0 < v) x 0) := by
  have hl := sparse_length (fun v : K => 0 < v) x 0
  have h := vectorLoop_spec x 0 [] (List.replicate ((x.countP fun v => decide (0 < v)) + 2) FNode.zero)
    (by rw [hl, List.length_replicate]; omega)
  simp only [List.nil_append, List.length_nil, Nat.zero_add] at h
  unfold convertVector
  simp only
  rw [h, Res.bind_ok, if_neg (lt_irrefl _), Res.bind_ok]
  simp only
  rw [hl, List.drop_replicate]
  have e : (x.countP fun v => decide (0 < v)) + 2 - (x.countP fun v => decide (0 < v)) = 2 := by omega
  rw [e, ← hl]
  simp only [List.replicate_succ, List.replicate_zero]
  rw [storeNode_append]
  exact ⟨_, rfl, readNodes_end _ _ (sparse_not_end _ _ _)⟩

theorem featuresRow_spec (xs : List K) (j : Nat) (pre rest : List (FNode K))
    (h : (sparse (fun v => v ≠ 0) xs j).length ≤ rest.length) :
    featuresRow 0 xs j (pre ++ rest) pre.length =
      Res.ok (pre ++ sparse (fun v => v ≠ 0) xs j ++ rest.drop (sparse (fun v => v ≠ 0) xs j).length,
        pre.length + (sparse (fun v => v ≠ 0) xs j).length) := by
  induction xs generalizing j pre rest with
  | nil => simp [featuresRow, sparse]
  | cons x xs ih =>
    unfold featuresRow sparse
    unfold sparse at h
    by_cases hx : x ≠ 0
    · rw [if_pos hx] at h ⊢
      rw [if_pos hx]
      cases rest with
      | nil => simp at h
      | cons r rest =>
        rw [storeNode_append, Res.map_ok, Res.bind_ok, if_neg (lt_irrefl _), Res.bind_ok]
        have := ih (j + 1) (pre ++ [⟨(j : Int) + 1, x⟩]) rest (by simpa using h)
        rw [List.append_assoc, List.singleton_append] at this
        rw [List.length_append, List.length_singleton] at this
        rw [this]
        simp
        omega
    · rw [if_neg hx] at h ⊢
      rw [if_neg hx, Res.bind_ok, if_neg (lt_irrefl _), Res.bind_ok]
      exact ih (j + 1) pre rest h

/-- How many nodes the rows take. -/
def spaceFor (rows : List (List K)) : Nat := (rows.map fun r => (sparse (fun v => v ≠ 0) r 0).length + 1).sum

theorem featuresLoop_spec (rows : List (List K)) (pre rest : List (FNode K)) (ptrs : List Nat)
    (h : spaceFor rows ≤ rest.length) :
    ∃ (out : List (FNode K)) (ps : List Nat), featuresLoop 0 rows (pre ++ rest) pre.length ptrs = Res.ok (pre ++ out, ptrs ++ ps) ∧ ps.length = rows.length ∧
      ∀ (i : Nat) (row : List K), rows[i]? = some row → ∃ (k : Nat) (tl : List (FNode K)), ps[i]? = some k ∧
        (pre ++ out).drop k = sparse (fun v => v ≠ 0) row 0 ++ ⟨-1, 0⟩ :: tl := by
  induction rows generalizing pre rest ptrs with
  | nil => exact ⟨rest, [], by simp [featuresLoop], rfl, by simp⟩
  | cons row rows ih =>
    simp only [spaceFor, List.map_cons, List.sum_cons] at h
    unfold featuresLoop
    rw [if_pos (by simp; omega), featuresRow_spec _ _ _ _ (by omega), Res.bind_ok]
    simp only
    obtain ⟨r, tl, hr⟩ : ∃ r tl, rest.drop (sparse (fun v => v ≠ 0) row 0).length = r :: tl := by
      cases hd : rest.drop (sparse (fun v => v ≠ 0) row 0).length with
      | nil =>
        have := List.drop_eq_nil_iff.1 hd
        omega
      | cons r tl => exact ⟨r, tl, rfl⟩
    have hlen : tl.length + 1 + (sparse (fun v => v ≠ 0) row 0).length = rest.length := by
      have := congrArg List.length hr
      simp only [List.length_drop, List.length_cons] at this
      omega
    rw [hr, ← List.length_append, storeNode_append, Res.bind_ok]
    have := ih (pre ++ sparse (fun v => v ≠ 0) row 0 ++ [⟨-1, 0⟩]) tl (ptrs ++ [pre.length])
      (by unfold spaceFor; omega)
    rw [List.append_assoc (pre ++ sparse (fun v => v ≠ 0) row 0), List.singleton_append, List.length_append,
      List.length_singleton] at this
    obtain ⟨out, ps, h1, h2, h3⟩ := this
    refine ⟨sparse (fun v => v ≠ 0) row 0 ++ [⟨-1, 0⟩] ++ out, pre.length :: ps, ?_, by simp [h2], ?_⟩
    · rw [h1]
      simp
    · intro i rw' hi
      cases i with
      | zero =>
        simp only [List.getElem?_cons_zero, Option.some.injEq] at hi
        subst hi
        refine ⟨pre.length, out, rfl, ?_⟩
        rw [List.drop_left]
        simp
      | succ i =>
        rw [List.getElem?_cons_succ] at hi
        obtain ⟨k, tl', x1, x2⟩ := h3 i rw' hi
        refine ⟨k, tl', by simpa using x1, ?_⟩
        rw [← x2]
        simp

theorem newProblem_spec (rows : List (List K)) (y : List K) (hr : rows ≠ []) (hy : y ≠ []) :
    ∃ p, newProblem rows y 0 = Res.ok p ∧ p.l = rows.length ∧ (∀ r0, rows[0]? = some r0 → p.n = r0.length + 1) ∧
      p.y = y ∧ p.bias = -1 ∧ ∀ i row, rows[i]? = some row → p.row i = some (sparse (fun v => v ≠ 0) row 0) := by
  obtain ⟨out, ps, h1, h2, h3⟩ := featuresLoop_spec rows [] (List.replicate
    ((rows.map fun r => (r.countP fun v => decide (v ≠ 0)) + r.length).sum + rows.length) FNode.zero) [] (by
    rw [List.length_replicate]
    unfold spaceFor
    clear hr hy
    induction rows with
    | nil => simp
    | cons r rows ih =>
      simp only [List.map_cons, List.sum_cons, List.length_cons, sparse_length] at ih ⊢
      omega)
  simp only [List.nil_append, List.length_nil] at h1 h3
  have hps : ps ≠ [] := by
    intro h
    rw [h] at h2
    exact hr (List.length_eq_zero_iff.1 h2.symm)
  unfold newProblem convertFeatures
  cases rows with
  | nil => exact absurd rfl hr
  | cons r0 rows =>
    simp only
    rw [h1, Res.bind_ok]
    simp only
    rw [if_neg hps, Res.bind_ok, if_neg hy]
    refine ⟨_, rfl, rfl, ?_, rfl, rfl, ?_⟩
    · intro r h
      simp only [List.getElem?_cons_zero, Option.some.injEq] at h
      rw [h]
    · intro i row hi
      obtain ⟨k, tl, x1, x2⟩ := h3 i row hi
      unfold LProblem.row
      simp only
      rw [x1]
      simp only
      rw [x2]
      exact readNodes_end _ _ (sparse_not_end _ _ _)

/-! ## Decision values -/

omit [LinearOrder K] in
theorem sum_node_entries (f : Nat → K) (nds : List (FNode K)) (n : Nat) (h : ∀ nd ∈ nds, 1 ≤ nd.index ∧ nd.index ≤ n) :
    (nds.map fun nd => f (nd.index - 1).toNat * nd.value).sum = ((List.range n).map fun j => f j * entry nds j).sum := by
  induction nds with
  | nil => simp [entry]
  | cons nd nds ih =>
    rw [List.map_cons, List.sum_cons, ih (fun x hx => h x (by simp [hx]))]
    have h1 := h nd (by simp)
    have : ((List.range n).map fun j => f j * entry (nd :: nds) j).sum =
        ((List.range n).map fun j => if j = (nd.index - 1).toNat then f j * nd.value else 0).sum +
          ((List.range n).map fun j => f j * entry nds j).sum := by
      rw [← List.sum_map_add]
      congr 1
      apply List.map_congr_left
      intro j _
      rw [entry_cons, mul_add]
      congr 1
      by_cases hj : nd.index = (j : Int) + 1
      · rw [if_pos hj, if_pos (by omega)]
      · rw [if_neg hj, if_neg (by omega), mul_zero]
    rw [this]
    congr 1
    have key : ∀ m k : Nat, k < m → ((List.range m).map fun j => if j = k then f j * nd.value else 0).sum = f k * nd.value := by
      intro m
      induction m with
      | zero => intro k hk; omega
      | succ m ih =>
        intro k hk
        rw [List.range_succ, List.map_append, List.sum_append]
        by_cases hm : k = m
        · subst hm
          have : ((List.range k).map fun j => if j = k then f j * nd.value else 0).sum = 0 := by
            have : ((List.range k).map fun j => if j = k then f j * nd.value else 0) = (List.range k).map fun _ => 0 := by
              apply List.map_congr_left
              intro j hj
              rw [if_neg (by have := List.mem_range.1 hj; omega)]
            rw [this]
            simp
          rw [this]
          simp
        · rw [ih k (by omega)]
          simp [Ne.symm hm]
    rw [key n _ (by omega)]

theorem decValue_represents (m : LModel K) (nds : List (FNode K)) (x : List K) (h : Represents nds x) (i : Nat)
    (hb : m.bias < 0) (hx : x.length ≤ m.nrFeature) :
    decValue m nds i = weigh (fun j => m.w (j * (if m.nrClass = 2 then 1 else m.nrClass) + i)) x := by
  obtain ⟨h1, h2, h3⟩ := h
  clear h1
  have e : ∀ acc, nds.foldl (fun acc nd => if nd.index ≤ (m.nrFeature : Int) then
      acc + m.w ((nd.index - 1).toNat * (if m.nrClass = 2 then 1 else m.nrClass) + i) * nd.value else acc) acc =
      acc + (nds.map fun nd => m.w ((nd.index - 1).toNat * (if m.nrClass = 2 then 1 else m.nrClass) + i) * nd.value).sum := by
    clear h3
    induction nds with
    | nil => intro acc; simp
    | cons nd nds ih =>
      intro acc
      have := h2 nd (by simp)
      rw [List.foldl_cons, if_pos (this.2.trans (by exact_mod_cast hx)), ih (fun y hy => h2 y (by simp [hy]))]
      simp [add_assoc]
  unfold decValue
  simp only [if_neg (not_le.2 hb)]
  rw [e 0, zero_add]
  rw [sum_node_entries (fun j => m.w (j * (if m.nrClass = 2 then 1 else m.nrClass) + i)) nds x.length h2]
  unfold weigh
  congr 1
  apply List.map_congr_left
  intro j hj
  rw [h3 j (List.mem_range.1 hj)]

end

end Golearn
