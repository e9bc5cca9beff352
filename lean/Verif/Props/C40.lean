import Verif.Proofs.Heap

/-! # C40: the neighbour heap keeps the maximum on top -/

namespace Golearn

variable {R : Type} [LinearOrder R] [Zero R]

/-- An operation on a heap. -/
inductive HOp (R : Type) where
  | insert (value : List R) (len : R) (row : Nat)
  | extractMax

/-- What an operation does to a heap. -/
def HOp.apply (t : Heap R) : HOp R → Heap R
  | .insert v len row => t.insert v len row
  | .extractMax => t.extractMax

/-- The heap after a history of operations on a new heap. -/
def runHeap (ops : List (HOp R)) : Heap R := ops.foldl HOp.apply []

/-- The nodes read off by taking the maximum and extracting it, as often as there are nodes. -/
def drained : Nat → Heap R → List (HNode R)
  | 0, _ => []
  | n + 1, t => t.maximum :: drained n t.extractMax

theorem runHeap_ok (ops : List (HOp R)) : Heap.OK (runHeap ops) := by
  unfold runHeap
  have h : Heap.OK ([] : Heap R) := fun c _ hc => absurd hc (Nat.not_lt_zero c)
  revert h
  generalize ([] : Heap R) = t
  induction ops generalizing t with
  | nil => exact fun h => h
  | cons op ops ih =>
    intro h
    rw [List.foldl_cons]
    refine ih _ ?_
    cases op with
    | insert v len row => exact Heap.insert_ok h v len row
    | extractMax =>
      by_cases hn : t = []
      · subst hn; exact h
      · exact (Heap.extract_spec h hn).1

/-- After any history, the maximum of a heap that is not empty is one of its nodes, and none is longer. -/
theorem C40_maximum (ops : List (HOp R)) (hne : runHeap ops ≠ []) :
    (runHeap ops).maximum ∈ runHeap ops ∧ ∀ x ∈ runHeap ops, x.len ≤ (runHeap ops).maximum.len :=
  ⟨Heap.maximum_mem hne, fun _ hx => Heap.le_maximum (runHeap_ok ops) hx⟩

/-- Inserting adds the new node and keeps all the others. -/
theorem C40_insert (ops : List (HOp R)) (v : List R) (len : R) (row : Nat) :
    (runHeap (ops ++ [.insert v len row])).Perm (⟨v, len, row⟩ :: runHeap ops) := by
  unfold runHeap
  rw [List.foldl_append]
  exact Heap.insert_perm _ _ _ _

/-- Extracting removes exactly the maximum; nothing happens to an empty heap. -/
theorem C40_extract (ops : List (HOp R)) :
    (runHeap ops ≠ [] → (runHeap ops).Perm ((runHeap ops).maximum :: runHeap (ops ++ [.extractMax]))) ∧
    (runHeap ops = [] → runHeap (ops ++ [.extractMax]) = []) := by
  have e : runHeap (ops ++ [.extractMax]) = (runHeap ops).extractMax := by
    unfold runHeap; rw [List.foldl_append]; rfl
  rw [e]
  refine ⟨fun h => (Heap.extract_spec (runHeap_ok ops) h).2, fun h => ?_⟩
  rw [h]; rfl

theorem drained_spec (n : Nat) (t : Heap R) (h : Heap.OK t) (hn : t.length = n) :
    (drained n t).Perm t ∧ (drained n t).Pairwise fun x y => y.len ≤ x.len := by
  induction n generalizing t with
  | zero =>
    rw [List.length_eq_zero_iff] at hn
    subst hn
    exact ⟨List.Perm.refl _, List.Pairwise.nil⟩
  | succ n ih =>
    have hne : t ≠ [] := by intro e; rw [e] at hn; cases hn
    obtain ⟨h1, h2⟩ := Heap.extract_spec h hne
    have hl := h2.length_eq
    rw [List.length_cons] at hl
    obtain ⟨p, q⟩ := ih t.extractMax h1 (by omega)
    refine ⟨(p.cons _).trans h2.symm, List.Pairwise.cons ?_ q⟩
    intro x hx
    exact Heap.le_maximum h (h2.mem_iff.2 (List.mem_cons_of_mem _ (p.mem_iff.1 hx)))

/-- Extracting everything yields all the nodes, each once, the lengths never increasing. -/
theorem C40_drain (ops : List (HOp R)) :
    (drained (runHeap ops).length (runHeap ops)).Perm (runHeap ops) ∧
    (drained (runHeap ops).length (runHeap ops)).Pairwise fun x y => y.len ≤ x.len :=
  drained_spec _ _ (runHeap_ok ops) rfl

/-- Six insertions and an extraction. -/
example : (drained 5 (runHeap ([.insert [] 3 0, .insert [] 1 1, .insert [] 7 2, .insert [] 5 3, .extractMax,
    .insert [] 4 4, .insert [] 5 5] : List (HOp Int)))).map (fun x => (x.len, x.row)) =
    [(5, 3), (5, 5), (4, 4), (3, 0), (1, 1)] := by decide +kernel

end Golearn
