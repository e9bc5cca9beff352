import Verif.Proofs.Swap
import Verif.Proofs.View
import Verif.Spec.Bytes
import Mathlib.Data.List.Perm.Basic
import Mathlib.Data.List.Count
import Mathlib.Algebra.Order.BigOperators.Group.List

namespace Golearn

/-! ## Radix sort -/

theorem leValue_append (a b : Bytes) : leValue (a ++ b) = leValue a + 256 ^ a.length * leValue b := by
  induction a with
  | nil => simp [leValue]
  | cons x xs ih =>
    simp only [List.cons_append, leValue, ih, List.length_cons]
    rw [Nat.pow_succ']
    rw [Nat.mul_add, Nat.mul_assoc, Nat.add_assoc]

theorem leValue_lt (a : Bytes) : leValue a < 256 ^ a.length := by
  induction a with
  | nil => simp [leValue]
  | cons x xs ih =>
    simp only [leValue, List.length_cons]
    rw [Nat.pow_succ']
    have := x.isLt
    omega

/-- Order of two entries after `i` passes. -/
def passLt (i : Nat) (p q : Bytes × Nat) : Prop :=
  leValue (p.1.take i) < leValue (q.1.take i) ∨
    (leValue (p.1.take i) = leValue (q.1.take i) ∧ p.2 < q.2)

theorem flatMap_filter_perm {α : Type} (f : α → Nat) (l : List α) (n : Nat) (h : ∀ a ∈ l, f a < n) :
    ((List.range n).flatMap fun k => l.filter fun a => f a == k).Perm l := by
  classical
  induction l with
  | nil => simp
  | cons x xs ih =>
    have ih' := ih (fun a ha => h a (by simp [ha]))
    have hx := h x (by simp)
    have hsplit : ∀ m, m ≤ n → ((List.range m).flatMap fun k => (x :: xs).filter fun a => f a == k).Perm
        ((if f x < m then [x] else []) ++
          (List.range m).flatMap fun k => xs.filter fun a => f a == k) := by
      intro m
      induction m with
      | zero => simp
      | succ m ihm =>
        intro hm
        have := ihm (by omega)
        rw [List.range_succ, List.flatMap_append, List.flatMap_append]
        simp only [List.flatMap_cons, List.flatMap_nil, List.append_nil]
        rw [List.filter_cons]
        by_cases hk : f x = m
        · have e1 : ¬ f x < m := by omega
          have e2 : f x < m + 1 := by omega
          simp only [e1, if_false, List.nil_append] at this
          simp only [hk, beq_self_eq_true, if_true]
          rw [if_pos (by omega)]
          refine (List.Perm.append_right _ this).trans ?_
          simp only [List.singleton_append]
          exact List.perm_middle
        · have e3 : (f x == m) = false := by simpa using hk
          simp only [e3, Bool.false_eq_true, if_false]
          have e4 : (if f x < m + 1 then [x] else []) = (if f x < m then [x] else []) := by
            by_cases h4 : f x < m
            · rw [if_pos h4, if_pos (by omega)]
            · rw [if_neg h4, if_neg (by omega)]
          rw [e4, ← List.append_assoc]
          exact List.Perm.append_right _ this
    have := hsplit n (Nat.le_refl n)
    rw [if_pos hx] at this
    exact this.trans (List.Perm.cons x ih')

theorem take_succ_leValue (v : Bytes) (i : Nat) (h : i < v.length) :
    leValue (v.take (i + 1)) = leValue (v.take i) + 256 ^ i * (v.getD i 0).toNat := by
  rw [List.take_succ_eq_append_getElem h, leValue_append, List.length_take,
    Nat.min_eq_left (by omega)]
  simp [leValue, List.getD_eq_getElem?_getD, List.getElem?_eq_getElem h]

theorem radixPass_spec (i : Nat) (l : List (Bytes × Nat)) (hlen : ∀ p ∈ l, i < p.1.length)
    (hs : l.Pairwise (passLt i)) :
    ∃ l', radixPass i l = Res.ok l' ∧ l'.Perm l ∧ l'.Pairwise (passLt (i + 1)) := by
  refine ⟨(List.range 256).flatMap fun k => l.filter fun p => (p.1.getD i 0).toNat == k, ?_, ?_, ?_⟩
  · unfold radixPass
    rw [if_pos]
    rw [List.all_eq_true]
    intro p hp
    simpa using hlen p hp
  · apply flatMap_filter_perm
    intro p _
    exact (p.1.getD i 0).isLt
  · rw [List.pairwise_flatMap]
    refine ⟨?_, ?_⟩
    · intro k _
      have hf := hs.filter (fun p => (p.1.getD i 0).toNat == k)
      refine List.Pairwise.imp_of_mem ?_ hf
      intro p q hp hq hpq
      rw [List.mem_filter] at hp hq
      have ep : (p.1.getD i 0).toNat = k := by simpa using hp.2
      have eq' : (q.1.getD i 0).toNat = k := by simpa using hq.2
      unfold passLt at hpq ⊢
      rw [take_succ_leValue _ _ (hlen p hp.1), take_succ_leValue _ _ (hlen q hq.1), ep, eq']
      omega
    · rw [List.range_eq_range', List.pairwise_iff_getElem]
      intro a b ha hb hab p hp q hq
      rw [List.mem_filter] at hp hq
      simp only [List.getElem_range', Nat.zero_add, Nat.one_mul] at hp hq
      have ep : (p.1.getD i 0).toNat = a := by simpa using hp.2
      have eq' : (q.1.getD i 0).toNat = b := by simpa using hq.2
      left
      rw [take_succ_leValue _ _ (hlen p hp.1), take_succ_leValue _ _ (hlen q hq.1), ep, eq']
      have h1 := leValue_lt (p.1.take i)
      rw [List.length_take, Nat.min_eq_left (Nat.le_of_lt (hlen p hp.1))] at h1
      have h2 : 256 ^ i * (a + 1) ≤ 256 ^ i * b := Nat.mul_le_mul_left _ hab
      rw [Nat.mul_add, Nat.mul_one] at h2
      omega

theorem radixPasses_spec (k : Nat) (b : Nat) (l : List (Bytes × Nat))
    (hlen : ∀ p ∈ l, b + k ≤ p.1.length) (hs : l.Pairwise (passLt b)) :
    ∃ l', radixPasses (List.range' b k) l = Res.ok l' ∧ l'.Perm l ∧
      l'.Pairwise (passLt (b + k)) := by
  induction k generalizing b l with
  | zero => exact ⟨l, rfl, List.Perm.refl _, hs⟩
  | succ k ih =>
    obtain ⟨l1, h1, h2, h3⟩ := radixPass_spec b l (fun p hp => by have := hlen p hp; omega) hs
    obtain ⟨l2, g1, g2, g3⟩ := ih (b + 1) l1
      (fun p hp => by have := hlen p (h2.subset hp); omega) h3
    refine ⟨l2, ?_, g2.trans h2, ?_⟩
    · rw [List.range'_succ]
      simp only [radixPasses, h1, Res.bind_ok, g1]
    · rw [show b + (k + 1) = b + 1 + k by omega]; exact g3

/-! ## From the sorted rows to swaps -/

/-- Invariant between cycles. -/
structure CycInv (rs : List Nat) (done : List Bool) (acc : List (Nat × Nat)) : Prop where
  len : done.length = rs.length
  bnd : ∀ p ∈ acc, p.1 < rs.length ∧ p.2 < rs.length
  fin : ∀ r, done[r]? = some true → rs[r]? = some (srcRow acc r)
  und : ∀ r, done[r]? ≠ some true → srcRow acc r = r

/-- Invariant inside the cycle that started at `index`, about to visit `j`. -/
structure CycIn (rs : List Nat) (index j : Nat) (done : List Bool) (acc : List (Nat × Nat)) : Prop where
  len : done.length = rs.length
  bnd : ∀ p ∈ acc, p.1 < rs.length ∧ p.2 < rs.length
  jlt : j < rs.length
  jnd : done[j]? ≠ some true
  fin : ∀ r, done[r]? = some true → rs[r]? = some (srcRow acc r)
  cur : srcRow acc j = index
  und : ∀ r, done[r]? ≠ some true → r ≠ j → srcRow acc r = r

theorem getElem?_set_true (done : List Bool) (j r : Nat) (hj : j < done.length) :
    (done.set j true)[r]? = some true ↔ r = j ∨ done[r]? = some true := by
  by_cases h : r = j
  · subst h
    simp [hj]
  · rw [List.getElem?_set_ne (fun e => h e.symm)]
    simp [h]

theorem countP_set (done : List Bool) (j : Nat) (hj : done[j]? = some false) :
    (done.set j true).count false + 1 = done.count false := by
  induction done generalizing j with
  | nil => simp at hj
  | cons x xs ih =>
    cases j with
    | zero =>
      simp at hj; subst hj
      simp
    | succ j =>
      have := ih j (by simpa using hj)
      cases x <;> simp [List.count_cons] <;> omega

theorem not_true_false {done : List Bool} {j : Nat} (hj : j < done.length)
    (h : done[j]? ≠ some true) : done[j]? = some false := by
  rw [List.getElem?_eq_getElem hj] at h ⊢
  cases hb : done[j] with
  | true => rw [hb] at h; exact absurd rfl h
  | false => rfl

theorem cycleLoop_spec {rs : List Nat} (hperm : rs.Perm (List.range rs.length)) (index : Nat) :
    ∀ (fuel j : Nat) (done : List Bool) (acc : List (Nat × Nat)), CycIn rs index j done acc →
      done.count false ≤ fuel →
      ∃ (done' : List Bool) (acc' : List (Nat × Nat)), cycleLoop rs index fuel j done acc = Res.ok (done', acc') ∧
        CycInv rs done' acc' ∧ (∀ r : Nat, done[r]? = some true → done'[r]? = some true) ∧
        done'[j]? = some true := by
  have hinj : ∀ (a b x : Nat), rs[a]? = some x → rs[b]? = some x → a = b := by
    intro a b x ha hb
    have hn : rs.Nodup := hperm.nodup_iff.2 List.nodup_range
    obtain ⟨la, ea⟩ := List.getElem?_eq_some_iff.1 ha
    obtain ⟨lb, eb⟩ := List.getElem?_eq_some_iff.1 hb
    exact (List.Nodup.getElem_inj_iff hn).1 (ea.trans eb.symm)
  intro fuel
  induction fuel with
  | zero =>
    intro j done acc C hf
    have := countP_set done j (not_true_false (by rw [C.len]; exact C.jlt) C.jnd)
    omega
  | succ fuel ih =>
    intro j done acc C hf
    have hjl : j < rs.length := C.jlt
    have hjd : j < done.length := by rw [C.len]; exact C.jlt
    have hcnt := countP_set done j (not_true_false hjd C.jnd)
    have hx : rs[j]? = some rs[j] := List.getElem?_eq_getElem C.jlt
    have hxlt : rs[j] < rs.length := List.mem_range.1 (hperm.subset (List.getElem_mem C.jlt))
    unfold cycleLoop
    simp only [hx]
    rw [if_pos hjd]
    by_cases hxi : rs[j] = index
    · rw [if_neg (by simpa using hxi)]
      refine ⟨_, _, rfl, ⟨by simpa using C.len, C.bnd, ?_, ?_⟩, ?_, ?_⟩
      · intro r hr
        rw [getElem?_set_true _ _ _ hjd] at hr
        rcases hr with rfl | hr
        · rw [hx, C.cur, hxi]
        · exact C.fin r hr
      · intro r hr
        rw [Ne, getElem?_set_true _ _ _ hjd] at hr
        simp only [not_or] at hr
        exact C.und r hr.2 hr.1
      · intro r hr
        rw [getElem?_set_true _ _ _ hjd]; exact Or.inr hr
      · rw [getElem?_set_true _ _ _ hjd]; exact Or.inl rfl
    · rw [if_pos hxi]
      -- the next row has not been visited
      have hxnd : ¬ (rs[j] = j ∨ done[rs[j]]? = some true) := by
        intro hD
        -- some visited row is mapped to rs[j] by the swaps so far
        obtain ⟨r, hr⟩ := (srcRow acc).surjective rs[j]
        have hrD : r = j ∨ done[r]? = some true := by
          by_contra hcon
          simp only [not_or] at hcon
          have := C.und r hcon.2 hcon.1
          rw [this] at hr
          rcases hD with h | h
          · exact hcon.1 (hr.trans h)
          · rw [← hr] at h; exact hcon.2 h
        rcases hrD with rfl | hrD
        · rw [C.cur] at hr; exact hxi hr.symm
        · have h1 := C.fin r hrD
          rw [hr] at h1
          have := hinj r j _ h1 hx
          subst this
          exact C.jnd hrD
      simp only [not_or] at hxnd
      obtain ⟨done', acc', e1, e2, e3, e4⟩ := ih rs[j] (done.set j true) (acc ++ [(j, rs[j])])
        { len := by simpa using C.len
          bnd := by
            intro p hp
            rcases List.mem_append.1 hp with h | h
            · exact C.bnd p h
            · simp only [List.mem_singleton] at h
              subst h; exact ⟨C.jlt, hxlt⟩
          jlt := hxlt
          jnd := by
            rw [Ne, getElem?_set_true _ _ _ hjd]
            simp only [not_or]; exact hxnd
          fin := by
            intro r hr
            rw [getElem?_set_true _ _ _ hjd] at hr
            rw [srcRow_snoc]
            simp only
            rcases hr with rfl | hr
            · rw [Equiv.swap_apply_left, hx, C.und _ hxnd.2 hxnd.1]
            · have h1 : r ≠ j := by rintro rfl; exact C.jnd hr
              have h2 : r ≠ rs[j] := by rintro rfl; exact hxnd.2 hr
              rw [Equiv.swap_apply_of_ne_of_ne h1 h2]
              exact C.fin r hr
          cur := by rw [srcRow_snoc]; simp only; rw [Equiv.swap_apply_right]; exact C.cur
          und := by
            intro r hr hrx
            rw [Ne, getElem?_set_true _ _ _ hjd] at hr
            simp only [not_or] at hr
            rw [srcRow_snoc]
            simp only
            rw [Equiv.swap_apply_of_ne_of_ne hr.1 hrx]
            exact C.und r hr.2 hr.1 } (by omega)
      refine ⟨done', acc', e1, e2, ?_, ?_⟩
      · intro r hr
        apply e3
        rw [getElem?_set_true _ _ _ hjd]; exact Or.inr hr
      · apply e3
        rw [getElem?_set_true _ _ _ hjd]; exact Or.inl rfl

theorem cyclesLoop_spec {rs : List Nat} (hperm : rs.Perm (List.range rs.length)) (idxs : List Nat)
    (hidx : ∀ i ∈ idxs, i < rs.length) (done : List Bool) (acc : List (Nat × Nat))
    (C : CycInv rs done acc) :
    ∃ (done' : List Bool) (acc' : List (Nat × Nat)), cyclesLoop rs idxs done acc = Res.ok acc' ∧ CycInv rs done' acc' ∧
      (∀ r : Nat, done[r]? = some true → done'[r]? = some true) ∧
      ∀ i ∈ idxs, done'[i]? = some true := by
  induction idxs generalizing done acc with
  | nil => exact ⟨done, acc, rfl, C, fun _ h => h, by simp⟩
  | cons i is ih =>
    have hi := hidx i (by simp)
    have hid : i < done.length := by rw [C.len]; exact hi
    unfold cyclesLoop
    cases hdi : done[i]? with
    | none => rw [List.getElem?_eq_none_iff] at hdi; omega
    | some b =>
      cases b with
      | true =>
        simp only
        obtain ⟨done', acc', h1, h2, h3, h4⟩ := ih (fun k hk => hidx k (by simp [hk])) done acc C
        refine ⟨done', acc', h1, h2, h3, ?_⟩
        intro k hk
        rcases List.mem_cons.1 hk with rfl | hk
        · exact h3 _ hdi
        · exact h4 k hk
      | false =>
        simp only
        have hnd : done[i]? ≠ some true := by rw [hdi]; simp
        obtain ⟨d1, a1, e1, e2, e3, e4⟩ := cycleLoop_spec hperm i (rs.length + 1) i done acc
          ⟨C.len, C.bnd, hi, hnd, C.fin, C.und i hnd, fun r hr _ => C.und r hr⟩ (by
            have := List.count_le_length (a := false) (l := done)
            rw [C.len] at this; omega)
        rw [e1]
        simp only [Res.bind_ok]
        obtain ⟨done', acc', h1, h2, h3, h4⟩ := ih (fun k hk => hidx k (by simp [hk])) d1 a1 e2
        refine ⟨done', acc', h1, h2, fun r hr => h3 r (e3 r hr), ?_⟩
        intro k hk
        rcases List.mem_cons.1 hk with rfl | hk
        · exact h3 _ e4
        · exact h4 k hk

/-- The swaps computed from a permutation `rs` bring row `rs[r]` to row `r`. -/
theorem cycles_spec {rs : List Nat} (hperm : rs.Perm (List.range rs.length)) :
    ∃ sws, cyclesLoop rs (List.range rs.length) (List.replicate rs.length false) [] = Res.ok sws ∧
      (∀ p ∈ sws, p.1 < rs.length ∧ p.2 < rs.length) ∧
      ∀ r, r < rs.length → rs[r]? = some (srcRow sws r) := by
  have hno : ∀ r : Nat, (List.replicate rs.length false)[r]? ≠ some true := by
    intro r h
    rw [List.getElem?_replicate] at h
    split at h <;> simp at h
  obtain ⟨done', acc', h1, h2, _, h4⟩ := cyclesLoop_spec hperm (List.range rs.length)
    (fun i hi => List.mem_range.1 hi) (List.replicate rs.length false) []
    ⟨by simp, by simp, fun r hr => absurd hr (hno r), fun r _ => by simp⟩
  exact ⟨acc', h1, h2.bnd, fun r hr => h2.fin r (h4 r (List.mem_range.2 hr))⟩

end Golearn
