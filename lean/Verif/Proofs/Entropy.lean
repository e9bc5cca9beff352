import Verif.Proofs.Counts
import Verif.Spec.Entropy
import Mathlib.Algebra.BigOperators.Ring.List
import Mathlib.Algebra.Order.Field.Basic
import Mathlib.Tactic.Ring
import Mathlib.Tactic.FieldSimp
import Mathlib.Tactic.Linarith

/-! # Lemmas about entropies -/

namespace Golearn

variable {K : Type} [Field K] [LinearOrder K] [IsStrictOrderedRing K]

omit [IsStrictOrderedRing K] in
theorem sumO_some {α : Type} (l : List α) (h : α → Option K) (f : α → K) (hf : ∀ x ∈ l, h x = some (f x)) :
    sumO (l.map h) = some (l.map f).sum := by
  induction l with
  | nil => rfl
  | cons x xs ih =>
    simp only [List.map_cons, sumO, hf x (by simp), ih fun y hy => hf y (by simp [hy]), List.sum_cons, Option.bind_some,
      Option.map_some]

omit [IsStrictOrderedRing K] in
theorem sumO_perm {l l' : List (Option K)} (h : l.Perm l') : sumO l = sumO l' := by
  induction h with
  | nil => rfl
  | cons x _ ih => simp only [sumO, ih]
  | swap x y l =>
    cases x <;> cases y <;> simp only [sumO, Option.bind_none, Option.bind_some, Option.map_none] <;>
      cases sumO l <;> simp only [Option.map_none, Option.map_some, Option.bind_none, Option.bind_some]
    rw [add_left_comm]
  | trans _ _ ih1 ih2 => rw [ih1, ih2]

/-- The sum of `count/n * lg (count/n)` over the labels. -/
def plog (lg : K → K) (ls : List String) (n : Nat) : K :=
  (ls.dedup.map fun c => (ls.count c : K) / n * lg ((ls.count c : K) / n)).sum

omit [IsStrictOrderedRing K] in
theorem sumO_counts (lg : K → K) {m : GoMap String Nat} {ls : List String} (h : CountsL m ls) {n : Nat} (hn : n ≠ 0) :
    sumO (m.map fun q => xlog lg q.2 n) = some (plog lg ls n) := by
  have hp := (countsL_perm h).map fun q => xlog (K := K) lg q.2 n
  rw [sumO_perm hp, List.map_map]
  apply sumO_some
  intro c hc
  have : ls.count c ≠ 0 := by
    have := List.count_pos_iff.2 (List.mem_dedup.1 hc); omega
  simp only [Function.comp, xlog, this, hn, or_self, if_false]

omit [IsStrictOrderedRing K] in
theorem baseEntropy_spec (lg : K → K) {m : GoMap String Nat} {ls : List String} (h : CountsL m ls) (hne : ls ≠ []) :
    baseEntropy lg m = some (entropyOf lg ls) := by
  unfold baseEntropy
  have hn : ls.length ≠ 0 := by
    intro h; exact hne (List.length_eq_zero_iff.1 h)
  rw [countsL_total h, sumO_counts lg h hn, Option.map_some]
  rfl

omit [IsStrictOrderedRing K] in
theorem cast_sum_list (l : List Nat) : ((l.sum : Nat) : K) = (l.map fun x : Nat => (x : K)).sum := by
  induction l with
  | nil => simp
  | cons a as ih => simp [ih]

/-- The contribution of one group of labels to the entropy after a split. -/
theorem group_entropy {lg : K → K} (hlg : Logarithm lg) {ls : List String} (hne : ls ≠ []) {n : Nat} (hn : n ≠ 0) :
    -plog lg ls n + (ls.length : K) / n * lg ((ls.length : K) / n) = (ls.length : K) / n * entropyOf lg ls := by
  have hl : 0 < ls.length := List.length_pos_of_ne_nil hne
  have hlK : (0 : K) < ls.length := by exact_mod_cast hl
  have hnK : (0 : K) < n := by exact_mod_cast Nat.pos_of_ne_zero hn
  have key : plog lg ls n = (ls.length : K) / n *
      (ls.dedup.map fun c => (ls.count c : K) / ls.length * lg ((ls.count c : K) / ls.length)).sum +
      (ls.length : K) / n * lg ((ls.length : K) / n) := by
    have h1 : plog lg ls n = (ls.dedup.map fun c => (ls.length : K) / n *
        ((ls.count c : K) / ls.length * lg ((ls.count c : K) / ls.length)) +
        (ls.count c : K) * (lg ((ls.length : K) / n) / n)).sum := by
      unfold plog
      congr 1
      apply List.map_congr_left
      intro c hc
      have hc' : (0 : K) < ls.count c := by exact_mod_cast List.count_pos_iff.2 (List.mem_dedup.1 hc)
      have hmul : (ls.count c : K) / n = (ls.count c : K) / ls.length * ((ls.length : K) / n) := by
        field_simp
      have hlog : lg ((ls.count c : K) / n) = lg ((ls.count c : K) / ls.length) + lg ((ls.length : K) / n) := by
        rw [hmul]
        exact hlg.mul _ _ (div_pos hc' hlK) (div_pos hlK hnK)
      rw [hlog]
      field_simp
    rw [h1, List.sum_map_add, List.sum_map_mul_left, List.sum_map_mul_right]
    congr 1
    have : (ls.dedup.map fun c => (ls.count c : K)).sum = ls.length := by
      have h := sum_count_dedup ls
      have h2 := congrArg (fun k : Nat => (k : K)) h
      simp only [cast_sum_list, List.map_map] at h2
      exact h2
    rw [this]
    ring
  rw [key]
  unfold entropyOf
  ring

omit [IsStrictOrderedRing K] in
theorem totalOf_counts {m : GoMap String (GoMap String Nat)} {sv cv : Nat → String} {rows : List Nat}
    (h : CountsBy m sv cv rows) : totalOf m = rows.length := by
  obtain ⟨h1, h2, h3⟩ := h
  have hp := goMap_perm m h1 [] (List.nodup_dedup (rows.map sv)) (fun k => by rw [List.mem_dedup, h2 k])
  unfold totalOf
  rw [(hp.map fun p => (p.2.map Prod.snd).sum).sum_eq, List.map_map]
  have : ∀ v ∈ (rows.map sv).dedup, ((fun p : String × GoMap String Nat => (p.2.map Prod.snd).sum) ∘
      fun k => (k, (m.get? k).getD [])) v = (rows.map sv).count v := by
    intro v hv
    have hk : v ∈ m.map Prod.fst := (h2 v).2 (List.mem_dedup.1 hv)
    rw [← GoMap.isSome_iff_mem] at hk
    obtain ⟨i, hi⟩ := Option.isSome_iff_exists.1 hk
    simp only [Function.comp, hi, Option.getD_some]
    rw [countsL_total (h3 v i hi), List.length_map, List.count, List.countP_map, List.countP_eq_length_filter]
    rfl
  rw [List.map_congr_left this, sum_count_dedup, List.length_map]

/-- The entropy after a split, computed from the distributions, is the conditional entropy. -/
theorem splitEntropy_spec {lg : K → K} (hlg : Logarithm lg) {m : GoMap String (GoMap String Nat)} {sv cv : Nat → String}
    {n : Nat} (hn : 0 < n) (h : CountsBy m sv cv (List.range n)) :
    splitEntropy lg m = some (condEntropy lg cv sv n) := by
  have htot := totalOf_counts h
  rw [List.length_range] at htot
  obtain ⟨h1, h2, h3⟩ := h
  have hp := goMap_perm m h1 [] (List.nodup_dedup ((List.range n).map sv)) (fun k => by rw [List.mem_dedup, h2 k])
  unfold splitEntropy
  rw [htot, sumO_perm (hp.map _), List.map_map]
  unfold condEntropy
  apply sumO_some
  intro v hv
  have hv' := List.mem_dedup.1 hv
  have hk : v ∈ m.map Prod.fst := (h2 v).2 hv'
  rw [← GoMap.isSome_iff_mem] at hk
  obtain ⟨i, hi⟩ := Option.isSome_iff_exists.1 hk
  have hc := h3 v i hi
  have hne : labelsAt cv sv n v ≠ [] := by
    obtain ⟨r, hr, hrv⟩ := List.mem_map.1 hv'
    exact List.ne_nil_of_mem (List.mem_map.2 ⟨r, List.mem_filter.2 ⟨hr, by simp [hrv]⟩, rfl⟩)
  have hl : (labelsAt cv sv n v).length ≠ 0 := fun h => hne (List.length_eq_zero_iff.1 h)
  simp only [Function.comp, hi, Option.getD_some]
  change CountsL i (labelsAt cv sv n v) at hc
  rw [sumO_counts lg hc (by omega), countsL_total hc, Option.bind_some]
  simp only [xlog, hl, Nat.pos_iff_ne_zero.1 hn, or_self, if_false, Option.map_some]
  rw [group_entropy hlg hne (by omega)]

end Golearn
