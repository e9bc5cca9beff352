import Verif.Spec.Eval
import Verif.Proofs.Instances
import Verif.Proofs.ClassAttrs
import Mathlib.Algebra.BigOperators.Group.List.Basic
import Mathlib.Tactic.Ring
import Mathlib.Tactic.FieldSimp
import Mathlib.Tactic.Linarith
import Mathlib.Tactic.Positivity
import Mathlib.Data.Nat.Cast.Order.Field
import Mathlib.Tactic.NormNum

/-! # Confusion matrices -/

namespace Golearn

theorem Counts.nil : Counts [] [] := by
  refine ⟨?_, ?_, ?_, ?_, ?_⟩ <;> simp [ConfMat.at, ConfMat.rowKeys, GoMap.get?]

theorem confStep_get (m : ConfMat) (r p a : String) :
    (confStep m r p).get? a = if r = a then some (incr ((m.get? r).getD []) p) else m.get? a := by
  unfold confStep
  cases h : m.get? r with
  | none => rw [GoMap.get?_set]; simp [incr, GoMap.set, GoMap.get?]
  | some row => rw [GoMap.get?_set]; simp

theorem Counts.step {m : ConfMat} {pairs : List (String × String)} (h : Counts m pairs) (r p : String) :
    Counts (confStep m r p) (pairs ++ [(r, p)]) := by
  refine ⟨?_, ?_, ?_, ?_, ?_⟩
  · intro a b
    have := h.entry a b
    unfold ConfMat.at at *
    rw [confStep_get, List.count_append, ← this]
    by_cases hr : r = a
    · subst hr
      rw [if_pos rfl, Option.getD_some, incr_get]
      by_cases hp : p = b
      · subst hp; simp
      · simp [hp]
    · simp [hr]
  · intro a
    have hk : a ∈ (confStep m r p).map Prod.fst ↔ a = r ∨ a ∈ m.map Prod.fst := by
      unfold confStep
      cases m.get? r <;> exact GoMap.mem_keys_set _ _ _ _
    rw [hk, h.row]
    simp only [List.mem_append, List.mem_singleton, Prod.mk.injEq]
    constructor
    · rintro (rfl | ⟨b, hb⟩)
      · exact ⟨p, Or.inr ⟨rfl, rfl⟩⟩
      · exact ⟨b, Or.inl hb⟩
    · rintro ⟨b, hb | hb⟩
      · exact Or.inr ⟨b, hb⟩
      · exact Or.inl hb.1
  · intro a b
    have := h.cell a b
    unfold ConfMat.rowKeys at *
    rw [confStep_get]
    by_cases hr : r = a
    · subst hr
      rw [if_pos rfl, Option.getD_some, incr, GoMap.mem_keys_set, this]
      simp [or_comm]
    · rw [if_neg hr, this]
      simp [Ne.symm hr]
  · unfold confStep
    cases m.get? r <;> exact GoMap.nodup_set _ _ _ h.keys
  · intro a
    have := h.rowKeys a
    unfold ConfMat.rowKeys at *
    rw [confStep_get]
    by_cases hr : r = a
    · subst hr
      rw [if_pos rfl, Option.getD_some, incr]
      exact GoMap.nodup_set _ _ _ this
    · rw [if_neg hr]; exact this

theorem confLoop_spec {fo : FloatOps} {ref gen : Grid} {k l : Nat → String} (rows : List Nat)
    (h : ∀ r ∈ rows, getClass fo ref r = Res.ok (k r) ∧ getClass fo gen r = Res.ok (l r))
    (m : ConfMat) (pairs : List (String × String)) (hm : Counts m pairs) :
    ∃ m', confLoop fo ref gen rows m = Res.ok m' ∧ Counts m' (pairs ++ rows.map fun r => (k r, l r)) := by
  induction rows generalizing m pairs with
  | nil => exact ⟨m, rfl, by simpa using hm⟩
  | cons r rs ih =>
    obtain ⟨m', e, hc⟩ := ih (fun q hq => h q (by simp [hq])) (confStep m (k r) (l r)) (pairs ++ [(k r, l r)])
      (hm.step _ _)
    refine ⟨m', ?_, by simpa using hc⟩
    obtain ⟨h1, h2⟩ := h r (by simp)
    rw [confLoop, h1, Res.bind_ok, h2, Res.bind_ok]; exact e

/-! ## Sums over keys -/

theorem sum_countP {α κ : Type} [DecidableEq κ] (ks : List κ) (hn : ks.Nodup) (f : α → κ) (q : α → Bool)
    (l : List α) :
    (ks.map fun k => l.countP fun x => f x == k && q x).sum = l.countP fun x => decide (f x ∈ ks) && q x := by
  induction l with
  | nil =>
    have : ∀ ks : List κ, (ks.map fun _ => 0).sum = 0 := by intro ks; simp
    simp
  | cons x xs ih =>
    simp only [List.countP_cons]
    rw [← ih]
    have hs : ∀ ks : List κ, ks.Nodup → (ks.map fun k => if (f x == k && q x) = true then 1 else 0).sum =
        if (decide (f x ∈ ks) && q x) = true then 1 else 0 := by
      intro ks
      induction ks with
      | nil => simp
      | cons k ks ihk =>
        intro hnk
        rw [List.nodup_cons] at hnk
        rw [List.map_cons, List.sum_cons, ihk hnk.2]
        by_cases hk : f x = k
        · subst hk
          have : decide (f x ∈ ks) = false := by simp [hnk.1]
          simp [this]
        · simp [hk]
    rw [← hs ks hn]
    clear ih hs hn
    induction ks with
    | nil => rfl
    | cons k ks ih => simp only [List.map_cons, List.sum_cons, ih]; omega

theorem count_eq_countP' (pairs : List (String × String)) (a b : String) :
    pairs.count (a, b) = pairs.countP fun p => p.2 == b && p.1 == a := by
  rw [List.count]
  apply List.countP_congr
  rintro ⟨x, y⟩ _
  simp [and_comm]

theorem Counts.truePos {c : ConfMat} {pairs : List (String × String)} (h : Counts c pairs) (cls : String) :
    truePos cls c = pairs.countP fun p => p.1 == cls && p.2 == cls := by
  unfold Golearn.truePos
  rw [h.entry, count_eq_countP']
  apply List.countP_congr
  rintro ⟨x, y⟩ _
  simp [and_comm]

theorem Counts.falsePos {c : ConfMat} {pairs : List (String × String)} (h : Counts c pairs) (cls : String) :
    falsePos cls c = pairs.countP fun p => p.1 != cls && p.2 == cls := by
  unfold Golearn.falsePos
  have e : (c.map Prod.fst).map (fun k => if k = cls then 0 else c.at k cls) =
      (c.map Prod.fst).map (fun k => pairs.countP fun p => p.1 == k && (p.1 != cls && p.2 == cls)) := by
    apply List.map_congr_left
    intro k _
    split
    · rename_i hk
      symm
      rw [List.countP_eq_zero]
      rintro ⟨x, y⟩ _
      simp [hk]
      exact fun h1 h2 => absurd h1 h2
    · rename_i hk
      rw [h.entry, count_eq_countP']
      apply List.countP_congr
      rintro ⟨x, y⟩ _
      simp only [Bool.and_eq_true, beq_iff_eq, bne_iff_ne]
      constructor
      · rintro ⟨rfl, rfl⟩; exact ⟨rfl, hk, rfl⟩
      · rintro ⟨rfl, _, rfl⟩; exact ⟨rfl, rfl⟩
  rw [e, sum_countP _ h.keys]
  apply List.countP_congr
  rintro ⟨x, y⟩ hm
  simp only [Bool.and_eq_true, decide_eq_true_eq, and_iff_right_iff_imp]
  intro _
  exact (h.row x).2 ⟨y, hm⟩

theorem Counts.rowSum {c : ConfMat} {pairs : List (String × String)} (h : Counts c pairs) (a : String)
    (q : String → Bool) :
    ((c.rowKeys a).map fun b => if q b then c.at a b else 0).sum = pairs.countP fun p => p.1 == a && q p.2 := by
  have e : (c.rowKeys a).map (fun b => if q b then c.at a b else 0) =
      (c.rowKeys a).map (fun b => pairs.countP fun p => p.2 == b && (p.1 == a && q p.2)) := by
    apply List.map_congr_left
    intro b _
    split
    · rename_i hq
      rw [h.entry, count_eq_countP']
      apply List.countP_congr
      rintro ⟨x, y⟩ _
      simp only [Bool.and_eq_true, beq_iff_eq]
      constructor
      · rintro ⟨rfl, rfl⟩; exact ⟨rfl, rfl, hq⟩
      · rintro ⟨rfl, rfl, _⟩; exact ⟨rfl, rfl⟩
    · rename_i hq
      symm
      rw [List.countP_eq_zero]
      rintro ⟨x, y⟩ _
      simp only [Bool.and_eq_true, beq_iff_eq, not_and]
      rintro rfl _
      exact hq
  rw [e, sum_countP _ (h.rowKeys a)]
  apply List.countP_congr
  rintro ⟨x, y⟩ hm
  simp only [Bool.and_eq_true, decide_eq_true_eq, beq_iff_eq, and_iff_right_iff_imp]
  rintro ⟨rfl, _⟩
  exact (h.cell x y).2 hm

theorem Counts.falseNeg {c : ConfMat} {pairs : List (String × String)} (h : Counts c pairs) (cls : String) :
    falseNeg cls c = pairs.countP fun p => p.1 == cls && p.2 != cls := by
  unfold Golearn.falseNeg
  rw [← h.rowSum cls (fun b => b != cls)]
  congr 1
  apply List.map_congr_left
  intro k _
  by_cases hk : k = cls <;> simp [hk]

theorem Counts.keySum {c : ConfMat} {pairs : List (String × String)} (h : Counts c pairs)
    (q : String × String → Bool) :
    ((c.map Prod.fst).map fun a => pairs.countP fun p => p.1 == a && q p).sum = pairs.countP q := by
  rw [sum_countP _ h.keys]
  apply List.countP_congr
  rintro ⟨x, y⟩ hm
  simp only [Bool.and_eq_true, decide_eq_true_eq, and_iff_right_iff_imp]
  intro _
  exact (h.row x).2 ⟨y, hm⟩

theorem Counts.trueNeg {c : ConfMat} {pairs : List (String × String)} (h : Counts c pairs) (cls : String) :
    trueNeg cls c = pairs.countP fun p => p.1 != cls && p.2 != cls := by
  unfold Golearn.trueNeg
  rw [← h.keySum]
  congr 1
  apply List.map_congr_left
  intro k _
  split
  · rename_i hk
    symm
    rw [List.countP_eq_zero]
    rintro ⟨x, y⟩ _
    simp [hk]
    exact fun h1 h2 => absurd h1 h2
  · rename_i hk
    have e := h.rowSum k (fun b => b != cls)
    have e2 : (c.rowKeys k).map (fun l => if l = cls then 0 else c.at k l) =
        (c.rowKeys k).map (fun b => if (b != cls) = true then c.at k b else 0) := by
      apply List.map_congr_left
      intro b _
      by_cases hb : b = cls <;> simp [hb]
    rw [e2, e]
    apply List.countP_congr
    rintro ⟨x, y⟩ _
    simp only [Bool.and_eq_true, beq_iff_eq, bne_iff_ne]
    constructor
    · rintro ⟨rfl, h2⟩; exact ⟨rfl, hk, h2⟩
    · rintro ⟨rfl, _, h2⟩; exact ⟨rfl, h2⟩

/-- Sum of all entries. -/
def ConfMat.total (c : ConfMat) : Nat :=
  ((c.map Prod.fst).map fun i => ((c.rowKeys i).map fun j => c.at i j).sum).sum

theorem Counts.total {c : ConfMat} {pairs : List (String × String)} (h : Counts c pairs) :
    c.total = pairs.length := by
  unfold ConfMat.total
  have e : (c.map Prod.fst).map (fun i => ((c.rowKeys i).map fun j => c.at i j).sum) =
      (c.map Prod.fst).map (fun a => pairs.countP fun p => p.1 == a && true) := by
    apply List.map_congr_left
    intro i _
    have := h.rowSum i (fun _ => true)
    simpa using this
  rw [e, h.keySum (fun _ => true)]
  simp

theorem Counts.right {c : ConfMat} {pairs : List (String × String)} (h : Counts c pairs) :
    ((c.map Prod.fst).map fun i => ((c.rowKeys i).map fun j => if i = j then c.at i j else 0).sum).sum =
      rightCount pairs := by
  unfold rightCount
  rw [← h.keySum]
  congr 1
  apply List.map_congr_left
  intro i _
  have := h.rowSum i (fun b => i == b)
  simp only [beq_iff_eq] at this
  rw [this]
  apply List.countP_congr
  rintro ⟨x, y⟩ _
  simp only [Bool.and_eq_true, beq_iff_eq]
  constructor
  · rintro ⟨rfl, h2⟩; exact ⟨rfl, h2⟩
  · rintro ⟨rfl, h2⟩; exact ⟨rfl, h2⟩

theorem countP_split {α : Type} (p q r s : α → Bool) (l : List α)
    (h : ∀ x ∈ l, (if p x then 1 else 0) + (if q x then 1 else 0) + (if r x then 1 else 0) = if s x then 1 else 0) :
    l.countP p + l.countP q + l.countP r = l.countP s := by
  induction l with
  | nil => rfl
  | cons x xs ih =>
    have := h x (by simp)
    have := ih (fun y hy => h y (by simp [hy]))
    simp only [List.countP_cons]
    omega

end Golearn
