import Verif.Props.C36

/-! # C37: metrics lie in range -/

namespace Golearn

theorem fdiv_frac {a b : Nat} (hab : a ≤ b) {x : ℚ} (h : fdiv a b = some x) :
    b ≠ 0 ∧ x = a / b ∧ 0 ≤ x ∧ x ≤ 1 ∧ (x = 1 ↔ a = b) := by
  unfold fdiv at h
  split at h
  · cases h
  · rename_i hb
    rw [Option.some.injEq] at h
    have hb' : b ≠ 0 := by
      intro e; rw [e] at hb; simp at hb
    have hpos : (0 : ℚ) < b := by exact_mod_cast Nat.pos_of_ne_zero hb'
    have hle : (a : ℚ) ≤ b := by exact_mod_cast hab
    refine ⟨hb', h.symm, ?_, ?_, ?_⟩
    · rw [← h]; positivity
    · rw [← h, div_le_one hpos]; exact hle
    · rw [← h, div_eq_one_iff_eq hb]
      exact_mod_cast Iff.rfl

theorem fdiv_none {a b : Nat} : fdiv a b = none ↔ b = 0 := by
  unfold fdiv
  split
  · rename_i h; simpa using h
  · rename_i h; simpa using h

theorem accuracy_eq {c : ConfMat} {pairs : List (String × String)} (h : Counts c pairs) :
    accuracy c = fdiv (rightCount pairs) pairs.length := by
  have e := h.total
  unfold ConfMat.total at e
  unfold accuracy
  rw [h.right, e]

theorem precision_eq {c : ConfMat} {pairs : List (String × String)} (h : Counts c pairs) (cls : String) :
    precision cls c = fdiv (pairs.count (cls, cls)) (predCount pairs cls) := by
  obtain ⟨h1, _, h3, _⟩ := C36_counts c pairs h cls
  unfold precision
  rw [← h1, ← h3]
  push_cast
  rfl

theorem recall_eq {c : ConfMat} {pairs : List (String × String)} (h : Counts c pairs) (cls : String) :
    recall cls c = fdiv (pairs.count (cls, cls)) (refCount pairs cls) := by
  obtain ⟨h1, h2, _, _⟩ := C36_counts c pairs h cls
  unfold recall
  rw [← h1, ← h2]
  push_cast
  rfl

/-- Accuracy is the fraction of right predictions: defined unless there are no rows, in [0,1], and 1
exactly when every prediction is right. -/
theorem C37_accuracy (c : ConfMat) (pairs : List (String × String)) (h : Counts c pairs) :
    (accuracy c = none ↔ pairs = []) ∧
    ∀ x, accuracy c = some x → x = (rightCount pairs : ℚ) / pairs.length ∧ 0 ≤ x ∧ x ≤ 1 ∧
      (x = 1 ↔ ∀ p ∈ pairs, p.1 = p.2) := by
  rw [accuracy_eq h]
  refine ⟨by rw [fdiv_none, List.length_eq_zero_iff], ?_⟩
  intro x hx
  obtain ⟨_, h1, h2, h3, h4⟩ := fdiv_frac List.countP_le_length hx
  refine ⟨h1, h2, h3, ?_⟩
  rw [h4]
  show pairs.countP _ = pairs.length ↔ _
  rw [List.countP_eq_length]
  simp

/-- Precision is the fraction of the predictions of the class that are right, defined unless the class
is never predicted; recall is the fraction of the rows of the class that are found, defined unless the
class has no rows. Both lie in [0,1]; they are 1 exactly when no prediction of the class is wrong,
respectively when every row of the class is found. -/
theorem C37_precision_recall (c : ConfMat) (pairs : List (String × String)) (h : Counts c pairs)
    (cls : String) :
    (precision cls c = none ↔ ∀ p ∈ pairs, p.2 ≠ cls) ∧
    (∀ x, precision cls c = some x → x = (pairs.count (cls, cls) : ℚ) / predCount pairs cls ∧ 0 ≤ x ∧ x ≤ 1 ∧
      (x = 1 ↔ ∀ p ∈ pairs, p.2 = cls → p.1 = cls)) ∧
    (recall cls c = none ↔ ∀ p ∈ pairs, p.1 ≠ cls) ∧
    (∀ x, recall cls c = some x → x = (pairs.count (cls, cls) : ℚ) / refCount pairs cls ∧ 0 ≤ x ∧ x ≤ 1 ∧
      (x = 1 ↔ ∀ p ∈ pairs, p.1 = cls → p.2 = cls)) := by
  rw [precision_eq h, recall_eq h]
  obtain ⟨h1, h2, h3, h4⟩ := C36_counts c pairs h cls
  have hfp := h.falsePos cls
  have hfn := h.falseNeg cls
  refine ⟨?_, ?_, ?_, ?_⟩
  · rw [fdiv_none, predCount, List.countP_eq_zero]; simp
  · intro x hx
    obtain ⟨_, e1, e2, e3, e4⟩ := fdiv_frac (a := pairs.count (cls, cls)) (by omega) hx
    refine ⟨e1, e2, e3, ?_⟩
    rw [e4, ← h3, h1]
    have : (pairs.count (cls, cls) = pairs.count (cls, cls) + falsePos cls c) ↔ falsePos cls c = 0 := by omega
    rw [this, hfp, List.countP_eq_zero]
    simp only [Bool.and_eq_true, bne_iff_ne, beq_iff_eq, not_and]
    exact forall₂_congr fun p _ => ⟨fun hh e => by by_contra hne; exact hh hne e, fun hh hne e => hne (hh e)⟩
  · rw [fdiv_none, refCount, List.countP_eq_zero]; simp
  · intro x hx
    obtain ⟨_, e1, e2, e3, e4⟩ := fdiv_frac (a := pairs.count (cls, cls)) (by omega) hx
    refine ⟨e1, e2, e3, ?_⟩
    rw [e4, ← h2, h1]
    have : (pairs.count (cls, cls) = pairs.count (cls, cls) + falseNeg cls c) ↔ falseNeg cls c = 0 := by omega
    rw [this, hfn, List.countP_eq_zero]
    simp only [Bool.and_eq_true, bne_iff_ne, beq_iff_eq, not_and, not_not]

/-- F1 is the harmonic mean of precision and recall. It is undefined exactly when the class has no
correct prediction, and otherwise lies between precision and recall, so in (0,1]. -/
theorem C37_f1 (c : ConfMat) (pairs : List (String × String)) (h : Counts c pairs) (cls : String) :
    (f1Score cls c = none ↔ pairs.count (cls, cls) = 0) ∧
    ∀ f, f1Score cls c = some f → ∃ p r, precision cls c = some p ∧ recall cls c = some r ∧
      0 < p ∧ 0 < r ∧ f = 2 / (1 / p + 1 / r) ∧ min p r ≤ f ∧ f ≤ max p r ∧ 0 < f ∧ f ≤ 1 := by
  obtain ⟨h1, h2, h3, h4⟩ := C36_counts c pairs h cls
  have hp := precision_eq h cls
  have hr := recall_eq h cls
  set t := pairs.count (cls, cls) with ht
  by_cases ht0 : t = 0
  · have hnone : f1Score cls c = none := by
      unfold f1Score
      cases hpv : precision cls c with
      | none => rfl
      | some p =>
        cases hrv : recall cls c with
        | none => rfl
        | some r =>
          rw [hpv] at hp
          rw [hrv] at hr
          have p0 := (fdiv_frac (by omega) hp.symm).2.1
          have r0 := (fdiv_frac (by omega) hr.symm).2.1
          rw [ht0] at p0 r0
          simp only [Nat.cast_zero, zero_div] at p0 r0
          simp [p0, r0, fdiv]
    refine ⟨by simp [hnone, ht0], ?_⟩
    intro f hf
    rw [hnone] at hf; cases hf
  · have hpd : predCount pairs cls ≠ 0 := by omega
    have hrd : refCount pairs cls ≠ 0 := by omega
    have hq1 : (predCount pairs cls : ℚ) ≠ 0 := by exact_mod_cast hpd
    have hq2 : (refCount pairs cls : ℚ) ≠ 0 := by exact_mod_cast hrd
    obtain ⟨p, hpe⟩ : ∃ p, precision cls c = some p := by rw [hp]; simp [fdiv, hq1]
    obtain ⟨r, hre⟩ : ∃ r, recall cls c = some r := by rw [hr]; simp [fdiv, hq2]
    obtain ⟨_, p0, _, p1, _⟩ := fdiv_frac (by omega) (hp.symm.trans hpe)
    obtain ⟨_, r0, _, r1, _⟩ := fdiv_frac (by omega) (hr.symm.trans hre)
    have htq : (0 : ℚ) < t := by exact_mod_cast Nat.pos_of_ne_zero ht0
    have hppos : 0 < p := by rw [p0]; positivity
    have hrpos : 0 < r := by rw [r0]; positivity
    have hsum : p + r ≠ 0 := by positivity
    have hf : f1Score cls c = some (2 * (p * r) / (p + r)) := by
      unfold f1Score
      simp [hpe, hre, fdiv, hsum]
    refine ⟨by simp [hf, ht0], ?_⟩
    intro f hf'
    rw [hf, Option.some.injEq] at hf'
    have hharm : f = 2 / (1 / p + 1 / r) := by rw [← hf']; field_simp; ring
    have hmin : min p r ≤ f := by
      rw [← hf', le_div_iff₀ (by positivity)]
      rcases le_total p r with hle | hle
      · rw [min_eq_left hle]; nlinarith
      · rw [min_eq_right hle]; nlinarith
    have hmax : f ≤ max p r := by
      rw [← hf', div_le_iff₀ (by positivity)]
      rcases le_total p r with hle | hle
      · rw [max_eq_right hle]; nlinarith
      · rw [max_eq_left hle]; nlinarith
    refine ⟨p, r, hpe, hre, hppos, hrpos, hharm, hmin, hmax, ?_, ?_⟩
    · rw [← hf']; positivity
    · exact hmax.trans (max_le p1 r1)

theorem fsum_range (l : List (Option ℚ)) (h : ∀ x ∈ l, ∀ q, x = some q → 0 ≤ q ∧ q ≤ 1) (s : ℚ)
    (hs : fsum l = some s) : 0 ≤ s ∧ s ≤ l.length := by
  induction l generalizing s with
  | nil => simp [fsum] at hs; subst hs; simp
  | cons x xs ih =>
    simp only [fsum, Option.bind_eq_some_iff, Option.map_eq_some_iff] at hs
    obtain ⟨a, ha, b, hb, e⟩ := hs
    obtain ⟨h1, h2⟩ := h x (by simp) a ha
    obtain ⟨h3, h4⟩ := ih (fun y hy => h y (by simp [hy])) b hb
    rw [← e, List.length_cons]
    push_cast
    constructor <;> linarith

/-- The macro averages lie in [0,1] when defined. -/
theorem C37_macro (c : ConfMat) (pairs : List (String × String)) (h : Counts c pairs) :
    (∀ x, macroPrecision c = some x → 0 ≤ x ∧ x ≤ 1) ∧ (∀ x, macroRecall c = some x → 0 ≤ x ∧ x ≤ 1) := by
  have key : ∀ (g : String → Option ℚ), (∀ k q, g k = some q → 0 ≤ q ∧ q ≤ 1) → ∀ x,
      ((fsum ((c.map Prod.fst).map g)).bind fun s => fdiv s c.length) = some x → 0 ≤ x ∧ x ≤ 1 := by
    intro g hg x hx
    rw [Option.bind_eq_some_iff] at hx
    obtain ⟨s, hs, hx⟩ := hx
    obtain ⟨h1, h2⟩ := fsum_range _ (by
      intro y hy q hq
      obtain ⟨k, _, rfl⟩ := List.mem_map.1 hy
      exact hg k q hq) s hs
    rw [List.length_map, List.length_map] at h2
    unfold fdiv at hx
    split at hx
    · cases hx
    · rename_i hc
      rw [Option.some.injEq] at hx
      have hpos : (0 : ℚ) < c.length := lt_of_le_of_ne (by positivity) (Ne.symm hc)
      rw [← hx]
      exact ⟨div_nonneg h1 hpos.le, (div_le_one hpos).2 h2⟩
  refine ⟨key _ ?_, key _ ?_⟩
  · intro k q hq
    obtain ⟨_, e, e'⟩ := (C37_precision_recall c pairs h k).2.1 q hq
    exact ⟨e, e'.1⟩
  · intro k q hq
    obtain ⟨_, e, e'⟩ := (C37_precision_recall c pairs h k).2.2.2 q hq
    exact ⟨e, e'.1⟩

section Examples
/-- The four metrics of a small matrix. -/
example : accuracy [("x", [("x", 2), ("z", 1)]), ("y", [("x", 1)])] = some (1 / 2) ∧
    precision "x" [("x", [("x", 2), ("z", 1)]), ("y", [("x", 1)])] = some (2 / 3) ∧
    recall "x" [("x", [("x", 2), ("z", 1)]), ("y", [("x", 1)])] = some (2 / 3) ∧
    f1Score "x" [("x", [("x", 2), ("z", 1)]), ("y", [("x", 1)])] = some (2 / 3) ∧
    precision "y" [("x", [("x", 2), ("z", 1)]), ("y", [("x", 1)])] = none := by decide +kernel
end Examples

end Golearn
