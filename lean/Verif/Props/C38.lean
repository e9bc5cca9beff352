import Verif.Props.C37

/-! # C38: micro-averaged precision counts all predictions -/

namespace Golearn

theorem micro_true {c : ConfMat} {pairs : List (String × String)} (h : Counts c pairs) :
    ((c.map Prod.fst).map fun k => truePos k c).sum = rightCount pairs := by
  unfold rightCount
  rw [← h.keySum]
  congr 1
  apply List.map_congr_left
  intro k _
  rw [h.truePos]
  apply List.countP_congr
  rintro ⟨x, y⟩ _
  simp only [Bool.and_eq_true, beq_iff_eq]
  constructor
  · rintro ⟨rfl, rfl⟩; exact ⟨rfl, rfl⟩
  · rintro ⟨rfl, rfl⟩; exact ⟨rfl, rfl⟩

/-- `GetMicroRecall` is the fraction of right predictions, that is, the accuracy. -/
theorem C38_micro_recall (c : ConfMat) (pairs : List (String × String)) (h : Counts c pairs) :
    microRecall c = fdiv (rightCount pairs) pairs.length ∧ microRecall c = accuracy c := by
  have hf : ((c.map Prod.fst).map fun k => falseNeg k c).sum = pairs.countP fun p => p.1 != p.2 := by
    rw [← h.keySum]
    congr 1
    apply List.map_congr_left
    intro k _
    rw [h.falseNeg]
    apply List.countP_congr
    rintro ⟨x, y⟩ _
    simp only [Bool.and_eq_true, beq_iff_eq, bne_iff_ne]
    constructor
    · rintro ⟨rfl, h2⟩; exact ⟨rfl, fun e => h2 e.symm⟩
    · rintro ⟨rfl, h2⟩; exact ⟨rfl, fun e => h2 e.symm⟩
  have hs : rightCount pairs + (pairs.countP fun p => p.1 != p.2) = pairs.length := by
    have := countP_split (fun p : String × String => p.1 == p.2) (fun p => p.1 != p.2) (fun _ => false)
      (fun _ => true) pairs (by rintro ⟨x, y⟩ _; by_cases h1 : x = y <;> simp [h1])
    simp at this
    simpa [rightCount] using this
  have e : microRecall c = fdiv (rightCount pairs) pairs.length := by
    unfold microRecall
    simp only [micro_true h, hf]
    rw [← hs]
    push_cast
    rfl
  exact ⟨e, by rw [e, accuracy_eq h]⟩

/-- What `GetMicroPrecision` computes: the right predictions divided by the number of predictions whose
label is also a reference label. -/
theorem C38_micro_precision_value (c : ConfMat) (pairs : List (String × String)) (h : Counts c pairs) :
    microPrecision c =
      fdiv (rightCount pairs) (pairs.countP fun p => decide (∃ q ∈ pairs, q.1 = p.2)) := by
  have hf : ((c.map Prod.fst).map fun k => falsePos k c).sum =
      pairs.countP fun p => decide (p.2 ∈ c.map Prod.fst) && p.1 != p.2 := by
    rw [← sum_countP _ h.keys (fun p : String × String => p.2) (fun p => p.1 != p.2)]
    congr 1
    apply List.map_congr_left
    intro k _
    rw [h.falsePos]
    apply List.countP_congr
    rintro ⟨x, y⟩ _
    simp only [Bool.and_eq_true, beq_iff_eq, bne_iff_ne]
    constructor
    · rintro ⟨h2, rfl⟩; exact ⟨rfl, h2⟩
    · rintro ⟨rfl, h2⟩; exact ⟨h2, rfl⟩
  have hmem : ∀ b : String, b ∈ c.map Prod.fst ↔ ∃ q ∈ pairs, q.1 = b := by
    intro b
    rw [h.row]
    exact ⟨fun ⟨x, hx⟩ => ⟨_, hx, rfl⟩, fun ⟨⟨_, y⟩, hq, e⟩ => ⟨y, e ▸ hq⟩⟩
  have hs : rightCount pairs + (pairs.countP fun p => decide (p.2 ∈ c.map Prod.fst) && p.1 != p.2) =
      pairs.countP fun p => decide (∃ q ∈ pairs, q.1 = p.2) := by
    have := countP_split (fun p : String × String => p.1 == p.2)
      (fun p => decide (p.2 ∈ c.map Prod.fst) && p.1 != p.2) (fun _ => false)
      (fun p => decide (∃ q ∈ pairs, q.1 = p.2)) pairs (by
        rintro ⟨x, y⟩ hm
        by_cases h1 : x = y
        · subst h1
          have : ∃ q ∈ pairs, q.1 = x := ⟨_, hm, rfl⟩
          simp only [beq_self_eq_true, if_true, bne_self_eq_false, Bool.and_false, Bool.false_eq_true, if_false]
          rw [if_pos (decide_eq_true this)]
        · have hd : decide (y ∈ c.map Prod.fst) = decide (∃ q ∈ pairs, q.1 = y) := by
            rw [decide_eq_decide]; exact hmem y
          simp only [hd]
          by_cases h2 : ∃ q ∈ pairs, q.1 = y
          · simp only [decide_eq_true h2]; simp [h1]
          · simp only [decide_eq_false h2]; simp [h1])
    simpa [rightCount] using this
  unfold microPrecision
  simp only [micro_true h, hf]
  rw [← hs]
  push_cast
  rfl

/-- The claim: micro-averaged precision is the fraction of all predictions that are right. -/
def MicroPrecisionIsAccuracy : Prop :=
  ∀ (c : ConfMat) (pairs : List (String × String)), Counts c pairs → microPrecision c = accuracy c

/-- The claim holds when every predicted label is also a reference label; otherwise micro-averaged
precision is at least the accuracy. Missing: the claim itself, which fails, see
`C38_micro_precision_fails`. -/
theorem C38_micro_precision_partial (c : ConfMat) (pairs : List (String × String)) (h : Counts c pairs) :
    ((∀ p ∈ pairs, ∃ q ∈ pairs, q.1 = p.2) → microPrecision c = accuracy c) ∧
    (∀ x y, microPrecision c = some x → accuracy c = some y → 0 ≤ x ∧ x ≤ 1 ∧ y ≤ x) := by
  rw [C38_micro_precision_value c pairs h, accuracy_eq h]
  have hle : rightCount pairs ≤ pairs.countP fun p => decide (∃ q ∈ pairs, q.1 = p.2) := by
    apply List.countP_mono_left
    rintro ⟨x, y⟩ hm hxy
    simp only [beq_iff_eq] at hxy
    exact decide_eq_true ⟨_, hm, hxy⟩
  constructor
  · intro hall
    congr 1
    have : (pairs.countP fun p => decide (∃ q ∈ pairs, q.1 = p.2)) = pairs.length := by
      rw [List.countP_eq_length]
      intro p hp
      exact decide_eq_true (hall p hp)
    rw [this]
  · intro x y hx hy
    obtain ⟨hb, e1, e2, e3, _⟩ := fdiv_frac hle hx
    obtain ⟨hb', e1', _, _, _⟩ := fdiv_frac List.countP_le_length hy
    refine ⟨e2, e3, ?_⟩
    rw [e1, e1']
    apply div_le_div_of_nonneg_left
    · positivity
    · exact_mod_cast Nat.pos_of_ne_zero hb
    · exact_mod_cast List.countP_le_length

section Examples
private def pr : List (String × String) := [("x", "x"), ("x", "z")]

/-- One row labelled `x` is predicted as `z`, which no row is labelled with: the wrong prediction is not
counted, and micro-averaged precision is 1 although half of the predictions are wrong. -/
theorem C38_micro_precision_fails : ¬ MicroPrecisionIsAccuracy := by
  intro H
  have hc : Counts [("x", [("x", 1), ("z", 1)])] pr := (Counts.nil.step "x" "x").step "x" "z"
  have := H _ _ hc
  revert this
  decide +kernel

/-- Pairs meeting the hypothesis of the partial theorem. -/
example : ∀ p ∈ [("x", "y"), ("y", "y"), ("x", "x")], ∃ q ∈ [("x", "y"), ("y", "y"), ("x", "x")], q.1 = p.2 := by
  decide
end Examples

end Golearn
