import Verif.Proofs.Eval

/-! # C36: per-class counts are complementary -/

namespace Golearn

/-- In a confusion matrix of the given (reference, prediction) pairs, for every class, whether or not it
occurs: true positives and false negatives add up to the rows of the class, true and false positives to
the predictions of the class, and the four counts to the number of rows. Which maps are confusion matrices
is settled by `C35_confusion_matrix`. -/
theorem C36_counts (c : ConfMat) (pairs : List (String × String)) (h : Counts c pairs) (cls : String) :
    truePos cls c = pairs.count (cls, cls) ∧
    truePos cls c + falseNeg cls c = refCount pairs cls ∧
    truePos cls c + falsePos cls c = predCount pairs cls ∧
    truePos cls c + falsePos cls c + falseNeg cls c + trueNeg cls c = pairs.length := by
  have e1 := countP_split (fun p : String × String => p.1 == cls && p.2 == cls)
    (fun p => p.1 == cls && p.2 != cls) (fun _ => false) (fun p => p.1 == cls) pairs (by
      rintro ⟨x, y⟩ _
      by_cases h1 : x = cls <;> by_cases h2 : y = cls <;> simp [h1, h2])
  have e2 := countP_split (fun p : String × String => p.1 == cls && p.2 == cls)
    (fun p => p.1 != cls && p.2 == cls) (fun _ => false) (fun p => p.2 == cls) pairs (by
      rintro ⟨x, y⟩ _
      by_cases h1 : x = cls <;> by_cases h2 : y = cls <;> simp [h1, h2])
  have e3 := countP_split (fun p : String × String => p.2 == cls)
    (fun p => p.1 == cls && p.2 != cls) (fun p => p.1 != cls && p.2 != cls) (fun _ => true) pairs (by
      rintro ⟨x, y⟩ _
      by_cases h1 : x = cls <;> by_cases h2 : y = cls <;> simp [h1, h2])
  have e4 : pairs.countP (fun _ => true) = pairs.length := by simp
  have e5 : pairs.countP (fun _ : String × String => false) = 0 := by simp
  refine ⟨by rw [truePos, h.entry], ?_, ?_, ?_⟩
  · rw [h.truePos, h.falseNeg, refCount]; omega
  · rw [h.truePos, h.falsePos, predCount]; omega
  · rw [h.truePos, h.falseNeg, h.falsePos, h.trueNeg]
    omega

section Examples
/-- A matrix with a class that is only predicted (`z`) and one never predicted (`y`). -/
example : Counts [("x", [("x", 2), ("z", 1)]), ("y", [("x", 1)])] [("x", "x"), ("x", "z"), ("y", "x"), ("x", "x")] :=
  (((Counts.nil.step "x" "x").step "x" "z").step "y" "x").step "x" "x"
end Examples

end Golearn
