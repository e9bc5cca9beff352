import Verif.Spec.Report
import Verif.Props.C35
import Verif.Props.C37

/-! # C115: the printed evaluation shows the counts and the metrics -/

namespace Golearn

/-- `ShowConfusionMatrix` prints the table of counts of the labels of the rows. -/
theorem C115_matrix_partial (align : String → String) (ord : List String → List String) (hord : ∀ l, (ord l).Perm l) (c : ConfMat)
    (pairs : List (String × String)) (h : Counts c pairs) :
    ∃ ks, RefLabels ks pairs ∧ showConfusionMatrix align ord c = align (countTable ks pairs) := by
  refine ⟨ord (c.map Prod.fst), ⟨(hord _).nodup_iff.2 h.keys, fun a => by rw [(hord _).mem_iff, h.row]⟩, ?_⟩
  unfold showConfusionMatrix countTable tabLine
  have e1 : "Reference Class\t" = "Reference Class" ++ "\t" := by decide +kernel
  have e2 : "---------------\t" = "---------------" ++ "\t" := by decide +kernel
  simp only [List.map_cons, String.join_cons, List.map_map, h.entry, e1, e2, Function.comp_def, String.append_assoc]

/-- The rows in the table are those whose prediction is also the label of some row: it has all rows exactly when every predicted label is. -/
theorem C115_rows_shown (ks : List String) (pairs : List (String × String)) (hk : RefLabels ks pairs) :
    shownRows ks pairs = pairs.countP (fun p => decide (p.2 ∈ ks)) ∧
    (shownRows ks pairs = pairs.length ↔ ∀ p ∈ pairs, ∃ b, (p.2, b) ∈ pairs) := by
  have e : shownRows ks pairs = pairs.countP (fun p => decide (p.2 ∈ ks)) := by
    unfold shownRows
    have e1 : (ks.map fun a => (ks.map fun b => pairs.count (a, b)).sum) =
        ks.map fun a => pairs.countP fun p => p.1 == a && decide (p.2 ∈ ks) := by
      apply List.map_congr_left
      intro a _
      have := sum_countP ks hk.1 (fun p : String × String => p.2) (fun p => p.1 == a) pairs
      simp only [count_eq_countP', this]
      apply List.countP_congr
      rintro ⟨x, y⟩ _
      simp [and_comm]
    rw [e1, sum_countP ks hk.1 (fun p : String × String => p.1) (fun p => decide (p.2 ∈ ks))]
    apply List.countP_congr
    rintro ⟨x, y⟩ hm
    have : x ∈ ks := (hk.2 x).2 ⟨y, hm⟩
    simp [this]
  refine ⟨e, ?_⟩
  rw [e, List.countP_eq_length]
  simp only [decide_eq_true_eq, hk.2]

/-- `GetSummary` prints a line for each label of the rows, and the share of right predictions. -/
theorem C115_summary_partial (nf : RatFmt) (align : String → String) (ord : List String → List String) (hord : ∀ l, (ord l).Perm l) (c : ConfMat)
    (pairs : List (String × String)) (h : Counts c pairs) :
    ∃ ks, RefLabels ks pairs ∧ getSummary nf align ord c =
      align (String.join ([["Reference Class", "True Positives", "False Positives", "True Negatives", "Precision", "Recall", "F1 Score"],
          ["---------------", "--------------", "---------------", "--------------", "---------", "------", "--------"]].map
            (fun cells => "\t".intercalate cells ++ "\n")) ++
        String.join (ks.map fun k => "\t".intercalate (summaryCells nf pairs k) ++ "\n")) ++
      "Overall accuracy: " ++ nf.fmt4 (if pairs = [] then none else some ((rightCount pairs : ℚ) / pairs.length)) ++ "\n" := by
  have hks : RefLabels (ord (c.map Prod.fst)) pairs := ⟨(hord _).nodup_iff.2 h.keys, fun a => by rw [(hord _).mem_iff, h.row]⟩
  refine ⟨ord (c.map Prod.fst), hks, ?_⟩
  have hacc : accuracy c = if pairs = [] then none else some ((rightCount pairs : ℚ) / pairs.length) := by
    rw [accuracy_eq h, fdiv]
    by_cases hp : pairs = []
    · simp [hp]
    · rw [if_neg hp, if_neg (by simpa using hp)]
  have hline : ∀ k ∈ ord (c.map Prod.fst), summaryLine nf c k = "\t".intercalate (summaryCells nf pairs k) ++ "\n" := by
    intro k hk
    obtain ⟨b, hb⟩ := (hks.2 k).1 hk
    have hpos : 0 < refCount pairs k := by
      unfold refCount
      rw [List.countP_pos_iff]
      exact ⟨(k, b), hb, by simp⟩
    obtain ⟨h1, h2, h3, h4⟩ := C36_counts c pairs h k
    have hfp : falsePos k c = pairs.countP fun p => p.2 = k ∧ p.1 ≠ k := by
      rw [h.falsePos]
      apply List.countP_congr
      rintro ⟨x, y⟩ _
      simp [and_comm]
    have htn : trueNeg k c = pairs.countP fun p => p.1 ≠ k ∧ p.2 ≠ k := by
      rw [h.trueNeg]
      apply List.countP_congr
      rintro ⟨x, y⟩ _
      simp
    have hpr : precision k c = if predCount pairs k = 0 then none else some ((pairs.count (k, k) : ℚ) / predCount pairs k) := by
      rw [precision_eq h, fdiv]
      simp only [Nat.cast_eq_zero]
    have hre : recall k c = some ((pairs.count (k, k) : ℚ) / refCount pairs k) := by
      rw [recall_eq h, fdiv, if_neg (by simpa using hpos.ne')]
    have hf1 : f1Score k c =
        if pairs.count (k, k) = 0 then none else some (2 * (pairs.count (k, k) : ℚ) / (predCount pairs k + refCount pairs k)) := by
      unfold f1Score
      rw [hpr, hre]
      have hle : pairs.count (k, k) ≤ predCount pairs k := by omega
      by_cases hp : predCount pairs k = 0
      · rw [if_pos hp, if_pos (by omega)]; rfl
      · rw [if_neg hp]
        simp only [Option.bind_some, fdiv]
        have hp' : (predCount pairs k : ℚ) ≠ 0 := by exact_mod_cast hp
        have hr' : (refCount pairs k : ℚ) ≠ 0 := by exact_mod_cast hpos.ne'
        by_cases ht : pairs.count (k, k) = 0
        · simp [ht]
        · have ht' : (pairs.count (k, k) : ℚ) ≠ 0 := by exact_mod_cast ht
          have hpp : (0 : ℚ) < predCount pairs k := lt_of_le_of_ne (Nat.cast_nonneg _) hp'.symm
          have hrr : (0 : ℚ) < refCount pairs k := lt_of_le_of_ne (Nat.cast_nonneg _) hr'.symm
          have htt : (0 : ℚ) < pairs.count (k, k) := lt_of_le_of_ne (Nat.cast_nonneg _) ht'.symm
          have hs : (pairs.count (k, k) : ℚ) / predCount pairs k + pairs.count (k, k) / refCount pairs k ≠ 0 := by positivity
          rw [if_neg hs, if_neg ht]
          congr 1
          field_simp
          try ring
    unfold summaryLine summaryCells
    rw [h1, hfp, htn, hpr, hre, hf1]
    simp only [String.intercalate_cons_of_ne_nil (List.cons_ne_nil _ _), String.intercalate_singleton, String.append_assoc]
  have hhead : String.join ([["Reference Class", "True Positives", "False Positives", "True Negatives", "Precision", "Recall", "F1 Score"],
      ["---------------", "--------------", "---------------", "--------------", "---------", "------", "--------"]].map
        (fun cells => "\t".intercalate cells ++ "\n")) =
      "Reference Class\tTrue Positives\tFalse Positives\tTrue Negatives\tPrecision\tRecall\tF1 Score\n" ++
      "---------------\t--------------\t---------------\t--------------\t---------\t------\t--------\n" := by decide +kernel
  unfold getSummary
  rw [hacc, List.map_congr_left hline, hhead]
  simp only [String.append_assoc]

/-- From the two tables to the printed matrix. -/
theorem C115_tables_partial (fo : FloatOps) (ref gen : Grid) (n : Nat) (P : ref.Presents n) (Q : gen.Presents n) (a b : Attr)
    (ha : ref.allClassAttributes = [a]) (hb : gen.allClassAttributes = [b]) (ham : a ∈ ref.allAttributes) (hbm : b ∈ gen.allAttributes)
    (k l : Nat → String) (hk : ReadsAs fo ref a n k) (hl : ReadsAs fo gen b n l) (align : String → String) (ord : List String → List String)
    (hord : ∀ l, (ord l).Perm l) :
    ∃ c ks, getConfusionMatrix fo ref gen = Res.ok c ∧ RefLabels ks ((List.range n).map fun r => (k r, l r)) ∧
      showConfusionMatrix align ord c = align (countTable ks ((List.range n).map fun r => (k r, l r))) ∧
      ((∀ r, r < n → ∃ r', r' < n ∧ k r' = l r) ↔ shownRows ks ((List.range n).map fun r => (k r, l r)) = n) := by
  obtain ⟨c, e, h, -⟩ := C35_confusion_matrix fo ref gen n P Q a b ha hb ham hbm k l hk hl
  obtain ⟨ks, h1, h2⟩ := C115_matrix_partial align ord hord c _ h
  refine ⟨c, ks, e, h1, h2, ?_⟩
  have := (C115_rows_shown ks _ h1).2
  rw [List.length_map, List.length_range] at this
  rw [this]
  simp only [List.mem_map, List.mem_range, Prod.mk.injEq]
  constructor
  · rintro H p ⟨r, hr, rfl⟩
    obtain ⟨r', hr', e⟩ := H r hr
    exact ⟨l r', r', hr', e, rfl⟩
  · intro H r hr
    obtain ⟨b, r', hr', e, -⟩ := H (k r, l r) ⟨r, hr, rfl⟩
    exact ⟨r', hr', e⟩

namespace C115

def nf : RatFmt := ⟨fun n => toString n, fun q => match q with | none => "NaN" | some q => toString q.num ++ "/" ++ toString q.den⟩
def pairs : List (String × String) := [("x", "x"), ("x", "y"), ("y", "y"), ("y", "y")]
def mat : ConfMat := [("x", [("x", 1), ("y", 1)]), ("y", [("y", 2)])]
/-- The label `z` is only predicted. -/
def pairs' : List (String × String) := [("x", "x"), ("y", "z")]
def mat' : ConfMat := [("x", [("x", 1)]), ("y", [("z", 1)])]

end C115

open C115 in
theorem C115_witness :
    Counts mat pairs ∧
    showConfusionMatrix id List.reverse mat = "Reference Class\ty\tx\t\n---------------\t-\t-\t\ny\t2\t0\t\nx\t1\t1\t\n" ∧
    getSummary nf id id mat = String.join ["Reference Class\tTrue Positives\tFalse Positives\tTrue Negatives\tPrecision\tRecall\tF1 Score\n",
      "---------------\t--------------\t---------------\t--------------\t---------\t------\t--------\n",
      "x\t1\t0\t2\t1/1\t1/2\t2/3\n", "y\t2\t1\t1\t2/3\t1/1\t4/5\n", "Overall accuracy: 3/4\n"] := by
  refine ⟨(((Counts.nil.step "x" "x").step "x" "y").step "y" "y").step "y" "y", by decide +kernel, by decide +kernel⟩

open C115 in
/-- A label that is only predicted has no column, so a row is missing from the printed matrix, and no line in the summary. -/
theorem C115_refuted :
    Counts mat' pairs' ∧ RefLabels ["x", "y"] pairs' ∧ shownRows ["x", "y"] pairs' = 1 ∧ pairs'.length = 2 ∧
    showConfusionMatrix id id mat' = "Reference Class\tx\ty\t\n---------------\t-\t-\t\nx\t1\t0\t\ny\t0\t0\t\n" ∧
    getSummary nf id id mat' = String.join ["Reference Class\tTrue Positives\tFalse Positives\tTrue Negatives\tPrecision\tRecall\tF1 Score\n",
      "---------------\t--------------\t---------------\t--------------\t---------\t------\t--------\n",
      "x\t1\t0\t1\t1/1\t1/1\t1/1\n", "y\t0\t0\t1\tNaN\t0/1\tNaN\n", "Overall accuracy: 1/2\n"] := by
  refine ⟨(Counts.nil.step "x" "x").step "y" "z", ⟨by decide, ?_⟩, by decide, rfl, by decide +kernel, by decide +kernel⟩
  intro a
  simp only [pairs', List.mem_cons, Prod.mk.injEq, List.not_mem_nil, or_false]
  constructor
  · rintro (h | h)
    · exact ⟨"x", Or.inl ⟨h, rfl⟩⟩
    · exact ⟨"z", Or.inr ⟨h, rfl⟩⟩
  · rintro ⟨b, h | h⟩
    · exact Or.inl h.1
    · exact Or.inr h.1

end Golearn
