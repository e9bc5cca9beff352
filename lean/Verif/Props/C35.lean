import Verif.Proofs.Eval

/-! # C35: the confusion matrix accounts for every row -/

namespace Golearn

/-- `GetConfusionMatrix` on two tables of `n` rows, each with one class attribute, whose labels are
`k 0, k 1, ...` and `l 0, l 1, ...`: the matrix counts exactly the pairs `(k r, l r)`, and its entries add
up to `n`. -/
theorem C35_confusion_matrix (fo : FloatOps) (ref gen : Grid) (n : Nat) (P : ref.Presents n)
    (Q : gen.Presents n) (a b : Attr) (ha : ref.allClassAttributes = [a]) (hb : gen.allClassAttributes = [b])
    (ham : a ∈ ref.allAttributes) (hbm : b ∈ gen.allAttributes) (k l : Nat → String)
    (hk : ReadsAs fo ref a n k) (hl : ReadsAs fo gen b n l) :
    ∃ c, getConfusionMatrix fo ref gen = Res.ok c ∧
      Counts c ((List.range n).map fun r => (k r, l r)) ∧ c.total = n := by
  obtain ⟨c, e, h⟩ := confLoop_spec (fo := fo) (ref := ref) (gen := gen) (k := k) (l := l) (List.range n)
    (fun r hr => ⟨getClass_ok P ha ham hk (List.mem_range.1 hr), getClass_ok Q hb hbm hl (List.mem_range.1 hr)⟩)
    [] [] Counts.nil
  rw [List.nil_append] at h
  refine ⟨c, ?_, h, by rw [h.total]; simp⟩
  rw [getConfusionMatrix, P.rows, Q.rows, if_neg (by simp), e]

/-- Different numbers of rows are an error. -/
theorem C35_mismatch (fo : FloatOps) (ref gen : Grid) (h : ref.size.2 ≠ gen.size.2) :
    getConfusionMatrix fo ref gen = Res.err := by
  rw [getConfusionMatrix, if_pos h]

section Examples
private def fo0 : FloatOps := ⟨fun _ _ => "", fun _ _ => false⟩
private def aC : Attr := ⟨0, .cat "c" ["x", "y"]⟩
private def ops1 : List Op := [.add aC, .addClass aC, .extend 3, .set 0 1 (packU64 1)]
private def ops2 : List Op := [.add aC, .addClass aC, .extend 3, .set 0 0 (packU64 1), .set 0 1 (packU64 1)]
set_option synthInstance.maxSize 1024 in
set_option synthInstance.maxHeartbeats 200000 in
/-- References x, y, x and predictions y, y, x. -/
example : ((run 4096 ops1).bind fun st => (run 4096 ops2).bind fun su =>
      (getConfusionMatrix fo0 (.dense st.d) (.dense su.d)).map fun c =>
        (decide ((Grid.dense st.d).allClassAttributes = [aC]), c, c.total)) =
    Res.ok (true, [("x", [("y", 1), ("x", 1)]), ("y", [("y", 1)])], 3) := by decide +kernel
end Examples

end Golearn
