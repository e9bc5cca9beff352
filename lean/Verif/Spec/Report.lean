import Verif.Spec.Eval
import Verif.Model.Report

/-! # What a printed evaluation should show -/

namespace Golearn

/-- A line of a table: each cell ended by a tab. -/
def tabLine (cells : List String) : String := String.join (cells.map fun x => x ++ "\t") ++ "\n"

/-- The table of counts for the labels `ks`: a line per reference label, a column per predicted label. -/
def countTable (ks : List String) (pairs : List (String × String)) : String :=
  tabLine ("Reference Class" :: ks) ++ tabLine ("---------------" :: ks.map fun k => dashes k.utf8ByteSize) ++
    String.join (ks.map fun a => tabLine (a :: ks.map fun b => toString (pairs.count (a, b))))

/-- The labels of the rows, each once. -/
def RefLabels (ks : List String) (pairs : List (String × String)) : Prop := ks.Nodup ∧ ∀ a, a ∈ ks ↔ ∃ b, (a, b) ∈ pairs

/-- The number of rows in the table of counts. -/
def shownRows (ks : List String) (pairs : List (String × String)) : Nat := (ks.map fun a => (ks.map fun b => pairs.count (a, b)).sum).sum

/-- The cells of a line of the summary: the label, how many rows are rightly and wrongly predicted as it, how many rows neither have nor were predicted
the label, the share of right ones among the rows predicted and among the rows that have it, and the harmonic mean of the shares. -/
def summaryCells (nf : RatFmt) (pairs : List (String × String)) (k : String) : List String :=
  [k, nf.fmt0 (pairs.count (k, k)), nf.fmt0 (pairs.countP fun p => p.2 = k ∧ p.1 ≠ k), nf.fmt0 (pairs.countP fun p => p.1 ≠ k ∧ p.2 ≠ k),
    nf.fmt4 (if predCount pairs k = 0 then none else some ((pairs.count (k, k) : ℚ) / predCount pairs k)),
    nf.fmt4 (some ((pairs.count (k, k) : ℚ) / refCount pairs k)),
    nf.fmt4 (if pairs.count (k, k) = 0 then none else some (2 * (pairs.count (k, k) : ℚ) / (predCount pairs k + refCount pairs k)))]

end Golearn
