import Verif.Model.Eval

/-!
# The printed evaluation (evaluation/confusion.go)

`align` is what the tab writer makes of the text written to it. `ord` is the order of iteration over the map. `fmt0` and `fmt4` print a number
with no and with four decimals; `none` is NaN.
-/

namespace Golearn

/-- How numbers are printed: `%.0f` of a count, and `%.4f`. -/
structure RatFmt where
  fmt0 : Nat → String
  fmt4 : Option ℚ → String

/-- The line of one class, evaluation/confusion.go:187-194. -/
def summaryLine (nf : RatFmt) (c : ConfMat) (k : String) : String :=
  k ++ "\t" ++ nf.fmt0 (truePos k c) ++ "\t" ++ nf.fmt0 (falsePos k c) ++ "\t" ++ nf.fmt0 (trueNeg k c) ++ "\t" ++ nf.fmt4 (precision k c) ++ "\t" ++
    nf.fmt4 (recall k c) ++ "\t" ++ nf.fmt4 (f1Score k c) ++ "\n"

/-- `GetSummary`, evaluation/confusion.go:179-200. -/
def getSummary (nf : RatFmt) (align : String → String) (ord : List String → List String) (c : ConfMat) : String :=
  align ("Reference Class\tTrue Positives\tFalse Positives\tTrue Negatives\tPrecision\tRecall\tF1 Score\n" ++
      "---------------\t--------------\t---------------\t--------------\t---------\t------\t--------\n" ++
      String.join ((ord (c.map Prod.fst)).map (summaryLine nf c))) ++
    ("Overall accuracy: " ++ nf.fmt4 (accuracy c) ++ "\n")

/-- `n` dashes. -/
def dashes (n : Nat) : String := String.join (List.replicate n "-")

/-- `ShowConfusionMatrix`, evaluation/confusion.go:204-236; `len(v)` counts bytes. -/
def showConfusionMatrix (align : String → String) (ord : List String → List String) (c : ConfMat) : String :=
  let ref := ord (c.map Prod.fst)
  align ("Reference Class\t" ++ String.join (ref.map fun k => k ++ "\t") ++ "\n" ++
    "---------------\t" ++ String.join (ref.map fun v => dashes v.utf8ByteSize ++ "\t") ++ "\n" ++
    String.join (ref.map fun v => v ++ "\t" ++ String.join (ref.map fun v2 => toString (c.at v v2) ++ "\t") ++ "\n"))

end Golearn
