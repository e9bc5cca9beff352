import Verif.Model.Text
import Mathlib.Data.List.Forall2

/-! # Decimals of numbers in a text -/

namespace Golearn

/-- The digits that follow directly after each dot: the largest number of them. -/
def fracRun : Text → Nat
  | [] => 0
  | c :: cs => max (if c = '.' then (cs.takeWhile isDigit).length else 0) (fracRun cs)

/-- A number with a dot, `n` digits after it: perhaps characters that are no digits, such as a sign, then digits, the dot and `n` digits. -/
def IsDecimal (t : Text) (n : Nat) : Prop :=
  ∃ sign whole frac : Text, t = sign ++ whole ++ '.' :: frac ∧ (∀ c ∈ sign, isDigit c = false) ∧ whole ≠ [] ∧ (∀ c ∈ whole, isDigit c = true) ∧
    frac ≠ [] ∧ (∀ c ∈ frac, isDigit c = true) ∧ n = frac.length

/-- A text that is not a number with a dot: it has no digits. -/
def NoDigits (t : Text) : Prop := ∀ c ∈ t, isDigit c = false

/-- The fields of a line: numbers with a dot and their decimals, or texts without digits. -/
def FieldsWith (fields : List Text) (ns : List Nat) : Prop :=
  List.Forall₂ (fun t n => IsDecimal t n ∨ (NoDigits t ∧ n = 0)) fields ns

end Golearn
