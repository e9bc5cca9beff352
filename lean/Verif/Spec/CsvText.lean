import Verif.Model.CsvText
import Mathlib.Data.List.Infix

/-! # What the text of a CSV file says -/

namespace Golearn

/-- A text without a carriage return before a newline. -/
def NoCRLF (t : Text) : Prop := ¬ ['\r', '\n'] <:+: t

instance (t : Text) : Decidable (NoCRLF t) := by unfold NoCRLF; infer_instance

/-- One digit or more. -/
def IsDigits (t : Text) : Prop := t ≠ [] ∧ ∀ c ∈ t, isDigit c = true

/-- No sign, or one sign. -/
def IsSign (t : Text) : Prop := t = [] ∨ t = ['-'] ∨ t = ['+']

/-- A number: a sign or none; digits, or a dot and digits, with digits before the dot or not; and an exponent or none. -/
def IsNumber (t : Text) : Prop :=
  ∃ sign int frac exp, t = sign ++ int ++ frac ++ exp ∧ IsSign sign ∧
    (IsDigits int ∧ frac = [] ∨ (int = [] ∨ IsDigits int) ∧ ∃ f, frac = '.' :: f ∧ IsDigits f) ∧
    (exp = [] ∨ ∃ e s d, exp = e :: s ++ d ∧ (e = 'e' ∨ e = 'E') ∧ IsSign s ∧ IsDigits d)

/-- The rows of the file of a table, after the header: for each row the texts of its cells, in the order of the columns. -/
def csvTable (attrs : List Attr) (order : List Nat) (txt : Attr → Nat → String) : List (List String) :=
  order.map fun r => attrs.map fun a => txt a r

/-- The text of a file with these lines, quoted where needed. -/
def csvFile (attrs : List Attr) (order : List Nat) (txt : Attr → Nat → String) : Text :=
  csvWrite ((attrs.map Attr.name :: csvTable attrs order txt).map fun r => r.map String.toList)

/-- What is asked of a table that is written and read again: there are rows and columns; the names are different when space around them is left out; no name and
no text has a carriage return before a newline; in a table of one column there is no empty text; and in a column that starts with a number the texts
are numbers, or empty. -/
structure CsvWritable (parse : String → Option U64) (attrs : List Attr) (order : List Nat) (txt : Attr → Nat → String) : Prop where
  rows : order ≠ []
  columns : attrs ≠ []
  names : (attrs.map fun a => trimSpace a.name.toList).Nodup
  nameText : ∀ a ∈ attrs, NoCRLF a.name.toList
  cellText : ∀ a ∈ attrs, ∀ r ∈ order, NoCRLF (txt a r).toList
  single : ∀ a, attrs = [a] → a.name ≠ "" ∧ ∀ r ∈ order, txt a r ≠ ""
  numbers : ∀ a ∈ attrs, ∀ r0, order.head? = some r0 → looksNumeric (txt a r0).toList = true →
    ∀ r ∈ order, txt a r ≠ "" → (parse (String.ofList (trimSpace (txt a r).toList))).isSome = true
  small : order.length * attrs.length < 2 ^ 64

end Golearn
