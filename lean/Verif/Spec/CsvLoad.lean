import Verif.Model.CsvText
import Verif.Spec.Csv
import Verif.Spec.Table

/-! # A file of training data, and the table it is loaded as -/

namespace Golearn

/-- A field without the space around it. -/
def trimmed (s : String) : String := String.ofList (trimSpace s.toList)

/-- A column is one of numbers when the field on its first line looks like a number. -/
def NumberColumn (rows : List (List String)) (j : Nat) : Prop := ∃ v, field rows 0 j = some v ∧ looksNumeric v.toList = true

/-- The label of a line is its last field. -/
def lineLabel (rows : List (List String)) (m : Nat) (i : Nat) : String := trimmed ((field rows i (m - 1)).getD "")

/-- The text of a file of training data: perhaps a line of names, and at least one line of data; at least two columns, with
different names; no empty field; fields that can be read as numbers in the columns of numbers; and a class, in the last column,
that is no number. -/
structure DataFile (parse : String → Option U64) (text : Text) (header : Option (List String)) (rows : List (List String)) (m : Nat) :
    Prop where
  reads : csvRead text = Res.ok ((header.toList ++ rows).map fun r => r.map String.toList)
  lines : rows ≠ []
  columns : 2 ≤ m
  fields : ∀ r ∈ rows, r.length = m
  names : ∀ h, header = some h → h.length = m ∧ (h.map trimmed).Nodup
  filled : ∀ i j v, field rows i j = some v → v ≠ ""
  numbers : ∀ i j v, NumberColumn rows j → field rows i j = some v → (parse (trimmed v)).isSome = true
  classes : ¬ NumberColumn rows (m - 1)
  small : rows.length * m < 2 ^ 64

/-- The names of the columns: those of the header, or the column numbers. -/
def columnNames (header : Option (List String)) (m : Nat) : List String :=
  match header with
  | some h => h.map trimmed
  | none => (List.range m).map Nat.repr

/-- The table `d` says what the lines say: `cols` are its columns in the order of the file. -/
structure Loaded (parse : String → Option U64) (names : List String) (rows : List (List String)) (m : Nat) (d : Dense) (cols : List Attr) :
    Prop where
  size : d.size = (m, rows.length)
  attrs : d.allAttributes.Perm cols
  named : cols.map Attr.name = names
  /-- a column of numbers has them in its cells -/
  numeric : ∀ j a, cols[j]? = some a → NumberColumn rows j → a.isFloat = true ∧
    ∀ i v, field rows i j = some v → ∃ b, parse (trimmed v) = some b ∧ (Grid.dense d).cell a i = packU64 b
  /-- any other column has as its values the texts in it, each once, and its cells read as these texts -/
  textual : ∀ j a, cols[j]? = some a → ¬ NumberColumn rows j → ∃ p nm vs, a = ⟨p, .cat nm vs⟩ ∧ vs.Nodup ∧
    (∀ x, x ∈ vs ↔ ∃ i v, field rows i j = some v ∧ x = trimmed v) ∧
    ∀ i v, field rows i j = some v → catGetString vs ((Grid.dense d).cell a i) = Res.ok (trimmed v)
  /-- the last column is the class -/
  cls : ∀ a, cols.getLast? = some a → d.allClassAttributes = [a]

end Golearn
