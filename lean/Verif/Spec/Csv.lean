import Verif.Model.Csv

/-! # What a parsed CSV must say -/

namespace Golearn

/-- The field of line `i` in column `j`. -/
def field (rows : List (List String)) (i j : Nat) : Option String := rows[i]?.bind (·[j]?)

/-- A column is numeric when its field on the first data line looks like a number. -/
def numericCol (co : CsvOps) (rows : List (List String)) (j : Nat) : Bool :=
  ((field rows 0 j).map co.isNum).getD false

/-- The grid `d`, with `env` the values of the categorical attributes, is the table of `rows`: one
column per name, and reading line `i` of column `j` gives that field. -/
structure Parsed (co : CsvOps) (names : List String) (rows : List (List String)) (d : Dense)
    (env : ValEnv) (cols : List Attr) : Prop where
  /-- as many rows as data lines, as many columns as names -/
  size : d.size = (names.length, rows.length)
  attrs : d.allAttributes.Perm cols
  named : cols.map Attr.name = names
  kinds : ∀ j a, cols[j]? = some a → a.isBin = false ∧ a.isCat = !numericCol co rows j
  /-- the last column is the class -/
  cls : ∀ a, a ∈ d.allClassAttributes ↔ cols.getLast? = some a
  /-- every cell -/
  cells : ∀ i j a v, cols[j]? = some a → field rows i j = some v →
    ∃ s c, d.getAttribute a = Res.ok s ∧ d.get s i = Res.ok c ∧
      (v = "" → c = packU64 0) ∧
      (v ≠ "" → a.isCat = false → ∃ b, co.parse (co.trim v) = some b ∧ c = packU64 b) ∧
      (v ≠ "" → a.isCat = true → catGetString (env a.ptr) c = Res.ok (co.trim v))
  /-- the values of a categorical column are the strings in it, each once -/
  values : ∀ j a, cols[j]? = some a → a.isCat = true → (env a.ptr).Nodup ∧
    ∀ x, x ∈ env a.ptr ↔ ∃ i v, field rows i j = some v ∧ v ≠ "" ∧ x = co.trim v

/-- The input of the parser for data lines `rows`, with the header line if there is one. -/
def csvInput (header : Option (List String)) (rows : List (List String)) : List (List String) :=
  header.toList ++ rows

/-- The column names: the header, or the column numbers. -/
def csvColNames (co : CsvOps) (header : Option (List String)) (m : Nat) : List String :=
  match header with
  | some h => h.map co.trim
  | none => (List.range m).map Nat.repr

end Golearn
