import Verif.Model.Template
import Verif.Spec.Csv

/-! # What a file that is read with a template must say -/

namespace Golearn

/-- The lines of a CSV file that can be read: `m` fields on every line, at least one line of data, names that differ. -/
structure CsvReadable (co : CsvOps) (header : Option (List String)) (rows : List (List String)) (m : Nat) : Prop where
  data : rows ≠ []
  wide : ∀ r ∈ rows, r.length = m
  head : ∀ h, header = some h → h.length = m ∧ (h.map co.trim).Nodup

/-- The groups of a grid have different names, and their names and numbers belong together. -/
def GroupNamed (d : Dense) (names : List String) : Prop :=
  names.Nodup ∧ names.length = d.ags.length ∧ d.agMap = names.zipIdx ∧ d.agRevMap = names.zipIdx.map Prod.swap

/-- Attributes that are kept in one group are compatible: categorical ones have the same values. -/
def GroupsCompatible (d : Dense) : Prop := ∀ g ∈ d.ags, ∀ a ∈ g.attrs, ∀ b ∈ g.attrs, a.compatible b = true

/-- An untouched cell. -/
def zeroCell (a : Attr) : Bytes := if a.isBin then [0#8] else packU64 0

/-- What a field that is not empty says in a column. -/
def Says (co : CsvOps) (env : ValEnv) (a : Attr) (v : String) (c : Bytes) : Prop :=
  match a.body with
  | .float _ _ => ∃ b, co.parse (co.trim v) = some b ∧ c = packU64 b
  | .cat _ _ => catGetString (env a.ptr) c = Res.ok (co.trim v)
  | .bin _ => ∃ b, co.parse (co.trim v) = some b ∧ c = if f64Pos b then [1#8] else [0#8]

/-- The grid `d`, with `env` the values of the categorical attributes, has the columns and classes of the template `t` and the rows of the file with columns
`names`: fields go into the column of their name, and the columns that the file does not have are zero. The values of the attributes of
the template keep their numbers; new ones come after them. -/
structure Templated (co : CsvOps) (t : Dense) (names : List String) (rows : List (List String)) (d : Dense) (env : ValEnv) : Prop where
  size : d.size = (t.size.1, rows.length)
  attrs : d.allAttributes.Perm t.allAttributes
  cls : ∀ a, a ∈ d.allClassAttributes ↔ a ∈ t.allClassAttributes
  keeps : ∀ a ∈ t.allAttributes, ∀ n vs, a.body = .cat n vs → vs <+: env a.ptr
  adds : ∀ a ∈ t.allAttributes, ∀ n vs, a.body = .cat n vs → ∀ x ∈ env a.ptr, x ∈ vs ∨
    ∃ (i j : Nat) (v : String), names[j]? = some a.name ∧ field rows i j = some v ∧ v ≠ "" ∧ x = co.trim v
  cells : ∀ a ∈ t.allAttributes, ∀ (i j : Nat) (v : String), names[j]? = some a.name → field rows i j = some v →
    ∃ s c, d.getAttribute a = Res.ok s ∧ d.get s i = Res.ok c ∧ (v = "" → c = zeroCell a) ∧ (v ≠ "" → Says co env a v c)
  others : ∀ a ∈ t.allAttributes, a.name ∉ names → ∀ i, i < rows.length →
    ∃ s, d.getAttribute a = Res.ok s ∧ d.get s i = Res.ok (zeroCell a)

end Golearn
