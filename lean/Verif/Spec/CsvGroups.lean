import Verif.Spec.Template

/-! # What a file that is read with groups must say -/

namespace Golearn

/-- The attribute of column `j`: the one given for it, or a new one with the name of the column, numeric if the first line of data has a number. -/
def csvColumns (co : CsvOps) (fresh : Nat → Nat) (header : Option (List String)) (rows : List (List String)) (m : Nat) (over : Nat → Option Attr) :
    List Attr :=
  (List.range m).map fun j =>
    let name := ((csvColNames co header m)[j]?).getD ""
    (over j).getD (if numericCol co rows j then ⟨fresh j, .float name co.prec⟩ else ⟨fresh j, .cat name []⟩)

/-- The group asked for a column: that of the class groups, if there is one. -/
def askedGroup (groups clsGroups : GoMap String String) (a : Attr) : Option String := (clsGroups.get? a.name).or (groups.get? a.name)

/-- A name that `AddAttribute` gives to a group, base/dense.go:199-218. -/
def AutoName (n : String) : Prop := ∃ k : Nat, n = "CAT" ++ toString k ∨ n = "FLOAT" ++ toString k ∨ n = "BIN" ++ toString k

/-- The grid `d`, with `env` the values of the categorical attributes, has the columns `cols`, grouped and marked as asked, and the lines
`rows`, with `extra` rows of zeros after them. -/
structure GroupParsed (co : CsvOps) (groups clsGroups : GoMap String String) (cols : List Attr) (rows : List (List String)) (extra : Nat) (d : Dense)
    (env : ValEnv) : Prop where
  size : d.size = (cols.length, rows.length + extra)
  attrs : d.allAttributes.Perm cols
  cls : ∀ a, a ∈ d.allClassAttributes ↔ a ∈ cols ∧ (clsGroups.get? a.name).isSome = true
  grouped : ∀ n, n ∈ groups.map Prod.snd ∨ n ∈ clsGroups.map Prod.snd → ∃ id g, d.agMap.get? n = some id ∧ d.ags[id]? = some g ∧
    g.attrs = cols.filter fun a => askedGroup groups clsGroups a == some n
  keeps : ∀ a ∈ cols, ∀ n vs, a.body = .cat n vs → vs <+: env a.ptr
  adds : ∀ (j : Nat) (a : Attr), cols[j]? = some a → ∀ n vs, a.body = .cat n vs → ∀ x ∈ env a.ptr, x ∈ vs ∨
    ∃ (i : Nat) (v : String), field rows i j = some v ∧ v ≠ "" ∧ x = co.trim v
  cells : ∀ (i j : Nat) (a : Attr) (v : String), cols[j]? = some a → field rows i j = some v →
    ∃ s c, d.getAttribute a = Res.ok s ∧ d.get s i = Res.ok c ∧ (v = "" → c = zeroCell a) ∧ (v ≠ "" → Says co env a v c)
  rest : ∀ a ∈ cols, ∀ i, rows.length ≤ i → i < rows.length + extra → ∃ s, d.getAttribute a = Res.ok s ∧ d.get s i = Res.ok (zeroCell a)

end Golearn
