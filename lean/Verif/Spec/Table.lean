import Verif.Model.Grid

/-!
# What it means for a data grid to be a table

These definitions use only the public interface of a grid: `AllAttributes`, `GetAttribute`, `Get`,
`Size` and `MapOverRows`.
-/

namespace Golearn

/-- The value a client sees in the column of attribute `a`, row `r`: resolve the attribute, then
read. (The default is never used for a grid that `Presents` its rows.) -/
def Grid.cell (g : Grid) (a : Attr) (r : Nat) : Bytes :=
  match g.getAttribute a with
  | .ok s => match g.get s r with
    | .ok v => v
    | _ => []
  | _ => []

/-- The attributes of a grid are pairwise different under `Equals`. -/
def Grid.distinct (g : Grid) : Prop :=
  g.allAttributes.Pairwise (fun a b => a.equals b = false)

/-- `g` behaves as a table of `n` rows: every attribute resolves to a specification for it, every
cell can be read, and iterating visits each row once with the values that `Get` returns. -/
structure Grid.Presents (g : Grid) (n : Nat) : Prop where
  rows : g.size.2 = n
  read : ∀ a ∈ g.allAttributes, ∃ s, g.getAttribute a = Res.ok s ∧ s.attr = a ∧
    ∀ r, r < n → g.get s r = Res.ok (g.cell a r)
  order : ∀ o, g.RowOrder o → o.Perm (List.range n)
  iter : ∀ specs, (∀ s ∈ specs, ∃ a ∈ g.allAttributes, g.getAttribute a = Res.ok s) →
    g.mapPrep specs = Res.ok () ∧
    ∀ r, r < n → g.rowVals specs r = Res.ok (specs.map fun s => g.cell s.attr r)

/-- A value of the form the attribute stores: eight bytes, or a 0/1 byte for binary attributes. -/
def wellFormed (a : Attr) (v : Bytes) : Prop :=
  if a.isBin then v = [0#8] ∨ v = [1#8] else v.length = 8

instance (a : Attr) (v : Bytes) : Decidable (wellFormed a v) := by
  unfold wellFormed; infer_instance

/-- Every cell holds a value of the form its attribute stores. -/
def Grid.typed (g : Grid) (n : Nat) : Prop :=
  ∀ a ∈ g.allAttributes, ∀ r, r < n → wellFormed a (g.cell a r)

end Golearn
