import Verif.Spec.Tree

/-! # Specification vocabulary: pruning -/

namespace Golearn

/-- Data to prune with: a table of `n` rows, at least one, with values that can be read, and one class attribute, which is
categorical and reads as the labels `lab`. -/
structure PruneData (fo : FloatOps) (g : Grid) (n : Nat) (lab : Nat → String) (cls : Attr) : Prop where
  rows : g.Presents n
  distinct : g.distinct
  typed : g.typed n
  readable : g.Readable fo n
  nonempty : 0 < n
  width : g.size.1 = g.allAttributes.length
  classAttr : g.allClassAttributes = [cls]
  classIn : cls ∈ g.allAttributes
  label : ReadsAs fo g cls n lab
  cats : ∃ p nm vs, cls = ⟨p, .cat nm vs⟩ ∧ vs.length + n ≤ 2 ^ 64

/-- The tree has a branch for every value the row has on its way down. -/
def Tree.Knows (key : Rule → Nat → String) : Tree → Nat → Prop
  | .leaf _ _, _ => True
  | .split _ _ r keys child, row => key r row ∈ keys ∧ (child (key r row)).Knows key row

/-- The class of a row whose values the tree knows. -/
def Tree.classOf (key : Rule → Nat → String) : Tree → Nat → String
  | .leaf _ c, _ => c
  | .split _ _ r _ child, row => (child (key r row)).classOf key row

/-- The number of rows among `rows` whose class is their label. -/
def Tree.right (key : Rule → Nat → String) (lab : Nat → String) (t : Tree) (rows : List Nat) : Nat :=
  rows.countP fun r => t.classOf key r == lab r

/-- No number prints as the name of a branch of a numeric test. -/
def Grid.NumbersApart (fo : FloatOps) (g : Grid) (n : Nat) : Prop :=
  ∀ a ∈ g.allAttributes, a.isFloat = true → ∀ r, r < n → ∀ s, a.getString fo (g.cell a r) = Res.ok s → s ≠ "0" ∧ s ≠ "1"

/-- The conditions under which a tree is pruned. -/
structure PruneEnv.Ok (e : PruneEnv) : Prop where
  sort : ∀ l, (e.srt l).Perm l
  rowOrder : ∀ p (g : Grid), g.RowOrder (e.order p g)
  pred : ∀ p b, (e.pred p b).Ok
  fo : ∀ p b, (e.pred p b).fo = e.fo

end Golearn
