import Verif.Model.Tree
import Verif.Spec.Knn

/-! # Specification vocabulary: decision trees -/

namespace Golearn

/-- The branch a row takes at a rule: for a float attribute "1" if the value is above the threshold and "0" if not,
for any other the value as a string. -/
def Grid.branch (fo : FloatOps) (g : Grid) (r : Rule) (row : Nat) : String :=
  if r.attr.isFloat then
    match unpackFloatBits (g.cell r.attr row) with
    | .ok u => if fo.gt u r.val then "1" else "0"
    | _ => ""
  else
    match r.attr.getString fo (g.cell r.attr row) with
    | .ok s => s
    | _ => ""

/-- The node describes the rows `rows`: its class is a most frequent label and its distribution counts the labels, each
of them once. -/
def Describes (lab : Nat → String) (rows : List Nat) (dist : GoMap String Nat) (cls : String) : Prop :=
  Majority (rows.map lab) cls ∧ (∀ c, (dist.get? c).getD 0 = (rows.map lab).count c) ∧
  (∀ c, (dist.get? c).isSome ↔ c ∈ rows.map lab) ∧ (dist.map Prod.fst).Nodup

/-- The tree fits training rows: every node describes the rows that reach it, a node that splits has rows with different
labels and a branch for exactly the values that occur, and the rows of a branch reach its child. -/
def Tree.Fits (key : Rule → Nat → String) (lab : Nat → String) : Tree → List Nat → Prop
  | .leaf d c, rows => Describes lab rows d c
  | .split d c r keys child, rows =>
    Describes lab rows d c ∧ (∃ p ∈ rows, ∃ q ∈ rows, lab p ≠ lab q) ∧ keys.Nodup ∧
    (∀ k, k ∈ keys ↔ ∃ q ∈ rows, key r q = k) ∧
    ∀ k ∈ keys, (child k).Fits key lab (rows.filter fun q => key r q == k)

/-- Every rule of the tree satisfies `p`. -/
def Tree.AllRules (p : Rule → Prop) : Tree → Prop
  | .leaf _ _ => True
  | .split _ _ r keys child => p r ∧ ∀ k ∈ keys, (child k).AllRules p

/-- The tree tests attributes of `as`, none of them twice on a path. A test has branches, and those of a test of a number
are called 0 and 1. -/
def Tree.Tests : Tree → List Attr → Prop
  | .leaf _ _, _ => True
  | .split _ _ r keys child, as =>
    r.attr ∈ as ∧ keys.Nodup ∧ keys ≠ [] ∧ (r.attr.isFloat = true → ∀ k ∈ keys, k = "0" ∨ k = "1") ∧
    ∀ k ∈ keys, (child k).Tests (as.filter fun a => a ≠ r.attr)

/-- The attributes that are not the class attribute. -/
def Grid.inputs (g : Grid) (cls : Attr) : List Attr := g.allAttributes.filter fun a => a ≠ cls

/-- The rows among `rows` that take the same branches as row `r` all the way down. -/
def Tree.mates (key : Rule → Nat → String) : Tree → List Nat → Nat → List Nat
  | .leaf _ _, rows, _ => rows
  | .split _ _ rule _ child, rows, r =>
    (child (key rule r)).mates key (rows.filter fun q => key rule q == key rule r) r

/-- Every value in the columns of the attributes can be read as a string. -/
def Grid.Readable (fo : FloatOps) (g : Grid) (n : Nat) : Prop :=
  ∀ a ∈ g.allAttributes, ∀ r, r < n → ∃ s, a.getString fo (g.cell a r) = Res.ok s

/-- Training data for a tree: a table of `n` rows, at least one, with values that can be read, an attribute besides the
class attribute, and one class attribute that reads as the labels `lab`. -/
structure TreeData (fo : FloatOps) (g : Grid) (n : Nat) (lab : Nat → String) (cls : Attr) : Prop where
  rows : g.Presents n
  distinct : g.distinct
  typed : g.typed n
  readable : g.Readable fo n
  nonempty : 0 < n
  width : g.size.1 = g.allAttributes.length
  wide : 2 ≤ g.allAttributes.length
  classAttr : g.allClassAttributes = [cls]
  classIn : cls ∈ g.allAttributes
  label : ReadsAs fo g cls n lab

/-- The numbers in the float columns belong to `S`. -/
def Grid.FloatsIn (g : Grid) (n : Nat) (S : U64 → Prop) : Prop :=
  ∀ a ∈ g.allAttributes, a.isFloat = true → ∀ r, r < n → ∃ u, unpackFloatBits (g.cell a r) = Res.ok u ∧ S u

/-- A rule generator that, for training data with numbers in `S`, answers with no rule or with a rule for an attribute other
than the class attribute. -/
def ChoosesAttribute (fo : FloatOps) (S : U64 → Prop) (gen : Grid → Res (Option Rule)) : Prop :=
  ∀ (g : Grid) n lab cls, TreeData fo g n lab cls → g.FloatsIn n S →
    ∃ r, gen g = Res.ok r ∧ ∀ rule, r = some rule → rule.attr ∈ g.allAttributes ∧ rule.attr ≠ cls

/-- The conditions under which a tree is built: sorting is a permutation, maps are iterated over in some order, and the rule
generator does its work for numbers in `S`. -/
structure TreeEnv.Ok (e : TreeEnv) (S : U64 → Prop) : Prop where
  sort : ∀ l, (e.srt l).Perm l
  rowOrder : ∀ p (g : Grid), g.RowOrder (e.order p g)
  classOrder : ∀ p l, (e.classes p l).Perm l
  rule : ∀ p, ChoosesAttribute e.fo S (e.gen p)

/-- The same for a prediction. -/
structure PredEnv.Ok (e : PredEnv) : Prop where
  sort : ∀ l, (e.srt l).Perm l
  normal : ∀ l, (e.normal l).Perm l
  rowOrder : ∀ g : Grid, g.RowOrder (e.order g)
  children : ∀ r l, (e.ord r l).Perm l

/-- Data to predict: a table of `n` rows with values that can be read, one categorical class attribute, and a column for each
of the attributes `as`. The bound says that the categories can be numbered. -/
structure TreeInput (fo : FloatOps) (g : Grid) (n : Nat) (as : List Attr) : Prop where
  rows : g.Presents n
  typed : g.typed n
  readable : g.Readable fo n
  cls : ∃ p nm vs, g.allClassAttributes = [⟨p, .cat nm vs⟩] ∧ vs.length + n ≤ 2 ^ 64
  finds : g.Finds as

end Golearn
