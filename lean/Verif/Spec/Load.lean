import Verif.Model.Save

/-! # Documents that can be loaded without a crash -/

namespace Golearn

/-- The document is a number. -/
def Json.IsNumber (j : Json) : Prop := (∃ n, j = .num n) ∨ ∃ u, j = .flt u

/-- The document is a list of strings. -/
def Json.IsStrings (j : Json) : Prop := ∃ l : List Json, j = .arr l ∧ ∀ x ∈ l, ∃ s, x = .str s

/-- The document does not look like an attribute of some kind with details of the wrong kind: the precision of a numeric attribute,
if it is given, is a number, and the values of a categorical attribute, unless its details are of a wrong kind altogether, are a
list of strings. -/
def Json.AttrDetailsOk (j : Json) : Prop :=
  (j.field "type" = some (.str "float") → ∀ d p, j.field "attr" = some d → d.field "precision" = some p → p.IsNumber) ∧
  (j.field "type" = some (.str "categorical") → ∀ d, j.field "attr" = some d → (d = .null ∨ ∃ l, d = .obj l) →
    ∃ v, d.field "values" = some v ∧ v.IsStrings)

/-- The threshold of a rule, if it is given, is a number, and the details of its attribute are of the right kind. -/
def Json.RuleOk (j : Json) : Prop :=
  (∀ v, j.field "split_val" = some v → v.IsNumber) ∧ ∀ a, j.field "split_attribute" = some a → a.AttrDetailsOk

/-- `n` is the document of a node of the tree whose document is `j`. -/
inductive Json.NodeOf (j : Json) : Json → Prop
  | root : Json.NodeOf j j
  | child {n : Json} {ch : List (String × Json)} {k : String} {c : Json} (h : Json.NodeOf j n) (hc : n.field "children" = some (.obj ch))
      (hk : (k, c) ∈ ch) : Json.NodeOf j c

/-- The rules of all nodes of the document of a tree are of the right kind. -/
def Json.TreeOk (j : Json) : Prop := ∀ n r, j.NodeOf n → n.field "decision_tree_rule" = some r → r.RuleOk

end Golearn
