import Verif.Model.Tree
import Verif.Model.TreeText

/-! # What a printed ID3 tree shows -/

namespace Golearn

/-- `sort.Strings`: the sorted list has the same elements, and depends on nothing else. -/
def SortsStrings (sort : List String → List String) : Prop :=
  (∀ l, (sort l).Perm l) ∧ ∀ l l' : List String, l.Perm l' → sort l = sort l'

/-- Two trees with the same shape, the same names of branches in any order, rules with the same text and the same classes at the ends. -/
def Tree.Alike (num : U64 → String) : Tree → Tree → Prop
  | .leaf _ c, .leaf _ c' => c = c'
  | .split _ _ r keys child, .split _ _ r' keys' child' =>
    ruleText num r = ruleText num r' ∧ keys.Perm keys' ∧ ∀ k ∈ keys, (child k).Alike num (child' k)
  | _, _ => False

/-- A text without a line break. -/
def NoBreak (s : String) : Prop := '\n' ∉ s.toList

/-- No class, branch or attribute has a line break in its name, and no branch a tab at the beginning. -/
def Tree.Plain : Tree → Prop
  | .leaf _ c => NoBreak c
  | .split _ _ r keys child =>
    NoBreak r.attr.name ∧ ∀ k ∈ keys, (NoBreak k ∧ k.toList.head? ≠ some '\t') ∧ (child k).Plain

end Golearn
