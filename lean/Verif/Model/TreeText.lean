import Verif.Model.Tree

/-!
# The printed form of ID3 trees (trees/id3.go)

`num` is `fmt.Sprintf("%f", …)`, `sort` is `sort.Strings`.
-/

namespace Golearn

/-- The text of a rule, trees/id3.go:92-102. A rule of a tree has an attribute. -/
def ruleText (num : U64 → String) (r : Rule) : String :=
  if r.attr.isFloat then "DecisionTreeRule(" ++ r.attr.name ++ " <= " ++ num r.val ++ ")"
  else "DecisionTreeRule(" ++ r.attr.name ++ ")"

/-- The tabs written by the first loop of `getNestedString`, trees/id3.go:278-280. -/
def tabs : Nat → String
  | 0 => ""
  | n + 1 => tabs n ++ "\t"

/-- `getNestedString`, trees/id3.go:275-301. -/
def nestedString (num : U64 → String) (sort : List String → List String) : Tree → Nat → String
  | .leaf _ c, level => tabs level ++ ("Leaf(" ++ c ++ ")")
  | .split _ _ r keys child, level =>
    tabs level ++ ("Rule(" ++ ruleText num r ++ ")") ++
      String.join ((sort keys).map fun k =>
        "\n" ++ tabs level ++ "\t" ++ k ++ "\n" ++ nestedString num sort (child k) (level + 1))

/-- `DecisionTreeNode.String`, trees/id3.go:305-307, in `ID3DecisionTree.String`, trees/id3.go:555-557. -/
def id3String (num : U64 → String) (sort : List String → List String) (t : Tree) : String :=
  "ID3DecisionTree(" ++ nestedString num sort t 0 ++ "\n)"

end Golearn
