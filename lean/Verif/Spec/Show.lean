import Verif.Spec.Table
import Verif.Model.Show

/-! # What the text of a data set should look like -/

namespace Golearn

/-- The lines of attributes: a star marks the class attributes. -/
def listedAttrs (as : List Attr) (isClass : Attr → Bool) : List String :=
  as.map fun a => (if isClass a then "*" else "") ++ "\t" ++ a.show

/-- The lines of the first `k` rows: a tab, and each cell followed by a space. -/
def listedRows (as : List Attr) (txt : Attr → Nat → String) (k : Nat) : List String :=
  (List.range k).map fun r => "\t" ++ String.join (as.map fun a => txt a r ++ " ")

/-- Lines, each ended by a newline. -/
def endLines (ls : List String) : String := String.join (ls.map fun l => l ++ "\n")

/-- The text of a row: its cells with a space in between. -/
def rowText (as : List Attr) (txt : Attr → Nat → String) (r : Nat) : String := " ".intercalate (as.map fun a => txt a r)

end Golearn
