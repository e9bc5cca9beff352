import Verif.Model.Mat

/-! # What instances over a matrix must do -/

namespace Golearn

/-- The matrix has at least the given numbers of rows and columns. -/
def MatFits (rows cols : Nat) (data : List (List U64)) : Prop := rows ≤ data.length ∧ ∀ l ∈ data, cols ≤ l.length

/-- The number in row `r`, column `c` of a matrix. -/
def matEntry (data : List (List U64)) (r c : Nat) : U64 := ((data.getD r []).getD c 0)

/-- A call that changes the class attributes. -/
inductive MatOp where
  | addClass (a : Attr)
  | removeClass (a : Attr)

/-- The instances after a call: a call that returns an error changes nothing. -/
def MatOp.apply (m : MatInst) (op : MatOp) : MatInst :=
  match (match op with | .addClass a => m.addClassAttribute a | .removeClass a => m.removeClassAttribute a) with
  | .ok m' => m'
  | _ => m

/-- `x` was made a class attribute, through an attribute equal to it, and was not removed since. -/
def matDesignated (ops : List MatOp) (x : Attr) : Prop :=
  ∃ pre b post, ops = pre ++ MatOp.addClass b :: post ∧ x.equals b = true ∧ ∀ c, MatOp.removeClass c ∈ post → x.equals c = false

end Golearn
