import Verif.Spec.Table
import Verif.Spec.Bytes

/-! # Specification vocabulary for sorting -/

namespace Golearn

/-- Lexicographic order on lists of numbers, first element most significant. -/
def lexLt : List Nat → List Nat → Prop
  | x :: xs, y :: ys => x < y ∨ (x = y ∧ lexLt xs ys)
  | _, _ => False

instance lexLtDec : (a b : List Nat) → Decidable (lexLt a b)
  | x :: xs, y :: ys => by
    unfold lexLt
    have := lexLtDec xs ys
    infer_instance
  | [], _ => by unfold lexLt; infer_instance
  | _ :: _, [] => by unfold lexLt; infer_instance

/-- Flip the top bit of the first (least significant) byte. -/
def flipLow : Bytes → Bytes
  | [] => []
  | b :: bs => (b ^^^ 0x80#8) :: bs

/-- Apply a function to the last element of a list. -/
def onLast {α : Type} (f : α → α) : List α → List α
  | [] => []
  | [x] => [f x]
  | x :: y :: ys => x :: onLast f (y :: ys)

/-- The stored values (read as little-endian unsigned numbers) of the given columns in row `r`. -/
def rowKey (g : Grid) (attrs : List Attr) (r : Nat) : List Nat :=
  attrs.map fun a => leValue (g.cell a r)

/-- The same, but the last column is compared with the top bit of its low byte flipped. This is the
order that base/sort.go realises. -/
def rowKeyFlipped (g : Grid) (attrs : List Attr) (r : Nat) : List Nat :=
  (onLast flipLow (attrs.map fun a => g.cell a r)).map leValue

end Golearn
