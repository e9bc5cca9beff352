import Verif.Model.Fill
import Verif.Spec.Cells

/-! # What is expected of goroutines that fill one table -/

namespace Golearn

/-- All calls have returned. -/
def FillSt.finished (st : FillSt) : Prop := ∀ w ∈ st.fillers, w.todo = [] ∧ w.pc = .idle

instance (st : FillSt) : Decidable st.finished := by unfold FillSt.finished; infer_instance

/-- The calls made one after the other, with the group that is left and the values that were read. -/
def inTurn (g : Group) : List CellOp → Res (Group × List Bytes)
  | [] => .ok (g, [])
  | .set col row v :: rest => (g.set col row v).bind fun g' => inTurn g' rest
  | .get col row :: rest => (g.get col row).bind fun x => (inTurn g rest).map fun r => (r.1, x :: r.2)
  | .extend add :: rest => inTurn (g.resize add) rest

/-- A call sets or gets a cell that the group has. It does not extend the group. -/
def CellOp.inside (g : Group) (rows : Nat) : CellOp → Prop
  | .set col row v => col < g.attrs.length ∧ row < rows ∧ acceptable g.kind v
  | .get col row => col < g.attrs.length ∧ row < rows
  | .extend _ => False

/-- The cell of a call. -/
def CellOp.cell : CellOp → Option (Nat × Nat)
  | .set col row _ => some (col, row)
  | .get col row => some (col, row)
  | .extend _ => none

/-- Two cells do not get in each other's way: they differ, and they are not two of the eight binary attributes of one row that share a
byte. -/
def cellsApart (k : GKind) (a b : Nat × Nat) : Prop :=
  match k with
  | .fixed _ => a ≠ b
  | .binary => a.2 ≠ b.2 ∨ a.1 / 8 ≠ b.1 / 8

/-- What one call sets is apart from what the other sets or gets. -/
def CellOp.apartFrom (k : GKind) (x y : CellOp) : Prop :=
  match x with
  | .set col row _ => ∀ c, y.cell = some c → cellsApart k (col, row) c
  | _ => True

/-- A goroutine sets no cell that is in the way of what another goroutine sets or gets. -/
def workApart (k : GKind) (progs : List (List CellOp)) : Prop :=
  ∀ (i j : Nat) (p q : List CellOp), i ≠ j → progs[i]? = some p → progs[j]? = some q → ∀ x ∈ p, ∀ y ∈ q, x.apartFrom k y

/-- The same, only for cells: no cell is set by one goroutine and set or got by another. -/
def cellsOwned (progs : List (List CellOp)) : Prop :=
  ∀ (i j : Nat) (p q : List CellOp), i ≠ j → progs[i]? = some p → progs[j]? = some q →
    ∀ col row v, CellOp.set col row v ∈ p → ∀ y ∈ q, y.cell ≠ some (col, row)

/-- The last value that a cell is set to. -/
def lastSet (cell : Nat × Nat) : List CellOp → Option Bytes
  | [] => none
  | .set col row v :: rest => match lastSet cell rest with
    | some w => some w
    | none => if (col, row) = cell then some v else none
  | _ :: rest => lastSet cell rest

/-- The full claim: whatever the schedule, when no cell belongs to two goroutines, then every cell has the last value it was set to. -/
def AnyScheduleFills : Prop :=
  ∀ (g : Group) (rows : Nat) (progs : List (List CellOp)) (sched : List Nat) (st : FillSt),
    g.alloc.length = rows * g.rowSize → (∀ p ∈ progs, ∀ x ∈ p, x.inside g rows) → cellsOwned progs →
    (FillSt.start g progs).runs g sched = some st → st.finished →
    ∀ col row v, col < g.attrs.length → row < rows → lastSet (col, row) progs.flatten = some v →
      (st.group g).get col row = .ok (cellValue g.kind (some v))

end Golearn
