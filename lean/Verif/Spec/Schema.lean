import Verif.Model.Schema

/-! # What is expected of goroutines that build one table -/

namespace Golearn

/-- The calls, made one after the other by a single goroutine, return what is said, and leave the table `d'`. -/
def Replays (pg : Nat) : Dense → List Returned → Dense → Prop
  | d, [], d' => d = d'
  | d, r :: rest, d' => ∃ d1, schemaAtomic pg d r.op = some (d1, r.out) ∧ Replays pg d1 rest d'

/-- The attribute that a call adds. -/
def SchemaOp.added : SchemaOp → Option Attr
  | .add a => some a
  | .addTo a _ => some a
  | _ => none

/-- No attribute that is added equals one that is there or another one that is added. -/
def addsDiffer (d : Dense) (progs : List (List SchemaOp)) : Prop :=
  (d.allAttributes ++ progs.flatten.filterMap SchemaOp.added).Pairwise fun a b => a.equals b = false

/-- The calls of goroutine `i` that have returned, in their order. -/
def returnedBy (i : Nat) (log : List Returned) : List SchemaOp := (log.filter fun r => r.who == i).map Returned.op

/-- The call that is under way. -/
def SchemaPc.pending : SchemaPc → List SchemaOp
  | .idle => []
  | .mark op _ _ => [op]

/-- The full claim: whatever the schedule, there is an order of the calls that have returned, in which every goroutine makes its calls in the
order it does, and which gives the same results and the same table when one goroutine makes them all. -/
def AnyScheduleInSomeOrder : Prop :=
  ∀ (pg : Nat) (d : Dense) (progs : List (List SchemaOp)) (sched : List Nat) (st : SchemaSt),
    (SchemaSt.start d progs).runs pg sched = some st → (∀ w ∈ st.builders, w.todo = [] ∧ w.pc = .idle) →
    ∃ order : List Returned, order.Perm st.log ∧ (∀ i, order.filter (·.who == i) = st.log.filter (·.who == i)) ∧ Replays pg d order st.d

end Golearn
