import Verif.Proofs.SchemaPanic
import Verif.Model.History
import Mathlib.Data.List.Permutation

/-! # C150: several goroutines build the columns of one table -/

namespace Golearn

/-- If no attribute that is added equals another one: whatever the schedule, the calls that have returned, in the order of their last steps,
return the same and leave the same table when one goroutine makes them one after the other, and every goroutine's calls are in their
order. So the calls behave as if each happened at one moment between its beginning and its end. -/
theorem C150_at_once_partial (pg : Nat) (d : Dense) (progs : List (List SchemaOp)) (sched : List Nat) (st : SchemaSt)
    (hd : addsDiffer d progs) (hrun : (SchemaSt.start d progs).runs pg sched = some st) :
    Replays pg d st.log st.d ∧
    ∀ (i : Nat) (w : Builder) (p : List SchemaOp), st.builders[i]? = some w → progs[i]? = some p →
      returnedBy i st.log ++ w.pc.pending ++ w.todo = p :=
  let h := schema_runs_inv sched (schema_start_inv hd) hrun
  ⟨h.replay, h.order⟩

/-- So no attribute is lost and none comes twice: the table has those it had and those that were added by calls that returned a
specification, whichever goroutine made them. -/
theorem C150_attributes (pg : Nat) (d : Dense) (progs : List (List SchemaOp)) (sched : List Nat) (st : SchemaSt)
    (hd : addsDiffer d progs) (hrun : (SchemaSt.start d progs).runs pg sched = some st) :
    st.d.allAttributes.Perm (d.allAttributes ++ st.log.filterMap fun r => match r.out with | .spec _ => r.op.added | _ => none) := by
  have h := (C150_at_once_partial pg d progs sched st hd hrun).1
  revert h
  generalize st.log = log
  generalize st.d = d'
  clear hrun hd
  induction log generalizing d with
  | nil =>
    intro h
    have h : d = d' := h
    subst h
    simp
  | cons r log ih =>
    rintro ⟨d1, h1, h2⟩
    have h3 := ih d1 h2
    have key : d1.allAttributes.Perm (d.allAttributes ++ (match r.out with | .spec _ => r.op.added | _ => none).toList) := atomic_attributes h1
    rw [List.filterMap_cons]
    refine h3.trans ?_
    cases hc : (match r.out with | .spec _ => r.op.added | _ => none) with
    | none =>
      rw [hc] at key
      simp only [Option.toList_none, List.append_nil] at key
      exact key.append_right _
    | some a =>
      rw [hc] at key
      have := key.append_right (log.filterMap fun r => match r.out with | .spec _ => r.op.added | _ => none)
      rw [List.append_assoc] at this
      exact this

/-- If nobody extends a table that is not extended yet, or nobody calls `AddAttribute`, no schedule panics. -/
theorem C150_no_panic (pg : Nat) (ops : List Op) (st0 : St) (h0 : run pg ops = .ok st0) (progs : List (List SchemaOp)) (sched : List Nat)
    (h : (st0.d.fixed = false ∧ ∀ p ∈ progs, ∀ n, SchemaOp.extend n ∉ p) ∨ ∀ p ∈ progs, ∀ a, SchemaOp.add a ∉ p) :
    ∃ st, (SchemaSt.start st0.d progs).runs pg sched = some st := by
  refine runs_no_panic sched (run_mapped pg ops st0 h0) ?_
  rcases h with ⟨h1, h2⟩ | h2
  · refine .inl ⟨fun w hw x hx n hn => ?_, h1⟩
    obtain ⟨p, hp, rfl⟩ := List.mem_map.1 hw
    exact h2 p hp n (hn ▸ hx)
  · refine .inr fun w hw x hx n hn => ?_
    obtain ⟨p, hp, rfl⟩ := List.mem_map.1 hw
    exact h2 p hp n (hn ▸ hx)

/-- Otherwise the schedule decides: `AddAttribute` panics if `Extend` comes first. -/
theorem C150_extended_first :
    (SchemaSt.start Dense.new [[.add ⟨0, .float "x" 2⟩], [.extend 1]]).runs 4096 [0, 1] ≠ none ∧
    (SchemaSt.start Dense.new [[.add ⟨0, .float "x" 2⟩], [.extend 1]]).runs 4096 [1, 0] = none := by
  decide +kernel

/-! ## Attributes that are equal -/

namespace C150

/-- The same attribute twice. -/
def x : Attr := ⟨0, .float "x" 2⟩
def x' : Attr := ⟨1, .float "x" 2⟩
def y : Attr := ⟨2, .float "y" 2⟩

/-- A table with two groups, and the attribute in the second one. -/
def table : Dense :=
  match run 4096 [.create "A" 8, .create "B" 8, .addTo x "B"] with
  | .ok st => st.d
  | _ => Dense.new

/-- One goroutine makes x a class attribute, another one adds an equal attribute to the first group and then asks for the class
attributes. -/
def progs : List (List SchemaOp) := [[.addClass x], [.addTo x' "A", .classes]]

/-- The second goroutine runs between the two steps of the first. -/
def ended : Option SchemaSt := (SchemaSt.start table progs).runs 4096 [0, 1, 1, 0]

/-- What the calls return one after the other, as a computation. -/
def replay (pg : Nat) : Dense → List Returned → Option Dense
  | d, [] => some d
  | d, r :: rest => match schemaAtomic pg d r.op with
    | some (d1, out) => if out = r.out then replay pg d1 rest else none
    | none => none

theorem replay_of {pg : Nat} : ∀ {d d' : Dense} {log : List Returned}, Replays pg d log d' → replay pg d log = some d'
  | d, d', [], h => congrArg some h
  | d, d', r :: rest, ⟨d1, h1, h2⟩ => by
    rw [replay, h1]
    simp only [if_true]
    exact replay_of h2

end C150

open C150 in
/-- Without that it is false: the calls of this schedule fit no order. The class attributes were asked for after the equal attribute was
added, and there were none; then the old attribute became one, though `GetAttribute` has found the new one since it was added. -/
theorem C150_equal : ¬ AnyScheduleInSomeOrder := by
  intro H
  cases he : ended with
  | none => revert he; decide +kernel
  | some st =>
    obtain ⟨order, h1, h2, h3⟩ := H 4096 table progs [0, 1, 1, 0] st he (by
      have : ∀ s ∈ ended, ∀ w ∈ s.builders, w.todo = [] ∧ w.pc = .idle := by decide +kernel
      exact this st he)
    have h4 := replay_of h3
    have key : ∀ s ∈ ended, ∀ o ∈ s.log.permutations', o.filter (·.who == 1) = s.log.filter (·.who == 1) → replay 4096 table o ≠ some s.d := by
      decide +kernel
    exact key st he order (List.mem_permutations'.2 h1) (h2 1) h4

/-! ## Examples -/

open C150 in
/-- Two goroutines that add different attributes, make one of them a class attribute and extend the table, in turns. -/
example : addsDiffer table [[.add y, .addClass y], [.find x, .removeClass y, .attributes, .extend 2]] ∧
    (((SchemaSt.start table [[.add y, .addClass y], [.find x, .removeClass y, .attributes, .extend 2]]).runs 4096
      [0, 1, 0, 1, 1, 0, 1, 1]).map fun st => (st.log.map fun r => (r.who, r.out), st.d.allClassAttributes, st.d.maxRow,
        st.builders.map fun w => w.todo.length)) =
    some ([(0, .spec ⟨some 2, 0, y⟩), (1, .spec ⟨some 1, 0, x⟩), (1, .done), (0, .done), (1, .attrs [x, y]), (1, .done)], [y], 2, [0, 0]) := by
  refine ⟨?_, by decide +kernel⟩
  unfold addsDiffer
  decide +kernel

end Golearn
