import Verif.Model.Dense

/-! # Several goroutines that build the columns of one table

The functions that change or read the attributes of a `DenseInstances` hold its lock while they run, base/dense.go:139-256, 263-291, 325-329
and 392-418, so each of them is one step. `AddClassAttribute` and `RemoveClassAttribute`, base/dense.go:294-321, call `GetAttribute`, which
gives the lock back, and then take it again, so they are two steps. `AllAttributeGroups`, which takes no lock, is left out, and `Set` and
`Get` are in Model/Fill.lean. -/

namespace Golearn

/-- A call. -/
inductive SchemaOp where
  /-- `CreateAttributeGroup`, base/dense.go:139-154 -/
  | create (name : String) (size : Nat)
  /-- `AddAttribute`, base/dense.go:188-233 -/
  | add (a : Attr)
  /-- `AddAttributeToAttributeGroup`, base/dense.go:236-256 -/
  | addTo (a : Attr) (ag : String)
  /-- `GetAttribute`, base/dense.go:263-276 -/
  | find (a : Attr)
  /-- `AllAttributes`, base/dense.go:279-291 -/
  | attributes
  /-- `AllClassAttributes`, base/dense.go:325-329 -/
  | classes
  /-- `AddClassAttribute`, base/dense.go:294-306 -/
  | addClass (a : Attr)
  /-- `RemoveClassAttribute`, base/dense.go:309-321 -/
  | removeClass (a : Attr)
  /-- `Extend`, base/dense.go:392-418 -/
  | extend (rows : Nat)
deriving DecidableEq

/-- What a call returns: nothing, an error, a specification or attributes. The class attributes are in one particular order of the map. -/
inductive SchemaOut where
  | done
  | failed
  | spec (s : Spec)
  | attrs (as : List Attr)
deriving DecidableEq

/-- How far a call of a goroutine has come. -/
inductive SchemaPc where
  /-- no call -/
  | idle
  /-- before the lock is taken again, base/dense.go:301 and :316 -/
  | mark (op : SchemaOp) (s : Spec) (on : Bool)
deriving DecidableEq

/-- A goroutine: the calls it has still to make, and its call. -/
structure Builder where
  todo : List SchemaOp
  pc : SchemaPc
deriving DecidableEq

/-- A call that has returned: its goroutine, the call, what it returned. -/
structure Returned where
  who : Nat
  op : SchemaOp
  out : SchemaOut
deriving DecidableEq

/-- The table, the goroutines and the calls that have returned, in the order of their last steps. -/
structure SchemaSt where
  d : Dense
  builders : List Builder
  log : List Returned
deriving DecidableEq

/-- A call that holds the lock from beginning to end. `none` is a panic. -/
def schemaAtomic (pg : Nat) (d : Dense) : SchemaOp → Option (Dense × SchemaOut)
  | .create name size =>
    match d.createAttributeGroup name size with
    | .ok d' => some (d', .done)
    | .err => some (d, .failed)
    | .panic => none
  | .add a =>
    match d.addAttribute pg a with
    | .ok (d', s) => some (d', .spec s)
    | .err => some (d, .failed)
    | .panic => none
  | .addTo a ag =>
    match d.addAttributeToGroup a ag with
    | .ok (d', s) => some (d', .spec s)
    | .err => some (d, .failed)
    | .panic => none
  | .find a =>
    match d.getAttribute a with
    | .ok s => some (d, .spec s)
    | .err => some (d, .failed)
    | .panic => none
  | .attributes => some (d, .attrs d.allAttributes)
  | .classes => some (d, .attrs d.allClassAttributes)
  | .addClass a =>
    match d.addClassAttribute a with
    | .ok d' => some (d', .done)
    | .err => some (d, .failed)
    | .panic => none
  | .removeClass a =>
    match d.removeClassAttribute a with
    | .ok d' => some (d', .done)
    | .err => some (d, .failed)
    | .panic => none
  | .extend rows => some (d.extend rows, .done)

/-- The first step of `AddClassAttribute` and `RemoveClassAttribute`: `GetAttribute`, base/dense.go:296-299 and :311-314. -/
def schemaLook (d : Dense) (op : SchemaOp) (a : Attr) (on : Bool) (rest : List SchemaOp) : Option (Dense × Builder × Option (SchemaOp × SchemaOut)) :=
  match d.getAttribute a with
  | .ok s => some (d, ⟨rest, .mark op s on⟩, none)
  | .err => some (d, ⟨rest, .idle⟩, some (op, .failed))
  | .panic => none

/-- One step of a goroutine, with the call that returns in it. -/
def builderStep (pg : Nat) (d : Dense) (w : Builder) : Option (Dense × Builder × Option (SchemaOp × SchemaOut)) :=
  match w.pc with
  | .mark op s on => some ({ d with classAttrs := d.classAttrs.set s on }, ⟨w.todo, .idle⟩, some (op, .done))
  | .idle =>
    match w.todo with
    | [] => some (d, w, none)
    | .addClass a :: rest => schemaLook d (.addClass a) a true rest
    | .removeClass a :: rest => schemaLook d (.removeClass a) a false rest
    | op :: rest =>
      match schemaAtomic pg d op with
      | none => none
      | some (d', out) => some (d', ⟨rest, .idle⟩, some (op, out))

/-- Goroutine `i` makes a step. -/
def SchemaSt.step (pg : Nat) (st : SchemaSt) (i : Nat) : Option SchemaSt :=
  match st.builders[i]? with
  | none => some st
  | some w =>
    match builderStep pg st.d w with
    | none => none
    | some (d, w', none) => some { st with d := d, builders := st.builders.set i w' }
    | some (d, w', some (op, out)) => some { d := d, builders := st.builders.set i w', log := st.log ++ [⟨i, op, out⟩] }

/-- The goroutines make steps in the order of a schedule. -/
def SchemaSt.runs (pg : Nat) : SchemaSt → List Nat → Option SchemaSt
  | st, [] => some st
  | st, i :: is =>
    match st.step pg i with
    | none => none
    | some st' => st'.runs pg is

/-- The goroutines are about to start on a table, each with its own calls. -/
def SchemaSt.start (d : Dense) (progs : List (List SchemaOp)) : SchemaSt := { d := d, builders := progs.map fun p => ⟨p, .idle⟩, log := [] }

end Golearn
