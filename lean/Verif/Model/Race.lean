import Verif.Model.Attr

/-! # Several goroutines that add texts to one categorical attribute

`BaggedModel.Predict` lets its members predict at the same time (meta/bagging.go:131-155), and all prediction vectors have the class
attribute of the data (base/util_instances.go:13-23). So the goroutines call `GetSysValFromString` on one attribute, base/categorical.go:99-115,
and nothing excludes one from the other. Here every access to the shared slice is a step of its own. A slice header and a string are read
and written as a whole, and the steps happen one after the other: torn reads and the reordering of accesses are not modelled. The copying
that `append` does when it needs a new array is one step. -/

namespace Golearn

/-- A slice of strings: the number of its array, and its length. The capacity is the length of the array. -/
structure Hdr where
  arr : Nat
  len : Nat
deriving DecidableEq

/-- How far a call has come. -/
inductive CallPc where
  /-- no call -/
  | idle
  /-- in the loop, base/categorical.go:102-107, over the slice `h`, before index `i` -/
  | search (s : String) (h : Hdr) (i : Nat)
  /-- after the loop without a match, before the slice is read, base/categorical.go:108-109 -/
  | missing (s : String)
  /-- before `append` writes the text, base/categorical.go:109 -/
  | append (s : String) (h : Hdr)
  /-- before `Attr.values` is set, base/categorical.go:109 -/
  | store (s : String) (h : Hdr)
  /-- before the length is read, base/categorical.go:110 -/
  | count (s : String)
deriving DecidableEq

/-- A goroutine: the texts it has still to write, its call, and the texts with the codes it got. -/
structure Caller where
  todo : List String
  pc : CallPc
  done : List (String × Nat)
deriving DecidableEq

/-- The arrays, the slice in the attribute, the goroutines. -/
structure RaceSt where
  mem : List (List String)
  hdr : Hdr
  callers : List Caller
deriving DecidableEq

/-- The values in a slice. -/
def sliceVals (mem : List (List String)) (h : Hdr) : List String := (mem.getD h.arr []).take h.len

/-- The values of the attribute. -/
def RaceSt.values (st : RaceSt) : List String := sliceVals st.mem st.hdr

/-- One step of a goroutine, base/categorical.go:99-115. `grow n` is how much capacity beyond the new element a new array of `append`
has. -/
def callerStep (grow : Nat → Nat) (mem : List (List String)) (hdr : Hdr) (c : Caller) : List (List String) × Hdr × Caller :=
  match c.pc with
  | .idle =>
    match c.todo with
    | [] => (mem, hdr, c)
    | s :: rest => (mem, hdr, { c with todo := rest, pc := .search s hdr 0 })
  | .search s h i =>
    if i < h.len then
      if (sliceVals mem h)[i]? = some s then (mem, hdr, { c with pc := .idle, done := c.done ++ [(s, i)] })
      else (mem, hdr, { c with pc := .search s h (i + 1) })
    else (mem, hdr, { c with pc := .missing s })
  | .missing s => (mem, hdr, { c with pc := .append s hdr })
  | .append s h =>
    let a := mem.getD h.arr []
    if h.len < a.length then (mem.set h.arr (a.set h.len s), hdr, { c with pc := .store s ⟨h.arr, h.len + 1⟩ })
    else (mem ++ [a.take h.len ++ s :: List.replicate (grow h.len) ""], hdr, { c with pc := .store s ⟨mem.length, h.len + 1⟩ })
  | .store s h => (mem, h, { c with pc := .count s })
  | .count s => (mem, hdr, { c with pc := .idle, done := c.done ++ [(s, hdr.len - 1)] })

/-- Goroutine `i` makes a step. -/
def RaceSt.step (grow : Nat → Nat) (st : RaceSt) (i : Nat) : RaceSt :=
  match st.callers[i]? with
  | none => st
  | some c =>
    let r := callerStep grow st.mem st.hdr c
    ⟨r.1, r.2.1, st.callers.set i r.2.2⟩

/-- The steps in the order of a schedule. -/
def RaceSt.runs (grow : Nat → Nat) (st : RaceSt) (sched : List Nat) : RaceSt := sched.foldl (RaceSt.step grow) st

/-- Before the goroutines start: the values `vs` in an array with some unused strings, and a list of texts for every goroutine. -/
def RaceSt.start (vs spare : List String) (progs : List (List String)) : RaceSt :=
  ⟨[vs ++ spare], ⟨0, vs.length⟩, progs.map fun p => ⟨p, .idle, []⟩⟩

end Golearn
