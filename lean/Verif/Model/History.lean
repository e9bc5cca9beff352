import Verif.Model.Dense

/-!
# Client histories on one DenseInstances

A client keeps the specifications it was handed by `AddAttribute` and
`AddAttributeToAttributeGroup`, in order, and refers to them by index.
-/

namespace Golearn

/-- One API call on a `DenseInstances`. -/
inductive Op where
  /-- `CreateAttributeGroup(name, size)`, base/dense.go:139-154 (sizes below zero not modelled) -/
  | create (name : String) (size : Nat)
  /-- `AddAttribute(a)`, base/dense.go:188-233 -/
  | add (a : Attr)
  /-- `AddAttributeToAttributeGroup(a, ag)`, base/dense.go:236-256 -/
  | addTo (a : Attr) (ag : String)
  /-- `AddClassAttribute(a)`, base/dense.go:294-306 -/
  | addClass (a : Attr)
  /-- `RemoveClassAttribute(a)`, base/dense.go:309-321 -/
  | removeClass (a : Attr)
  /-- `Extend(n)`, base/dense.go:392-418 -/
  | extend (n : Nat)
  /-- `Set(spec, row, v)` where `spec` is the `h`-th specification handed out,
  base/dense.go:430-432 -/
  | set (h : Nat) (row : Nat) (v : Bytes)
  deriving DecidableEq, Repr

/-- The grid and the specifications handed out so far. -/
structure St where
  d : Dense
  handles : List Spec
  deriving DecidableEq, Repr

/-- A returned error leaves the grid as it was and the client carries on (in every case the code
returns before changing anything). -/
def absorb (st : St) (r : Res St) : Res St :=
  match r with
  | .err => .ok st
  | r => r

/-- One call. A panic ends the history. Using a specification that was never handed out is not a
history; it is mapped to `panic` as well. Models base/dense.go:139-432 (see `Op`). -/
def step (pg : Nat) (st : St) : Op → Res St
  | .create name size => absorb st ((st.d.createAttributeGroup name size).map fun d => ⟨d, st.handles⟩)
  | .add a => (st.d.addAttribute pg a).map fun p => ⟨p.1, st.handles ++ [p.2]⟩
  | .addTo a ag =>
    absorb st ((st.d.addAttributeToGroup a ag).map fun p => ⟨p.1, st.handles ++ [p.2]⟩)
  | .addClass a => absorb st ((st.d.addClassAttribute a).map fun d => ⟨d, st.handles⟩)
  | .removeClass a => absorb st ((st.d.removeClassAttribute a).map fun d => ⟨d, st.handles⟩)
  | .extend n => Res.ok ⟨st.d.extend n, st.handles⟩
  | .set h row v =>
    match st.handles[h]? with
    | none => Res.panic
    | some s => (st.d.set s row v).map fun d => ⟨d, st.handles⟩

/-- The state after `NewDenseInstances`, base/dense.go:30-45. -/
def St.init : St := ⟨Dense.new, []⟩

/-- A whole history on a fresh grid. -/
def run (pg : Nat) (ops : List Op) : Res St :=
  ops.foldl (fun r op => r.bind fun st => step pg st op) (Res.ok St.init)

end Golearn
