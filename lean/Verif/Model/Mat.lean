import Verif.Model.Grid

/-!
# Instances over a matrix (base/mat.go)

The numbers of the matrix are bit patterns. Numbers of rows and columns are not negative.
-/

namespace Golearn

/-- `Mat64Instances`, base/mat.go:9-14. The matrix is the list of its rows. -/
structure MatInst where
  attributes : List Attr
  classAttrs : GoMap Nat Bool
  data : List (List U64)
  rows : Nat
  deriving DecidableEq, Repr

namespace MatInst

/-- `InstancesFromMat64`, base/mat.go:17-29. `fresh` gives the addresses of the attributes; `NewFloatAttribute` has precision 2. -/
def new (fresh : Nat → Nat) (rows cols : Nat) (data : List (List U64)) : MatInst :=
  ⟨(List.range cols).map fun i => ⟨fresh i, .float (toString i) 2⟩, [], data, rows⟩

/-- The loop of `GetAttribute`, base/mat.go:33-37. -/
def find (a : Attr) : List Attr → Nat → Option (Nat × Attr)
  | [], _ => none
  | b :: bs, i => if b.equals a then some (i, b) else find a bs (i + 1)

/-- `GetAttribute`, base/mat.go:32-39. -/
def getAttribute (m : MatInst) (a : Attr) : Res Spec :=
  match find a m.attributes 0 with
  | some (i, b) => Res.ok ⟨some 0, i, b⟩
  | none => Res.err

/-- `AllAttributes`, base/mat.go:42-48. -/
def allAttributes (m : MatInst) : List Attr := m.attributes

/-- `AddClassAttribute`, base/mat.go:51-59. -/
def addClassAttribute (m : MatInst) (a : Attr) : Res MatInst :=
  (m.getAttribute a).map fun s => { m with classAttrs := m.classAttrs.set s.position true }

/-- `RemoveClassAttribute`, base/mat.go:62-70. -/
def removeClassAttribute (m : MatInst) (a : Attr) : Res MatInst :=
  (m.getAttribute a).map fun s => { m with classAttrs := m.classAttrs.set s.position false }

/-- `AllClassAttributes`, base/mat.go:73-82; `ord` is the order of iteration over the map. -/
def allClassAttributes (m : MatInst) (ord : List Nat → List Nat) : Res (List Attr) :=
  mapRes (fun i => match m.attributes[i]? with
    | some a => Res.ok a
    | none => Res.panic) ((ord (m.classAttrs.map Prod.fst)).filter fun i => (m.classAttrs.get? i).getD false)

/-- `m.Data.At(row, col)`: a panic outside of the matrix. -/
def at? (m : MatInst) (row col : Nat) : Res U64 :=
  match m.data[row]? with
  | some l => match l[col]? with
    | some u => Res.ok u
    | none => Res.panic
  | none => Res.panic

/-- `Get`, base/mat.go:85-88. -/
def get (m : MatInst) (s : Spec) (row : Nat) : Res Bytes := (m.at? row s.position).map packFloatBits

/-- The row passed to the callback, base/mat.go:98-100. -/
def rowVals (m : MatInst) (specs : List Spec) (row : Nat) : Res (List Bytes) := mapRes (fun s => m.get s row) specs

/-- `MapOverRows`, base/mat.go:91-107. -/
def mapOverRows {σ : Type} (m : MatInst) (specs : List Spec) (cb : σ → List Bytes → Nat → Res (σ × Ctl)) (s : σ) : Res (σ × Bool) :=
  mapOver (m.rowVals specs) cb s (List.range m.rows)

/-- `Size`, base/mat.go:116-118. -/
def size (m : MatInst) : Nat × Nat := (m.attributes.length, m.rows)

end MatInst

end Golearn
