import Verif.Model.Group

/-!
# DenseInstances (base/dense.go, base/spec.go)
-/

namespace Golearn

/-- `AttributeSpec`, base/spec.go:10-14. `pond = none` stands for the value -1 that
base/filtered.go:60 puts there. -/
structure Spec where
  pond : Option Nat
  position : Nat
  attr : Attr
  deriving DecidableEq, Repr

/-- A Go map as an association list without duplicate keys; the list order is not meaningful. -/
abbrev GoMap (κ ν : Type) := List (κ × ν)

namespace GoMap
variable {κ ν : Type} [DecidableEq κ]

/-- `v, ok := m[k]`. -/
def get? (m : GoMap κ ν) (k : κ) : Option ν :=
  match m with
  | [] => none
  | (k', v) :: rest => if k' = k then some v else get? rest k

/-- `m[k] = v`. -/
def set (m : GoMap κ ν) (k : κ) (v : ν) : GoMap κ ν :=
  match m with
  | [] => [(k, v)]
  | (k', v') :: rest => if k' = k then (k, v) :: rest else (k', v') :: set rest k v

end GoMap

/-- `DenseInstances`, base/dense.go:12-26. Omitted: the mutex, and `tmpAttrAgMap`, which is created
empty (base/dense.go:40) and never written, so lines 201-202 and `realiseAttributeGroups`
(base/dense.go:349-386) do nothing. -/
structure Dense where
  agMap : GoMap String Nat
  agRevMap : GoMap Nat String
  ags : List Group
  fixed : Bool
  classAttrs : GoMap Spec Bool
  maxRow : Nat
  attributes : List Attr
  floatRowSizeBytes : Nat
  catRowSizeBytes : Nat
  binRowSizeBits : Nat
  deriving DecidableEq, Repr

namespace Dense

/-- `NewDenseInstances`, base/dense.go:30-45. -/
def new : Dense := ⟨[], [], [], false, [], 0, [], 0, 0, 0⟩

/-- `createAttributeGroup`, base/dense.go:106-133. -/
def createGroup (d : Dense) (name : String) (size : Nat) : Res Dense :=
  if d.fixed then Res.panic
  else
    let g : Group :=
      if size ≠ 0 then ⟨.fixed size, [], []⟩ else ⟨.binary, [], []⟩
    Res.ok { d with
      agMap := d.agMap.set name d.ags.length
      agRevMap := d.agRevMap.set d.ags.length name
      ags := d.ags ++ [g] }

/-- `CreateAttributeGroup`, base/dense.go:139-154: the panic is recovered into an error. -/
def createAttributeGroup (d : Dense) (name : String) (size : Nat) : Res Dense :=
  match d.createGroup name size with
  | .panic => .err
  | r => r

/-- Group name chosen by `AddAttribute` and updated counters, base/dense.go:199-218.
`pg` is `os.Getpagesize()`. -/
def chooseGroup (pg : Nat) (d : Dense) (a : Attr) : Dense × String × Bool :=
  match a.body with
  | .cat _ _ =>
    let n := d.catRowSizeBytes + 8
    ({ d with catRowSizeBytes := n }, "CAT" ++ toString (n / pg), false)
  | .float _ _ =>
    let n := d.floatRowSizeBytes + 8
    ({ d with floatRowSizeBytes := n }, "FLOAT" ++ toString (n / pg), false)
  | .bin _ =>
    let n := d.binRowSizeBits + 1
    ({ d with binRowSizeBits := n }, "BIN" ++ toString ((n / 8) / pg), true)

/-- Append an attribute to group `id` and to the attribute list, base/dense.go:228-232 and
245-255. -/
def pushAttr (d : Dense) (id : Nat) (a : Attr) : Res (Dense × Spec) :=
  match d.ags[id]? with
  | none => Res.panic
  | some g =>
    Res.ok ({ d with ags := d.ags.set id (g.addAttr a), attributes := d.attributes ++ [a] },
      ⟨some id, g.attrs.length, a⟩)

/-- `AddAttribute`, base/dense.go:188-233. -/
def addAttribute (pg : Nat) (d : Dense) (a : Attr) : Res (Dense × Spec) :=
  if d.fixed then Res.panic
  else
    let (d1, ag, isBin) := chooseGroup pg d a
    let created : Res Dense :=
      match d1.agMap.get? ag with
      | some _ => Res.ok d1
      | none => d1.createGroup ag (if isBin then 0 else 8)
    created.bind fun d2 =>
      match d2.agMap.get? ag with
      | none => Res.panic
      | some id => d2.pushAttr id a

/-- `AddAttributeToAttributeGroup`, base/dense.go:236-256. Note that `fixed` is not tested. -/
def addAttributeToGroup (d : Dense) (a : Attr) (ag : String) : Res (Dense × Spec) :=
  match d.agMap.get? ag with
  | none => Res.err
  | some id =>
    match d.ags[id]? with
    | none => Res.panic
    | some g => if g.attrs.any (fun b => ! b.compatible a) then Res.err else d.pushAttr id a

/-- Inner loop of `GetAttribute`, base/dense.go:268-272. -/
def findInGroup (id : Nat) (get : Attr) : List Attr → Nat → Option Spec
  | [], _ => none
  | a :: as, j => if a.equals get then some ⟨some id, j, a⟩ else findInGroup id get as (j + 1)

/-- Outer loop of `GetAttribute`, base/dense.go:267-273. -/
def findInGroups (get : Attr) : List Group → Nat → Option Spec
  | [], _ => none
  | g :: gs, i =>
    match findInGroup i get g.attrs 0 with
    | some s => some s
    | none => findInGroups get gs (i + 1)

/-- `GetAttribute`, base/dense.go:263-276. -/
def getAttribute (d : Dense) (a : Attr) : Res Spec :=
  match findInGroups a d.ags 0 with
  | some s => Res.ok s
  | none => Res.err

/-- `AllAttributes`, base/dense.go:279-291. -/
def allAttributes (d : Dense) : List Attr := d.ags.flatMap (·.attrs)

/-- `AddClassAttribute`, base/dense.go:294-306. -/
def addClassAttribute (d : Dense) (a : Attr) : Res Dense :=
  (d.getAttribute a).map fun s => { d with classAttrs := d.classAttrs.set s true }

/-- `RemoveClassAttribute`, base/dense.go:309-321. -/
def removeClassAttribute (d : Dense) (a : Attr) : Res Dense :=
  (d.getAttribute a).map fun s => { d with classAttrs := d.classAttrs.set s false }

/-- `AllClassAttributes`, base/dense.go:325-341, in one particular map order. The Go order is any
permutation of this list; statements about it are invariant under permutation. -/
def allClassAttributes (d : Dense) : List Attr :=
  (d.classAttrs.filter (fun p => p.2)).map (fun p => p.1.attr)

/-- `Extend`, base/dense.go:392-418. -/
def extend (d : Dense) (rows : Nat) : Dense :=
  { d with
    ags := d.ags.map fun g => g.resize (rows * g.rowSize)
    fixed := true
    maxRow := d.maxRow + rows }

/-- `Set`, base/dense.go:430-432. A bad group index panics. Rows are natural numbers: a negative
row gives a negative offset, which Go rejects with a panic. -/
def set (d : Dense) (s : Spec) (row : Nat) (v : Bytes) : Res Dense :=
  match s.pond with
  | none => Res.panic
  | some id =>
    match d.ags[id]? with
    | none => Res.panic
    | some g => (g.set s.position row v).map fun g' => { d with ags := d.ags.set id g' }

/-- `Get`, base/dense.go:437-439. -/
def get (d : Dense) (s : Spec) (row : Nat) : Res Bytes :=
  match s.pond with
  | none => Res.panic
  | some id =>
    match d.ags[id]? with
    | none => Res.panic
    | some g => g.get s.position row

/-- `Size`, base/dense.go:480-482. -/
def size (d : Dense) : Nat × Nat := (d.allAttributes.length, d.maxRow)

end Dense

end Golearn
