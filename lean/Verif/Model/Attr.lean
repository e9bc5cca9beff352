import Verif.Model.Bytes

/-!
# Attributes (base/float.go, base/categorical.go, base/binary.go)
-/

namespace Golearn

/-- The three concrete attribute types: `FloatAttribute` (base/float.go:11-14),
`CategoricalAttribute` (base/categorical.go:11-14), `BinaryAttribute` (base/binary.go:10-12). -/
inductive AttrBody where
  | float (name : String) (precision : Int)
  | cat (name : String) (values : List String)
  | bin (name : String)
  deriving DecidableEq, Repr

/-- A Go `Attribute` interface value: a pointer together with what it currently points to.
Go compares interface values (map keys) by pointer; within one state equal pointers have equal
contents, so `=` on this structure is pointer equality. Mutation of an attribute is modelled as a
function returning the new attribute. -/
structure Attr where
  ptr : Nat
  body : AttrBody
  deriving DecidableEq, Repr

namespace Attr

/-- `GetName`, base/float.go:73-75, base/categorical.go:54-56, base/binary.go:36-38. -/
def name (a : Attr) : String :=
  match a.body with
  | .float n _ => n
  | .cat n _ => n
  | .bin n => n

/-- Type assertion `a.(*FloatAttribute)`. -/
def isFloat (a : Attr) : Bool := match a.body with | .float _ _ => true | _ => false
/-- Type assertion `a.(*CategoricalAttribute)`. -/
def isCat (a : Attr) : Bool := match a.body with | .cat _ _ => true | _ => false
/-- Type assertion `a.(*BinaryAttribute)`. -/
def isBin (a : Attr) : Bool := match a.body with | .bin _ => true | _ => false

/-- Loop `for i, a := range Attr.values { if a != attribute.values[i] {return false} }`,
base/categorical.go:160-164 and 183-187 (lengths are equal, so no index panics). -/
def valuesLoop : List String → List String → Bool
  | [], _ => true
  | _ :: _, [] => false
  | a :: as, b :: bs => if a != b then false else valuesLoop as bs

/-- Length test followed by the loop, base/categorical.go:156-166 and 179-189. -/
def sameValues (vs ws : List String) : Bool :=
  if ws.length != vs.length then false else valuesLoop vs ws

/-- `Equals`: base/float.go:59-70, base/categorical.go:144-167, base/binary.go:72-78. -/
def equals (a other : Attr) : Bool :=
  match a.body, other.body with
  | .float n _, .float m _ => if n != m then false else true
  | .cat n vs, .cat m ws => if n != m then false else sameValues vs ws
  | .bin n, .bin m => m == n
  | _, _ => false

/-- `Compatible`: base/float.go:50-53, base/categorical.go:171-190, base/binary.go:82-88. -/
def compatible (a other : Attr) : Bool :=
  match a.body, other.body with
  | .float _ _, .float _ _ => true
  | .cat _ vs, .cat _ ws => sameValues vs ws
  | .bin _, .bin _ => true
  | _, _ => false

end Attr

/-! ## Categorical values -/

/-- Search loop shared by `GetSysVal` (base/categorical.go:71-75) and `GetSysValFromString`
(base/categorical.go:102-107): index of the first entry equal to the argument. -/
def findValue (vals : List String) (s : String) (i : Nat := 0) : Option Nat :=
  match vals with
  | [] => none
  | v :: vs => if v == s then some i else findValue vs s (i + 1)

/-- `CategoricalAttribute.GetSysVal`, base/categorical.go:70-77; `none` models the `nil` slice. -/
def catGetSysVal (vals : List String) (s : String) : Option Bytes :=
  (findValue vals s).map fun i => packU64 (BitVec.ofNat 64 i)

/-- `CategoricalAttribute.GetSysValFromString`, base/categorical.go:99-115: returns the packed
index and the (possibly extended) list of values. -/
def catIntern (vals : List String) (s : String) : Bytes × List String :=
  match findValue vals s with
  | some i => (packU64 (BitVec.ofNat 64 i), vals)
  | none =>
    let vals' := vals ++ [s]
    (packU64 (BitVec.ofNat 64 (vals'.length - 1)), vals')

/-- `CategoricalAttribute.GetStringFromSysVal`, base/categorical.go:131-137. `int(u)` is negative
when bit 63 is set; then the bounds test passes but indexing panics, so both cases are `panic`. -/
def catGetString (vals : List String) (raw : Bytes) : Res String :=
  (unpackU64 raw).bind fun u =>
    match vals[u.toNat]? with
    | some s => Res.ok s
    | none => Res.panic

/-- `CategoricalAttribute.GetUsrVal`, base/categorical.go:82-85. -/
def catGetUsrVal (vals : List String) (raw : Bytes) : Res String := catGetString vals raw

/-- `BinaryAttribute.GetStringFromSysVal`, base/binary.go:64-69; `val[0]` panics when empty. -/
def binGetString (raw : Bytes) : Res String :=
  match raw with
  | [] => Res.panic
  | b :: _ => if b.toNat > 0 then Res.ok "1" else Res.ok "0"

end Golearn
