import Verif.Model.Grid

/-!
# The conversion filters (filters/binary.go, filters/float.go)
-/

namespace Golearn

/-- `x > 0` on the bit pattern of a `float64`: sign bit clear, not zero, not a NaN (Go specification,
"Comparison operators"; IEEE 754). -/
def f64Pos (b : U64) : Bool := decide (0 < b.toNat) && decide (b.toNat ≤ 0x7FF0000000000000)

/-- `x != 0` on the bit pattern of a `float64` (true for NaN, false for both zeros). -/
def f64NonZero (b : U64) : Bool := b != 0#64 && b != 0x8000000000000000#64

/-- The bit pattern of `1.0`. -/
def f64One : U64 := 0x3FF0000000000000#64

/-- State of a `BinaryConvertFilter` (filters/binary.go:16-21) or `FloatConvertFilter`
(filters/float.go:16-21) after training. The inner maps of `nValuedCategoricalAttributeMap` have keys
0, 1, ..., so they are lists. -/
structure Conv where
  converted : List FAttr
  two : List Attr
  nval : GoMap Attr (List Attr)
  deriving DecidableEq, Repr

namespace Conv

/-- The filter before `Train`, filters/binary.go:24-32, filters/float.go:24-32. -/
def empty : Conv := ⟨[], [], []⟩

/-- The new attributes for a categorical attribute of more than two values,
filters/binary.go:130-137, filters/float.go:120-127; `mk` is the constructor of the new type and
`fresh` gives the addresses. -/
def oneHot (mk : String → AttrBody) (fresh : Nat → Nat) (name : String) : Nat → List String → List Attr
  | _, [] => []
  | k, v :: vs => ⟨fresh k, mk (name ++ "_" ++ v)⟩ :: oneHot mk fresh name (k + 1) vs

/-- The categorical branch of `Train`, filters/binary.go:119-138, filters/float.go:109-128. -/
def trainCat (mk : String → AttrBody) (fresh : Nat → Nat) (c : Conv) (k : Nat) (a : Attr)
    (name : String) (vals : List String) : Conv × Nat :=
  if vals.length ≤ 2 then
    ({ c with converted := c.converted ++ [⟨a, ⟨fresh k, mk name⟩⟩], two := c.two ++ [a] }, k + 1)
  else
    let news := oneHot mk fresh name k vals
    ({ c with converted := c.converted ++ news.map (fun n => ⟨a, n⟩), nval := c.nval.set a news },
      k + vals.length)

/-- `BinaryConvertFilter.Train`, filters/binary.go:117-151 (`k` counts the attributes created). -/
def trainBinary (fresh : Nat → Nat) : Conv → Nat → List Attr → Conv
  | c, _, [] => c
  | c, k, a :: rest =>
    match a.body with
    | .cat name vals =>
      let p := trainCat .bin fresh c k a name vals
      trainBinary fresh p.1 p.2 rest
    | .bin _ => trainBinary fresh { c with converted := c.converted ++ [⟨a, a⟩] } k rest
    | .float name _ =>
      trainBinary fresh { c with converted := c.converted ++ [⟨a, ⟨fresh k, .bin name⟩⟩] } (k + 1) rest

/-- `FloatConvertFilter.Train`, filters/float.go:107-141. -/
def trainFloat (fresh : Nat → Nat) : Conv → Nat → List Attr → Conv
  | c, _, [] => c
  | c, k, a :: rest =>
    match a.body with
    | .cat name vals =>
      let p := trainCat (fun n => .float n 2) fresh c k a name vals
      trainFloat fresh p.1 p.2 rest
    | .float _ _ => trainFloat fresh { c with converted := c.converted ++ [⟨a, a⟩] } k rest
    | .bin name =>
      trainFloat fresh { c with converted := c.converted ++ [⟨a, ⟨fresh k, .float name 2⟩⟩] } (k + 1) rest

/-- The categorical branch of `Transform`, filters/binary.go:65-89, filters/float.go:56-80: whether
the output is one. -/
def catBit (c : Conv) (a n : Attr) (raw : Bytes) : Res Bool :=
  (unpackU64 raw).bind fun v =>
    if a ∈ c.two then Res.ok (decide (0 < v.toNat))
    else
      match c.nval.get? a with
      | some news =>
        match news[v.toNat]? with
        | some af => Res.ok (af.equals n)
        | none => Res.panic
      | none => Res.panic

/-- `BinaryConvertFilter.Transform`, filters/binary.go:62-105. -/
def transformBinary (c : Conv) (a n : Attr) (raw : Bytes) : Res Bytes :=
  match a.body with
  | .cat _ _ => (c.catBit a n raw).map fun b => if b then [1#8] else [0#8]
  | .bin _ => Res.ok raw
  | .float _ _ => (unpackU64 raw).map fun v => if f64Pos v then [1#8] else [0#8]

/-- `FloatConvertFilter.Transform`, filters/float.go:53-95 (an empty binary value panics). -/
def transformFloat (c : Conv) (a n : Attr) (raw : Bytes) : Res Bytes :=
  match a.body with
  | .cat _ _ => (c.catBit a n raw).map fun b => if b then packU64 f64One else packU64 0#64
  | .float _ _ => Res.ok raw
  | .bin _ =>
    match raw with
    | [] => Res.panic
    | b :: _ => Res.ok (if 0 < b.toNat then packU64 f64One else packU64 0#64)

/-- The trained `BinaryConvertFilter` on which `AddAttribute` was called for each of `attrs`. -/
def binary (fresh : Nat → Nat) (attrs : List Attr) : Filter :=
  let c := trainBinary fresh empty 0 attrs
  ⟨c.converted, c.transformBinary⟩

/-- The trained `FloatConvertFilter` on which `AddAttribute` was called for each of `attrs`. -/
def float (fresh : Nat → Nat) (attrs : List Attr) : Filter :=
  let c := trainFloat fresh empty 0 attrs
  ⟨c.converted, c.transformFloat⟩

end Conv

end Golearn
