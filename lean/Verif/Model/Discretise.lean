import Verif.Model.Convert
import Verif.Model.Instances
import Mathlib.Algebra.Order.Floor.Defs
import Mathlib.Algebra.Field.Defs

/-!
# Discretising filters (filters/disc.go, filters/binning.go)

Numbers are elements of an ordered field `K`; `val` reads the bit pattern of a `float64`. Rounding, infinities and NaN are not
modelled, except that the initial minimum and maximum (plus and minus infinity) are `none`.
-/

namespace Golearn

/-- `GetAttributesAfterFiltering`, filters/disc.go:30-43, filters/binning.go:101-123 and filters/chimerge.go:147-163: every attribute of
the training data in order; those chosen become categorical attributes of the same name with the values `labels a`. `fresh` gives the
addresses. -/
def discAttrs (all chosen : List Attr) (labels : Attr → List String) (fresh : Nat → Nat) : List FAttr :=
  all.zipIdx.map fun p => ⟨p.1, if p.1 ∈ chosen then ⟨fresh p.2, .cat p.1.name (labels p.1)⟩ else p.1⟩

/-- `getAttributeSpecs`, filters/disc.go:45-62; `chosen` is the order of the map. -/
def discSpecs (g : Grid) (chosen : List Attr) : Res (List Spec) := g.resolveUnsorted chosen

/-- `AddAttribute`, filters/disc.go:16-26: whether it succeeds. -/
def discAdd (g : Grid) (a : Attr) : Res Unit :=
  if a.isFloat then (match g.getAttribute a with | .ok _ => Res.ok () | .err => Res.err | .panic => Res.panic) else Res.err

section
variable {K : Type}

/-- `minVals` and `maxVals` of a `BinningFilter` (filters/binning.go:12-17) for one attribute. -/
structure Range (K : Type) where
  min : Option K
  max : Option K
  deriving DecidableEq, Repr

/-- The updates for one value, filters/binning.go:57-62. -/
def Range.see [LT K] [DecidableRel (fun a b : K => a < b)] (x : Range K) (v : K) : Range K :=
  let mx := match x.max with | none => some v | some m => if m < v then some v else some m
  let mn := match x.min with | none => some v | some m => if v < m then some v else some m
  ⟨mn, mx⟩

/-- The loop over a row, filters/binning.go:53-63: column `i` of the row belongs to `specs[i]`. -/
def binRow [LT K] [DecidableRel (fun a b : K => a < b)] (val : U64 → K) : List Spec → List Bytes → GoMap Attr (Range K) →
    Res (GoMap Attr (Range K))
  | s :: ss, b :: bs, m =>
    if s.attr.isFloat then
      (unpackFloatBits b).bind fun u =>
        binRow val ss bs (m.set s.attr (((m.get? s.attr).getD ⟨none, none⟩).see (val u)))
    else Res.panic
  | [], _ :: _, _ => Res.panic
  | _, [], m => Res.ok m

/-- `BinningFilter.Train`, filters/binning.go:40-72. `chosen` is the order of the map of attributes, `order` that of the rows. -/
def binTrain [LT K] [DecidableRel (fun a b : K => a < b)] (val : U64 → K) (g : Grid) (chosen : List Attr) (order : List Nat) :
    Res (GoMap Attr (Range K)) :=
  (discSpecs g chosen).bind fun specs =>
    match g.mapOverRows specs order (fun m row _ => (binRow val specs row m).map fun m => (m, Ctl.cont))
        (chosen.foldl (fun m a => m.set a ⟨none, none⟩) []) with
    | .ok (m, false) => Res.ok m
    | .ok (_, true) => Res.err
    | .err => Res.err
    | .panic => Res.panic

/-- The bin of a value, filters/binning.go:85-95. A minimum of plus infinity (no training rows) gives bin zero. If there are training
rows both ends are numbers. In a constant column a value above the minimum is divided by zero (in Go an infinity whose conversion to an
integer is not specified; here zero). -/
def binOf [Field K] [LinearOrder K] [FloorRing K] (bins : Nat) (x : Range K) (v : K) : Int :=
  match x.min, x.max with
  | some mn, some mx =>
    let delta := (mx - mn) / bins
    if v ≤ mn then 0 else ⌊(v - mn) / delta + 1 / 10000⌋
  | _, _ => 0

/-- `BinningFilter.Transform`, filters/binning.go:76-97; `uint64(disc)` wraps. -/
def binTransform [Field K] [LinearOrder K] [FloorRing K] (val : U64 → K) (bins : Nat) (chosen : List Attr)
    (m : GoMap Attr (Range K)) (a : Attr) (_ : Attr) (raw : Bytes) : Res Bytes :=
  if a ∈ chosen then
    if a.isFloat then
      (unpackFloatBits raw).map fun u =>
        packU64 (BitVec.ofInt 64 (binOf bins ((m.get? a).getD ⟨some 0, some 0⟩) (val u)))
    else Res.panic
  else Res.ok raw

/-- The lower ends of the bins, filters/binning.go:111-112. -/
def binEdge [Field K] (bins : Nat) (mn mx : K) (i : Nat) : K := i * ((mx - mn) / bins) + mn

/-- Adding labels one by one, filters/binning.go:111-116 and filters/chimerge.go:154-156. -/
def addLabels (vals : List String) : List String → List String
  | [] => vals
  | s :: ss => addLabels (catIntern vals s).2 ss

/-- The values of the new attribute, filters/binning.go:106-116: `bins + 1` labels. `fmt` is the formatting with the precision of the
attribute. -/
def binLabels [Field K] (fmt : K → String) (bins : Nat) (mn mx : K) : List String :=
  addLabels [] ((List.range (bins + 1)).map fun i => fmt (binEdge bins mn mx i))

/-- The labels of a chosen column, filters/binning.go:103-117. -/
def binNewLabels [Field K] (fmt : Attr → K → String) (bins : Nat) (m : GoMap Attr (Range K)) (a : Attr) : List String :=
  match (m.get? a).getD ⟨some 0, some 0⟩ with
  | ⟨some mn, some mx⟩ => binLabels (fmt a) bins mn mx
  | _ => ["NaN"]

/-- The trained filter. Labels of a range without ends (no training rows) are `"NaN"`. -/
def binFilter [Field K] [LinearOrder K] [FloorRing K] (val : U64 → K) (fmt : Attr → K → String) (bins : Nat) (all chosen : List Attr)
    (fresh : Nat → Nat) (m : GoMap Attr (Range K)) : Filter :=
  ⟨discAttrs all chosen (binNewLabels fmt bins m) fresh, binTransform val bins chosen m⟩

end

end Golearn
