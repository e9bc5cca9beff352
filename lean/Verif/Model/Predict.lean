import Verif.Model.Instances

/-! # Prediction vectors (base/util_instances.go:11-23 and 86-110) -/

namespace Golearn

/-- The attributes of a list with `a` changed to `b`. -/
def changeAttr (a b x : Attr) : Attr := if x = a then b else x

/-- The instances after the contents of attribute `a` have changed to `b`: the attribute is shared by
pointer, so the change shows everywhere. Other grids that share it are in Model/SharedAttr.lean. -/
def Dense.retype (d : Dense) (a b : Attr) : Dense :=
  { d with
    ags := d.ags.map fun g => { g with attrs := g.attrs.map (changeAttr a b) }
    classAttrs := d.classAttrs.map fun p => ({ p.1 with attr := changeAttr a b p.1.attr }, p.2)
    attributes := d.attributes.map (changeAttr a b) }

/-- `GetSysValFromString`: base/float.go:111-117, base/categorical.go:99-115, base/binary.go:51-61. The
value and the attribute afterwards; `parse` is `strconv.ParseFloat`, an error panics. -/
def Attr.fromString (fo : FloatOps) (parse : String → Option U64) (a : Attr) (s : String) : Res (Bytes × Attr) :=
  match a.body with
  | .cat n vs => Res.ok ((catIntern vs s).1, { a with body := .cat n (catIntern vs s).2 })
  | .float _ _ =>
    match parse s with
    | some u => Res.ok (packU64 u, a)
    | none => Res.panic
  | .bin _ =>
    match parse s with
    | some u => Res.ok ([if fo.gt u 0#64 then 1#8 else 0#8], a)
    | none => Res.panic

/-- `SetClass`, base/util_instances.go:90-110. -/
def setClass (fo : FloatOps) (parse : String → Option U64) (d : Dense) (row : Nat) (cls : String) : Res Dense :=
  match d.allClassAttributes with
  | [a] =>
    (d.getAttribute a).orPanic.bind fun s =>
      (a.fromString fo parse cls).bind fun p => (d.retype a p.2).set { s with attr := p.2 } row p.1
  | _ => Res.panic

/-- Loop of `GeneratePredictionVector`, base/util_instances.go:17-20; the errors of `AddClassAttribute`
are ignored. -/
def predAttrs (pg : Nat) : Dense → List Attr → Res Dense
  | d, [] => Res.ok d
  | d, a :: as =>
    (d.addAttribute pg a).bind fun p =>
      match p.1.addClassAttribute a with
      | .ok d' => predAttrs pg d' as
      | .err => predAttrs pg p.1 as
      | .panic => Res.panic

/-- `GeneratePredictionVector`, base/util_instances.go:13-23; `pg` is the page size. -/
def generatePredictionVector (pg : Nat) (g : Grid) : Res Dense :=
  (predAttrs pg Dense.new g.allClassAttributes).map fun d => d.extend g.size.2

end Golearn
