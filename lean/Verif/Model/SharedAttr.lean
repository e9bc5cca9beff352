import Verif.Model.Grid
import Verif.Model.Predict

/-! # Attributes are objects that tables share

An attribute in a table is a pointer. `GeneratePredictionVector` (base/util_instances.go:13-23), views (base/view.go:57-110) and
`NewStructuralCopy` (base/dense.go:50-77) pass the pointers on, so that a text which is new to a categorical attribute shows in every grid
with that attribute. In the other models the contents of an attribute are part of the table; here they are looked up. -/

namespace Golearn

/-- What the attributes contain at present, by pointer. -/
abbrev Objs := Nat → AttrBody

/-- The attribute as it is at present. -/
def Attr.now (o : Objs) (a : Attr) : Attr := ⟨a.ptr, o a.ptr⟩

/-- The specification with its attribute as it is at present. -/
def Spec.now (o : Objs) (s : Spec) : Spec := { s with attr := s.attr.now o }

/-- The table with its attributes as they are at present. -/
def Dense.now (o : Objs) (d : Dense) : Dense :=
  { d with
    ags := d.ags.map fun g => { g with attrs := g.attrs.map (Attr.now o) }
    classAttrs := d.classAttrs.map fun p => (p.1.now o, p.2)
    attributes := d.attributes.map (Attr.now o) }

/-- The grid with its attributes as they are at present. The attributes a filter keeps are not looked up. -/
def Grid.now (o : Objs) : Grid → Grid
  | .dense d => .dense (d.now o)
  | .view src attrs rows cls mask =>
    .view (src.now o) (attrs.map fun l => l.map (Spec.now o)) rows (cls.map fun p => (p.1.now o, p.2)) mask
  | .filt f src cls unf => .filt f (src.now o) (cls.map fun p => (p.1.now o, p.2)) (unf.map fun p => (p.1.now o, p.2))

namespace Objs

/-- `GetSysValFromString` on the attribute `p`, base/categorical.go:99-115: a text that is new is appended. Other attributes do not
change (base/float.go:111-117, base/binary.go:51-61). -/
def intern (o : Objs) (p : Nat) (s : String) : Objs :=
  match o p with
  | .cat n vs => fun q => if q = p then .cat n (catIntern vs s).2 else o q
  | _ => o

/-- Any number of such calls. -/
def interns (o : Objs) (l : List (Nat × String)) : Objs := l.foldl (fun o q => o.intern q.1 q.2) o

/-- The objects after the predictions `d` have been written: the attributes of `d` have the contents they have in `d`. -/
def written (o : Objs) (d : Dense) : Objs := fun p =>
  match d.allAttributes.find? fun a => a.ptr == p with
  | some a => a.body
  | none => o p

end Objs

end Golearn
