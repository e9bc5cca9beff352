import Verif.Model.Grid

/-! # Copies (base/dense.go:47-98) and the prediction vector (base/util_instances.go:13-23) -/

namespace Golearn

/-- Loop of `copyFixedDataGridStructure`, base/dense.go:53-62: a failed lookup panics. -/
def copyLoop (pg : Nat) (g : Grid) : List Attr → Dense → List Spec → List Spec →
    Res (Dense × List Spec × List Spec)
  | [], ret, s1, s2 => Res.ok (ret, s1, s2)
  | a :: as, ret, s1, s2 =>
    match g.getAttribute a with
    | .ok s => (ret.addAttribute pg a).bind fun p => copyLoop pg g as p.1 (s1 ++ [s]) (s2 ++ [p.2])
    | _ => Res.panic

/-- Class attributes of the copy, base/dense.go:65-68 (errors ignored). -/
def addClasses (d : Dense) (cs : List Attr) : Dense :=
  cs.foldl (fun d a => match d.addClassAttribute a with
    | .ok d' => d'
    | _ => d) d

/-- `copyFixedDataGridStructure`, base/dense.go:47-70. `classes` is `of.AllClassAttributes()` in the
order Go's map iteration produced. -/
def copyStructure (pg : Nat) (g : Grid) (classes : List Attr) :
    Res (Dense × List Spec × List Spec) :=
  (copyLoop pg g g.allAttributes Dense.new [] []).map fun p => (addClasses p.1 classes, p.2)

/-- Inner loop of `NewDenseCopy`, base/dense.go:91-93. -/
def setAll (d : Dense) : List Spec → Nat → List Bytes → Res Dense
  | _, _, [] => Res.ok d
  | [], _, _ :: _ => Res.panic
  | s :: ss, r, v :: vs => (d.set s r v).bind fun d' => setAll d' ss r vs

/-- `NewDenseCopy`, base/dense.go:81-98. `classes` and `order` are the map orders used. The error
returned by `MapOverRows` is ignored by the code. -/
def newDenseCopy (pg : Nat) (g : Grid) (classes : List Attr) (order : List Nat) : Res Dense :=
  (copyStructure pg g classes).bind fun p =>
    let ret := p.1.extend g.size.2
    match g.mapOverRows p.2.1 order (fun d v r => (setAll d p.2.2 r v).map fun d' => (d', Ctl.cont))
        ret with
    | .ok q => Res.ok q.1
    | .err => Res.ok ret
    | .panic => Res.panic

end Golearn
