import Verif.Model.Predict
import Verif.Model.Sort
import Verif.Model.Convert
import Mathlib.Order.Defs.LinearOrder

/-! # One-vs-all classification (meta/one_v_all.go) -/

namespace Golearn

/-- `generateAttributes`, meta/one_v_all.go:330-347, for one class attribute `c`; `fresh` gives the address of the
attribute created for `a`. -/
def ovaAttrs (fresh : Attr → Nat) (attrs : List Attr) (c : Attr) : GoMap Attr Attr :=
  attrs.foldl (fun m a => m.set a (if a.equals c then ⟨fresh a, .float c.name 2⟩ else a)) []

/-- `oneVsAllFilter`, meta/one_v_all.go:352-356. -/
structure OvaFilter where
  attrs : GoMap Attr Attr
  cls : Attr
  val : U64
  deriving DecidableEq, Repr

/-- The filter's methods, meta/one_v_all.go:358-389 and 366-375. `ord` is the order of iteration over the map. -/
def OvaFilter.filter (f : OvaFilter) (ord : List FAttr → List FAttr) : Filter where
  attrs := ord (f.attrs.map fun p => ⟨p.1, p.2⟩)
  transform old _ seq :=
    if !(old.equals f.cls) then Res.ok seq
    else (unpackU64 seq).map fun v => packU64 (if v = f.val then f64One else 0#64)

/-- The highest stored value, meta/one_v_all.go:50-58, over the values in the list. `vs` are the values of the class
attribute; all of them are known, so looking them up does not change it. -/
def ovaHighest (vs : List String) : List String → U64 → Res U64
  | [], val => Res.ok val
  | s :: ss, val => (unpackU64 (catIntern vs s).1).bind fun cur => ovaHighest vs ss (if val < cur then cur else val)

/-- `OneVsAllModel`, meta/one_v_all.go:12-19, without the structural copy of the training data kept for saving. A
trained classifier is a function from grids to predictions. -/
structure OneVsAll where
  filters : List OvaFilter
  classifiers : List (Grid → Res Grid)
  maxVal : U64
  classValues : List String

/-- Making and training the classifier of class `i` with filter `f`, meta/one_v_all.go:71-82; `train` is explained at
`OneVsAll.fit`. -/
def ovaTrain (train : String → Option Grid → Res (Grid → Res Grid)) (vs : List String) (g : Grid) (f : Nat → Filter)
    (i : Nat) : Res (Grid → Res Grid) :=
  match vs[i]? with
  | some s => train s (if g.size.2 = 0 then none else some (Grid.newFiltered g (f i)))
  | none => Res.panic

/-- `Fit`, meta/one_v_all.go:37-88. `train s v` is what `NewClassifierFunction(s)` followed by `Fit(v)` gives, where
`v` is `none` if `Fit` is not called; the error of `Fit` is ignored by the code. `ord i` is the order of iteration over
the map of filter `i`. -/
def OneVsAll.fit (train : String → Option Grid → Res (Grid → Res Grid)) (fresh : Attr → Nat)
    (ord : Nat → List FAttr → List FAttr) (g : Grid) : Res OneVsAll :=
  match g.allClassAttributes with
  | [c] =>
    match c.body with
    | .cat _ vs =>
      (ovaHighest vs vs 0#64).bind fun val =>
        if val = 0#64 then Res.panic
        else
          let f (i : Nat) : OvaFilter := ⟨ovaAttrs fresh g.allAttributes c, c, BitVec.ofNat 64 i⟩
          (mapRes (ovaTrain train vs g fun i => (f i).filter (ord i)) (List.range (val.toNat + 1))).map fun cs =>
            ⟨(List.range (val.toNat + 1)).map f, cs, val, vs⟩
    | _ => Res.panic
  | _ => Res.panic

/-- The loop over the classifiers in `Predict`, meta/one_v_all.go:104-114: the predictions of classifier `i` and the
specification of their first class attribute. -/
def OneVsAll.ask (m : OneVsAll) (srt : List Spec → List Spec) (ord : Nat → List FAttr → List FAttr) (what : Grid)
    (i : Nat) : Res (Grid × Spec) :=
  match m.filters[i]?, m.classifiers[i]? with
  | some f, some c =>
    (c (Grid.newFiltered what (f.filter (ord i)))).bind fun p =>
      (p.resolve srt p.allClassAttributes).bind fun sp =>
        match sp with
        | s :: _ => Res.ok (p, s)
        | [] => Res.panic
  | _, _ => Res.panic

section
variable {K : Type} [LinearOrder K] [Zero K]

/-- Keep or replace the best class, meta/one_v_all.go:121-125: `x` is the output for class `j`, `none` if it is NaN, which
is not greater than anything. -/
def ovaBetter (best : Nat × K) (j : Nat) : Option K → Nat × K
  | some x => if best.2 < x then (j, x) else best
  | none => best

/-- The loop over the classes for row `i`, meta/one_v_all.go:120-126; `(class, best)` is the state. `num` gives the
number a bit pattern stands for (`none` for NaN). -/
def ovaChoose (num : U64 → Option K) (i : Nat) : List (Grid × Spec) → Nat → Nat × K → Res (Nat × K)
  | [], _, best => Res.ok best
  | (p, s) :: rest, j, best =>
    (p.get s i).bind fun b => (unpackU64 b).bind fun u =>
      ovaChoose num i rest (j + 1) (ovaBetter best j (num u))

/-- The loop over the rows, meta/one_v_all.go:117-128. -/
def ovaRows (num : U64 → Option K) (outs : List (Grid × Spec)) (spec : Spec) : List Nat → Dense → Res Dense
  | [], d => Res.ok d
  | i :: is, d =>
    (ovaChoose num i outs 0 (0, 0)).bind fun best =>
      (d.set spec i (packU64 (BitVec.ofNat 64 best.1))).bind fun d' => ovaRows num outs spec is d'

/-- `Predict`, meta/one_v_all.go:95-130; `pg` is the page size. -/
def OneVsAll.predict (m : OneVsAll) (num : U64 → Option K) (pg : Nat) (srt : List Spec → List Spec)
    (ord : Nat → List FAttr → List FAttr) (what : Grid) : Res Dense :=
  (generatePredictionVector pg what).bind fun ret =>
    if m.filters.length < m.maxVal.toNat ∨ (m.maxVal = 0#64 ∧ m.filters = []) then Res.err
    else (mapRes (m.ask srt ord what) (List.range (m.maxVal.toNat + 1))).bind fun outs =>
      ((Grid.dense ret).resolve srt ret.allClassAttributes).bind fun sp =>
        match sp with
        | spec :: _ => ovaRows num outs spec (List.range ret.size.2) ret
        | [] => Res.panic

end

end Golearn
