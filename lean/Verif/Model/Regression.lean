import Verif.Model.Knn

/-!
# Linear regression (linear_models/linear_regression.go)

Numbers are elements of a field `R`: nothing is rounded. `val` is the number with a bit pattern and `enc` the
bit pattern a number is stored with. The QR factorisation of the library is a parameter.
-/

namespace Golearn

section
variable {R : Type} [Field R]

/-- `NonClassAttributes`, base/util_attributes.go:36-40. The set differences are taken with Go maps, so the order
is arbitrary: the functions below take any permutation of this. -/
def Grid.normalAttrs (g : Grid) : List Attr := attrDifferenceRefs g.allAttributes g.allClassAttributes

/-- Setting a row of a matrix. -/
def setRow {α : Type} (m : Nat → α) (i : Nat) (v : α) : Nat → α := fun k => if k = i then v else m k

/-- The row callback at linear_models/linear_regression.go:66-70: the observed value. -/
def observedCallback (val : U64 → R) (m : Nat → R) (vals : List Bytes) (row : Nat) : Res ((Nat → R) × Ctl) :=
  match vals with
  | v :: _ => (unpackFloatBits v).map fun u => (setRow m row (val u), Ctl.cont)
  | [] => Res.panic

/-- The row callback at linear_models/linear_regression.go:73-80: one, then the values of the attributes. -/
def explCallback (val : U64 → R) (m : Nat → List R) (vals : List Bytes) (row : Nat) : Res ((Nat → List R) × Ctl) :=
  (readRow val vals).map fun t => (setRow m row (1 :: t), Ctl.cont)

/-- The inner loop of the back substitution, linear_models/linear_regression.go:95-98: `j` from `i+1` to `n-1`. -/
def backInner (n i : Nat) (r : Nat → Nat → R) (c : Nat → R) (start : R) : R :=
  (List.range' (i + 1) (n - (i + 1))).foldl (fun acc j => acc - c j * r i j) start

/-- The back substitution, linear_models/linear_regression.go:94-100: rows `i-1` down to 0. A zero on the diagonal
gives infinities or NaN in Go; here it is excluded by the theorems. -/
def backSub (n : Nat) (r : Nat → Nat → R) (b : Nat → R) : Nat → (Nat → R) → (Nat → R)
  | 0, c => c
  | i + 1, c => backSub n r b i (setRow c i (backInner n i r c (b i) / r i i))

/-- A fitted model. -/
structure LinReg (R : Type) where
  disturbance : R
  coefficients : List R
  attrs : List Attr
  cls : Attr

/-- The library's QR factorisation of a matrix with `m` rows and `n` columns: `Q` and `R`. -/
abbrev QR (R : Type) := Nat → Nat → (Nat → Nat → R) → (Nat → Nat → R) × (Nat → Nat → R)

/-- `transposed * observed`, linear_models/linear_regression.go:89-91. -/
def qTimes (m : Nat) (q : Nat → Nat → R) (y : Nat → R) (i : Nat) : R :=
  ((List.range m).map fun k => q k i * y k).sum

/-- `LinearRegression.Fit`, linear_models/linear_regression.go:30-108. `normal` is the order of the attributes that
are not class attributes, `order` that of the rows. The errors of `MapOverRows` are ignored. -/
def linRegFit (val : U64 → R) (srt : List Spec → List Spec) (qr : QR R) (order order' : List Nat) (g : Grid) (normal : List Attr) :
    Res (LinReg R) :=
  let rows := g.size.2
  match g.allClassAttributes with
  | [cls] =>
    (g.resolve srt [cls]).bind fun cs =>
      let attrs := normal.filter Attr.isFloat
      let cols := attrs.length + 1
      if rows < cols then Res.err
      else
        (g.resolve srt attrs).bind fun as =>
          (keepState (g.mapOverRows cs order (observedCallback val) fun _ => 0) fun _ => 0).bind fun y =>
            (keepState (g.mapOverRows as order' (explCallback val) fun _ => []) fun _ => []).map fun x =>
              let f := qr rows cols fun i j => (x i).getD j 0
              let c := backSub cols f.2 (qTimes rows f.1 y) cols fun _ => 0
              ⟨c 0, (List.range (cols - 1)).map fun j => c (j + 1), attrs, cls⟩
  | _ => Res.err

/-- The row callback at linear_models/linear_regression.go:122-130. `regressionCoefficients[j]` is in range, since
there is a coefficient for every attribute. -/
def linRegCallback (val : U64 → R) (enc : R → U64) (lr : LinReg R) (s : Spec) (d : Dense) (vals : List Bytes) (row : Nat) :
    Res (Dense × Ctl) :=
  (readRow val vals).bind fun t =>
    (d.set s row (packU64 (enc ((List.zipWith (fun x b => x * b) t lr.coefficients).foldl (· + ·) lr.disturbance)))).map
      fun d' => (d', Ctl.cont)

/-- `LinearRegression.Predict`, linear_models/linear_regression.go:110-133. -/
def linRegPredict (val : U64 → R) (enc : R → U64) (srt : List Spec → List Spec) (pg : Nat) (order : List Nat)
    (lr : LinReg R) (g : Grid) : Res Dense :=
  (generatePredictionVector pg g).bind fun ret =>
    (g.resolve srt lr.attrs).bind fun as =>
      (ret.getAttribute lr.cls).bind fun s =>
        keepState (g.mapOverRows as order (linRegCallback val enc lr s) ret) ret

end

end Golearn
