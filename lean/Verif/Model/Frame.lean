import Verif.Model.Csv

/-!
# Data frames (base/dataframe_go.go)

A data frame of the package dataframe-go is a list of named columns and a number of rows. A value is nil where the frame has none.
-/

namespace Golearn

/-- What `col.Value(i)` can be (an `interface{}`), as far as base/dataframe_go.go:23 and 50-59 tell them apart. -/
inductive FVal where
  | nil
  | str (s : String)
  | int (i : Int)
  | f64 (u : U64)
  | f32 (u : BitVec 32)
  | other
  deriving DecidableEq, Repr

/-- A data frame: `df.Names()` with `df.Series`, and `df.NRows()`. -/
structure Frame where
  cols : List (String × List FVal)
  rows : Nat

/-- The library functions that are called, left arbitrary: `strconv.FormatInt(v, 10)`, `fmt.Sprintf("%f", v)` for both kinds of floats, and
`strconv.ParseFloat`. -/
structure FrameOps where
  fmtInt : Int → String
  fmt64 : U64 → String
  fmt32 : BitVec 32 → String
  parse : String → Option U64

/-- `col.Value(i)`: there is a panic if there is no such row. -/
def colValue (col : List FVal) (i : Nat) : Res FVal :=
  match col[i]? with
  | some v => Res.ok v
  | none => Res.panic

/-- The attribute of a column, base/dataframe_go.go:22-28. `reflect.TypeOf(nil)` is nil and its method panics; `NewFloatAttribute` has
precision 2. -/
def frameAttr (ptr : Nat) (name : String) (col : List FVal) : Res Attr :=
  (colValue col 0).bind fun v =>
    match v with
    | .nil => Res.panic
    | .str _ => Res.ok ⟨ptr, .cat name []⟩
    | _ => Res.ok ⟨ptr, .float name 2⟩

/-- The loop over the columns, base/dataframe_go.go:21-29. -/
def frameAttrs (fresh : Nat → Nat) : Nat → List (String × List FVal) → Res (List Attr)
  | _, [] => Res.ok []
  | i, c :: cs => (frameAttr (fresh i) c.1 c.2).bind fun a => (frameAttrs fresh (i + 1) cs).map (a :: ·)

/-- The loop that adds the attributes, base/dataframe_go.go:33-36. -/
def addSpecs (pg : Nat) : Dense → List Attr → Res (Dense × List Spec)
  | d, [] => Res.ok (d, [])
  | d, a :: as => (d.addAttribute pg a).bind fun p => (addSpecs pg p.1 as).map fun q => (q.1, p.2 :: q.2)

/-- The text of a value, base/dataframe_go.go:49-59: empty for values of other kinds. -/
def frameText (fo : FrameOps) : FVal → String
  | .str s => s
  | .int i => fo.fmtInt i
  | .f64 u => fo.fmt64 u
  | .f32 u => fo.fmt32 u
  | .nil => ""
  | .other => ""

/-- `GetSysValFromString`, base/float.go:111-117, base/categorical.go:99-115, base/binary.go:51-61: the same as for CSV files, but the panics
are not recovered. -/
def frameSysVal (fo : FrameOps) (env : ValEnv) (a : Attr) (v : String) : Res (Bytes × ValEnv) :=
  (sysValFromString ⟨id, fun _ => false, fo.parse, 0⟩ env a v).orPanic

/-- The loop over the columns of one row, base/dataframe_go.go:46-62. -/
def frameRow (fo : FrameOps) (row : Nat) : Dense → ValEnv → List Spec → List (List FVal) → Res (Dense × ValEnv)
  | d, env, s :: ss, c :: cs =>
    (colValue c row).bind fun v =>
      (frameSysVal fo env s.attr (frameText fo v)).bind fun q =>
        (d.set s row q.1).bind fun d' => frameRow fo row d' q.2 ss cs
  | d, env, _, _ => Res.ok (d, env)

/-- The loop over the rows, base/dataframe_go.go:45-63. -/
def frameRows (fo : FrameOps) (specs : List Spec) (cols : List (List FVal)) : Dense → ValEnv → List Nat → Res (Dense × ValEnv)
  | d, env, [] => Res.ok (d, env)
  | d, env, r :: rs => (frameRow fo r d env specs cols).bind fun q => frameRows fo specs cols q.1 q.2 rs

/-- `attrs[classAttrIndex]`, base/dataframe_go.go:38. -/
def attrAt (attrs : List Attr) (i : Int) : Res Attr :=
  if i < 0 then Res.panic
  else match attrs[i.toNat]? with
    | some a => Res.ok a
    | none => Res.panic

/-- `ConvertDataFrameToInstances`, base/dataframe_go.go:13-66. The error of `AddClassAttribute` is ignored. Returns the grid and the values of
the categorical attributes. -/
def convertFrame (pg : Nat) (fo : FrameOps) (fresh : Nat → Nat) (f : Frame) (cls : Int) : Res (Dense × ValEnv) :=
  (frameAttrs fresh 0 f.cols).bind fun attrs =>
    (addSpecs pg Dense.new attrs).bind fun p =>
      (attrAt attrs cls).bind fun a =>
        (match p.1.addClassAttribute a with
          | .ok d => Res.ok d
          | .err => Res.ok p.1
          | .panic => Res.panic).bind fun d =>
            frameRows fo p.2 (f.cols.map Prod.snd) (d.extend f.rows) (fun _ => []) (List.range f.rows)

end Golearn
