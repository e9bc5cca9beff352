import Verif.Model.Text
import Verif.Model.Csv

/-!
# ARFF files (base/arff.go)

Reading and writing files is not modelled: the functions take and give the text of the file.
-/

namespace Golearn

/-- The library functions the ARFF code calls, left arbitrary. -/
structure ArffOps where
  /-- `unicode.ToLower`, which `strings.ToLower` applies to each character -/
  lower : Char → Char
  /-- `strconv.ParseFloat(_, 64)`, `none` for an error -/
  parse : String → Option U64

/-! ## Writing -/

/-- The type of an attribute in the header, base/arff.go:54-58. -/
def arffType (a : Attr) : Text :=
  match a.body with
  | .cat _ vs => "{".toList ++ joinWith ", ".toList (vs.map String.toList) ++ "}".toList
  | _ => "real".toList

/-- The header, base/arff.go:46 and 51-61. -/
def arffHeader (relation : String) (specs : List Spec) : Text :=
  "@relation ".toList ++ relation.toList ++ "\n\n".toList ++
    (specs.flatMap fun s => "@attribute ".toList ++ s.attr.name.toList ++ " ".toList ++ arffType s.attr ++ "\n".toList) ++ "\n@data\n".toList

/-- The function that is called for each row, base/arff.go:64-71. -/
def arffRow (fo : FloatOps) (specs : List Spec) (out : Text) (vals : List Bytes) (_row : Nat) : Res (Text × Ctl) :=
  (mapRes (fun p : Spec × Bytes => p.1.attr.getString fo p.2) (specs.zip vals)).map fun ts =>
    (out ++ joinWith ",".toList (ts.map String.toList) ++ "\n".toList, Ctl.cont)

/-- `SerializeInstancesToWriterDenseARFFWithAttributes`, base/arff.go:44-74: what is written. Errors of the writer are ignored by the code. `srt` is
the sort of `ResolveAttributes` and `order` the order of the rows. -/
def writeARFFWith (fo : FloatOps) (srt : List Spec → List Spec) (order : List Nat) (g : Grid) (attrs : List Attr) (relation : String) : Res Text :=
  (g.resolve srt attrs).bind fun specs =>
    (g.mapOverRows specs order (arffRow fo specs) (arffHeader relation specs)).map Prod.fst

/-- `SerializeInstancesToDenseARFF`, base/arff.go:16-42: the class attributes come last. `nrm` are the other attributes in the order of
`NonClassAttributes`. -/
def writeARFF (fo : FloatOps) (srt : List Spec → List Spec) (nrm : List Attr) (order : List Nat) (g : Grid) (relation : String) : Res Text :=
  writeARFFWith fo srt order g (nrm ++ g.allClassAttributes) relation

/-! ## Reading -/

/-- The loop of `ParseARFFGetRows`, base/arff.go:85-109. -/
def arffCount (lower : Char → Char) : Bool → List Text → Nat
  | _, [] => 0
  | counting, [] :: ls => arffCount lower counting ls
  | true, (c :: _) :: ls => if c = '@' ∨ c = '%' then arffCount lower true ls else arffCount lower true ls + 1
  | false, (c :: cs) :: ls => arffCount lower (decide (c = '@' ∧ (c :: cs).map lower = "@data".toList)) ls

/-- `ParseARFFGetRows`, base/arff.go:77-111. -/
def arffRows (lower : Char → Char) (text : Text) : Nat := arffCount lower false (scanLines text)

/-- The values of a categorical attribute from the fields of its line, base/arff.go:149-170; `fs` are the fields from the third. A value that
occurs twice is kept once. -/
def arffValues (fs : List Text) : List String :=
  let cats := match fs with
    | [f] => splitAtChar ',' f
    | _ => fs
  let cats := match cats with
    | [] => []
    | c :: cs => c.drop 1 :: cs
  let cats := match cats.getLast? with
    | none => []
    | some c => cats.dropLast ++ [c.dropLast]
  let cats := cats.map fun v =>
    let v := trimSpace v
    if v.getLast? = some ',' then v.dropLast else v
  cats.foldl (fun vs v => (catIntern vs (String.ofList v)).2) []

/-- One line of `ParseARFFGetAttributes`, base/arff.go:126-183: the attribute it declares, if any. The panics with an error are recovered by
base/arff.go:254-261 and returned. -/
def arffAttribute (lower : Char → Char) (line : Text) : Res (Option AttrBody) :=
  if line.head? ≠ some '@' then Res.ok none
  else
    match fieldsOf line with
    | f0 :: f1 :: f2 :: fs =>
      if f0.map lower ≠ "@attribute".toList then Res.ok none
      else if f2.map lower = "real".toList then Res.ok (some (.float (String.ofList f1) 0))
      else if f2.head? = some '{' then
        if ((f2 :: fs).getLastD []).getLast? = some '}' then Res.ok (some (.cat (String.ofList f1) (arffValues (f2 :: fs)))) else Res.err
      else Res.err
    | _ => Res.ok none

/-- Give a float attribute its precision, base/arff.go:190-194. -/
def AttrBody.withPrecision (p : Int) : AttrBody → AttrBody
  | .float n _ => .float n p
  | b => b

/-- `ParseARFFGetAttributes`, base/arff.go:114-196. -/
def arffAttributes (lower : Char → Char) (text : Text) : Res (List AttrBody) :=
  (mapRes (arffAttribute lower) (scanLines text)).map fun l =>
    (l.filterMap id).map (AttrBody.withPrecision (estimatePrecision text))

/-- How the reading of the data ends: at the end of the text; with an error; with a runtime error (an index out of range), upon which the deferred
function at base/arff.go:202-209 calls `panic(err)` with a nil `err`; or with another panic. -/
inductive Stop where
  | done
  | err
  | runtime
  | panic
  deriving DecidableEq, Repr

/-- The value of a field, base/arff.go:230-236: a categorical value has to be known. -/
def arffValue (ops : ArffOps) (a : Attr) (v : String) : Res Bytes :=
  match a.body with
  | .float _ _ =>
    match ops.parse v with
    | some b => Res.ok (packU64 b)
    | none => Res.err
  | .cat _ vs =>
    match catGetSysVal vs v with
    | some b => Res.ok b
    | none => Res.err
  | .bin _ =>
    match ops.parse v with
    | some b => Res.ok (if f64Pos b then [1#8] else [0#8])
    | none => Res.err

/-- Why `Set` fails: the start of the cell is beyond the storage, which is a runtime error, or the cell is only partly inside, which is a panic with a
string (base/fixed.go:66-72). The deferred function at base/arff.go:202-209 takes the string for an error, which panics. -/
def setStop (d : Dense) (s : Spec) (row : Nat) : Stop :=
  match s.pond.bind fun id => d.ags[id]? with
  | none => .runtime
  | some g => if g.offset s.position row > g.alloc.length then .runtime else .panic

/-- The loop over the fields of a record, base/arff.go:229-237. -/
def arffRecord (ops : ArffOps) (row : Nat) : Dense → List Spec → List Text → Dense × Stop
  | d, _, [] => (d, .done)
  | d, [], _ :: _ => (d, .runtime)
  | d, s :: ss, v :: vs =>
    match arffValue ops s.attr (String.ofList (trimSpace v)) with
    | .ok b =>
      match d.set s row b with
      | .ok d' => arffRecord ops row d' ss vs
      | _ => (d, setStop d s row)
    | _ => (d, .err)

/-- The loop over the lines, base/arff.go:214-247. -/
def arffRead (ops : ArffOps) (specs : List Spec) : Bool → Nat → Dense → List Text → Dense × Stop
  | _, _, d, [] => (d, .done)
  | reading, row, d, l :: ls =>
    if l.head? = some '%' then arffRead ops specs reading row d ls
    else if reading then
      match csvLine l with
      | .ok none => arffRead ops specs true row d ls
      | .ok (some r) =>
        match arffRecord ops row d specs r with
        | (d', .done) => arffRead ops specs true (row + 1) d' ls
        | q => q
      | _ => (d, .err)
    else arffRead ops specs (decide (trimSpace (l.map ops.lower) = "@data".toList)) row d ls

/-- `ParseDenseARFFBuildInstancesFromReader`, base/arff.go:199-250. -/
def arffBuild (ops : ArffOps) (srt : List Spec → List Spec) (attrs : List Attr) (d : Dense) (text : Text) : Dense × Stop :=
  match (Grid.dense d).resolve srt attrs with
  | .ok specs => arffRead ops specs false 0 d (scanLines text)
  | _ => (d, .err)

/-- What the deferred function at base/arff.go:254-261 and lines 292-296 make of the end of the reading. The module asks for Go 1.15 (go.mod:3), where
`recover` gives nil for `panic(nil)`: after a runtime error while the data is read, the panic is stopped, there is nothing to report, and the function
returns what was read so far and no error. -/
def arffFinish : Dense × Stop → Res Dense
  | (d, .done) => Res.ok d
  | (_, .err) => Res.err
  | (d, .runtime) => Res.ok d
  | (_, .panic) => Res.panic

/-- `ParseDenseARFFToInstances`, base/arff.go:253-297. -/
def parseARFF (pg : Nat) (ops : ArffOps) (srt : List Spec → List Spec) (fresh : Nat → Nat) (text : Text) : Res Dense :=
  (arffAttributes ops.lower text).bind fun bodies =>
    let attrs := withPtrs fresh 0 bodies
    (addAll pg Dense.new attrs).bind fun d =>
      match attrs.getLast? with
      | none => Res.panic
      | some a =>
        let d := match d.addClassAttribute a with
          | .ok d' => d'
          | _ => d
        arffFinish (arffBuild ops srt attrs (d.extend (arffRows ops.lower text)) text)

end Golearn
