import Verif.Model.CsvText
import Verif.Model.Disk

/-!
# Writing a table to a path (base/serialize_instances.go:14-43, base/arff.go:16-74)

A file is its bytes; `none` for a path where there is no file. `utf8` gives the bytes of a character.
-/

namespace Golearn

/-- A file that was opened with `os.O_RDWR` alone, neither created nor emptied, after these bytes were written to it. -/
def overwrite (new old : Bytes) : Bytes := new ++ old.drop new.length

/-- What reaches the file of a piece: everything, or the first `k` bytes when writing fails then. -/
def cutAt : Option Nat → Bytes → Bytes
  | none, b => b
  | some k, b => b.take k

/-- `SerializeInstancesToCSV`, base/serialize_instances.go:32-43, for a text that `SerializeInstancesToCSVStream` writes (`writeCSV`). `csv.Writer`
has a buffer, which keeps the first error and writes nothing afterwards; the code does not ask for it. -/
def csvToFile (utf8 : Char → Bytes) (fault : Option Nat) (text : Res Text) : Option Bytes → Res Bytes
  | none => Res.err
  | some old => text.map fun t => overwrite (cutAt fault (t.flatMap utf8)) old

/-- The pieces of the header of an ARFF file, one for each call of `Fprintf`, base/arff.go:46-61. -/
def arffHeaderPieces (relation : String) (specs : List Spec) : List Text :=
  ("@relation ".toList ++ relation.toList ++ "\n\n".toList) ::
    (specs.map fun s => "@attribute ".toList ++ s.attr.name.toList ++ " ".toList ++ arffType s.attr ++ "\n".toList) ++ ["\n@data\n".toList]

/-- The function that is called for each row, base/arff.go:64-71: two calls of `Fprint`. -/
def arffRowPieces (fo : FloatOps) (specs : List Spec) (out : List Text) (vals : List Bytes) (_row : Nat) : Res (List Text × Ctl) :=
  (mapRes (fun p : Spec × Bytes => p.1.attr.getString fo p.2) (specs.zip vals)).map fun ts =>
    (out ++ [joinWith ",".toList (ts.map String.toList), "\n".toList], Ctl.cont)

/-- `SerializeInstancesToWriterDenseARFFWithAttributes`, base/arff.go:44-74: the pieces that are written. -/
def arffPieces (fo : FloatOps) (srt : List Spec → List Spec) (order : List Nat) (g : Grid) (attrs : List Attr) (relation : String) :
    Res (List Text) :=
  (g.resolve srt attrs).bind fun specs =>
    (g.mapOverRows specs order (arffRowPieces fo specs) (arffHeaderPieces relation specs)).map Prod.fst

/-- `SerializeInstancesToDenseARFFWithAttributes`, base/arff.go:30-42, for these pieces. Each piece is written to the file by itself, whether or not
there was an error before; `fault i` is what happens with the `i`-th. -/
def arffToFile (utf8 : Char → Bytes) (fault : Nat → Option Nat) (pieces : Res (List Text)) : Option Bytes → Res Bytes
  | none => Res.err
  | some old => pieces.map fun ps => overwrite ((ps.zipIdx.map fun p => cutAt (fault p.2) (p.1.flatMap utf8)).flatten) old

/-- `SerializeInstancesToFile` and `SerializeInstances`, base/serialize_instances.go:14-29 and 222-246, for the entries of a table: what is in the file.
No entry is flushed before the end. Bytes of an older file may follow; reading a table stops before them. What is in the file after an error is not
modelled. -/
def tableToFile (D : DiskEnv) (exists_ : Bool) (entries : Res Archive) : Res Archive :=
  if exists_ then entries.bind fun es =>
    let r := saveTo D .returned (es.map fun e => (e, false))
    if r.2 then Res.ok r.1.onDisk else Res.err
  else Res.err

end Golearn
