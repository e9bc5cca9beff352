import Verif.Model.Arff

/-!
# The text of CSV files (base/csv.go, base/serialize_instances.go)

Go's `encoding/csv` with its default settings, on a text; and how instances are written and read with it.
-/

namespace Golearn

/-! ## Reading -/

/-- The carriage returns that the reader of `encoding/csv` leaves out, those before a newline and one at the end. -/
def normCR : Text → Text
  | [] => []
  | c :: cs => if c = '\r' ∧ (cs = [] ∨ cs.head? = some '\n') then normCR cs else c :: normCR cs

/-- The records of a text, as `encoding/csv` reads it. Empty lines are skipped. A quoted field may have newlines in it. `fs` are the fields of the current
record that are finished; the characters of the current field are held in reverse. -/
def csvAll : CsvMode → List Text → Text → Res (List (List Text))
  | .start, fs, [] => if fs = [] then Res.ok [] else Res.ok [fs ++ [[]]]
  | .start, fs, c :: cs =>
    if c = '"' then csvAll (.quoted []) fs cs
    else if c = ',' then csvAll .start (fs ++ [[]]) cs
    else if c = '\n' then
      if fs = [] then csvAll .start [] cs else (csvAll .start [] cs).map ((fs ++ [[]]) :: ·)
    else csvAll (.plain [c]) fs cs
  | .plain cur, fs, [] => Res.ok [fs ++ [cur.reverse]]
  | .plain cur, fs, c :: cs =>
    if c = ',' then csvAll .start (fs ++ [cur.reverse]) cs
    else if c = '\n' then (csvAll .start [] cs).map ((fs ++ [cur.reverse]) :: ·)
    else if c = '"' then Res.err
    else csvAll (.plain (c :: cur)) fs cs
  | .quoted _, _, [] => Res.err
  | .quoted cur, fs, c :: cs => if c = '"' then csvAll (.quote cur) fs cs else csvAll (.quoted (c :: cur)) fs cs
  | .quote cur, fs, [] => Res.ok [fs ++ [cur.reverse]]
  | .quote cur, fs, c :: cs =>
    if c = '"' then csvAll (.quoted ('"' :: cur)) fs cs
    else if c = ',' then csvAll .start (fs ++ [cur.reverse]) cs
    else if c = '\n' then (csvAll .start [] cs).map ((fs ++ [cur.reverse]) :: ·)
    else Res.err

/-- All calls of `Read` on a `csv.Reader` until the end of the text, base/csv.go:14-28 and 173-182. That the records have equally many fields is checked by
`csvUniform`. -/
def csvRead (text : Text) : Res (List (List Text)) := csvAll .start [] (normCR text)

/-- Where the match of `^[-+]?[0-9]*\\.?[0-9]+([eE][-+]?[0-9]+)?$` is: at the start, after the sign, in the digits before the dot, after the dot, in the
digits after the dot, after the letter of the exponent, after its sign, or in its digits. -/
inductive NumState where
  | start
  | sign
  | int
  | dot
  | frac
  | exp
  | expSign
  | expInt
  deriving DecidableEq

/-- The regular expression of base/csv.go:133. -/
def matchNum : NumState → Text → Bool
  | .int, [] => true
  | .frac, [] => true
  | .expInt, [] => true
  | _, [] => false
  | .start, c :: cs => if c = '-' ∨ c = '+' then matchNum .sign cs else if isDigit c then matchNum .int cs else c == '.' && matchNum .dot cs
  | .sign, c :: cs => if isDigit c then matchNum .int cs else c == '.' && matchNum .dot cs
  | .int, c :: cs => if isDigit c then matchNum .int cs else if c = '.' then matchNum .dot cs else (c == 'e' || c == 'E') && matchNum .exp cs
  | .dot, c :: cs => isDigit c && matchNum .frac cs
  | .frac, c :: cs => if isDigit c then matchNum .frac cs else (c == 'e' || c == 'E') && matchNum .exp cs
  | .exp, c :: cs => if c = '-' ∨ c = '+' then matchNum .expSign cs else isDigit c && matchNum .expInt cs
  | .expSign, c :: cs => isDigit c && matchNum .expInt cs
  | .expInt, c :: cs => isDigit c && matchNum .expInt cs

/-- `strings.Trim(_, " ")`, base/csv.go:132. -/
def trimBlank (t : Text) : Text := ((t.dropWhile (· == ' ')).reverse.dropWhile (· == ' ')).reverse

/-- Whether a field makes its column a column of numbers, base/csv.go:131-138. -/
def looksNumeric (t : Text) : Bool := matchNum .start (trimBlank t)

/-- What the parser of records needs, for a text; base/csv.go:32-69 gives the precision, and the parser trims names and values with
`strings.TrimSpace`. `parse` is `strconv.ParseFloat(_, 64)`, `none` for an error. -/
def textOps (parse : String → Option U64) (text : Text) : CsvOps :=
  { trim := fun s => String.ofList (trimSpace s.toList), isNum := fun s => looksNumeric s.toList, parse := parse,
    prec := estimatePrecision text }

/-- `ParseCSVToInstancesFromReader`, base/csv.go:205-235, on the text of the file. The text is read three times by base/csv.go:14-28, 84-156 and 159-201,
the first time to the end: if it cannot be read there is an error at once. -/
def parseCSVText (pg : Nat) (parse : String → Option U64) (srt : List Spec → List Spec) (fresh : Nat → Nat) (hasHeaders : Bool) (text : Text) :
    Res (Dense × ValEnv) :=
  (csvRead text).bind fun recs =>
    parseCSVToInstances pg (textOps parse text) srt fresh hasHeaders (recs.map fun r => r.map String.ofList)

/-- `ParseCSVToInstances`, base/filewrapper.go:72-81, with the text of the file. -/
def loadCSV (pg : Nat) (parse : String → Option U64) (srt : List Spec → List Spec) (fresh : Nat → Nat) (hasHeaders : Bool) (text : Text) : Res Dense :=
  (parseCSVText pg parse srt fresh hasHeaders text).map fun q => q.1.current q.2

/-! ## Writing -/

/-- `fieldNeedsQuotes` of `encoding/csv`. -/
def csvNeedsQuotes (t : Text) : Bool :=
  match t with
  | [] => false
  | c :: _ => t == ['\\', '.'] || t.any (fun x => x == ',' || x == '"' || x == '\r' || x == '\n') || isSpace c

/-- Double the quotes. -/
def csvEscape (t : Text) : Text := t.flatMap fun c => if c = '"' then ['"', '"'] else [c]

/-- A field, as `csv.Writer` writes it. -/
def csvField (t : Text) : Text := if csvNeedsQuotes t then '"' :: csvEscape t ++ ['"'] else t

/-- A record, as `csv.Writer` writes it. -/
def csvRecordText (r : List Text) : Text := joinWith [','] (r.map csvField) ++ ['\n']

/-- What `csv.Writer` writes for these records. -/
def csvWrite (recs : List (List Text)) : Text := recs.flatMap csvRecordText

/-- The function that is called for each row, base/serialize_instances.go:67-74. The attributes are those of the header, not those of the
specifications. -/
def csvRow (fo : FloatOps) (all : List Attr) (out : Text) (vals : List Bytes) (_row : Nat) : Res (Text × Ctl) :=
  (mapRes (fun p : Attr × Bytes => p.1.getString fo p.2) (all.zip vals)).map fun ts =>
    (out ++ csvRecordText (ts.map String.toList), Ctl.cont)

/-- `SerializeInstancesToCSVStream`, base/serialize_instances.go:45-79: what is written. `nrm` are the other attributes in the order of
`NonClassAttributes`; `srt` is the sort of `ResolveAttributes` and `order` the order of the rows. When there are fewer attributes than columns, one
is nil and asking for its name panics. Errors of the writer are ignored by the code. -/
def writeCSV (fo : FloatOps) (srt : List Spec → List Spec) (nrm : List Attr) (order : List Nat) (g : Grid) : Res Text :=
  let all := (nrm ++ g.allClassAttributes).take g.size.1
  if all.length < g.size.1 then Res.panic
  else
    (g.resolve srt all).bind fun specs =>
      (g.mapOverRows specs order (csvRow fo all) (csvRecordText (all.map fun a => a.name.toList))).map Prod.fst

end Golearn
