import Verif.Model.Serialize
import Verif.Model.Convert
import Verif.Model.Instances

/-!
# Parsing CSV (base/csv.go)

The text level is not modelled: the input is the list of records `encoding/csv` produces. That reader
demands the same number of fields in every record and reports an error otherwise.
-/

namespace Golearn

/-- The library functions the parser calls, left arbitrary. -/
structure CsvOps where
  /-- `strings.TrimSpace` -/
  trim : String → String
  /-- the regular expression of base/csv.go:133 after `strings.Trim(entry, " ")` -/
  isNum : String → Bool
  /-- `strconv.ParseFloat(_, 64)`, `none` for an error -/
  parse : String → Option U64
  /-- the outcome of `ParseCSVEstimateFilePrecision`, base/csv.go:32-69 -/
  prec : Int

/-- All records have as many fields as the first one (`encoding/csv`, `FieldsPerRecord = 0`). -/
def csvUniform : List (List String) → Bool
  | [] => true
  | r :: rs => rs.all fun q => q.length == r.length

/-- `ParseCSVGetRowsFromReader`, base/csv.go:14-28: every record is counted, a header too. -/
def csvRowCount (records : List (List String)) : Res Nat :=
  if csvUniform records then Res.ok records.length else Res.err

/-- `ParseCSVSniffAttributeNamesFromReader`, base/csv.go:84-105. -/
def csvNames (co : CsvOps) (records : List (List String)) (hasHeaders : Bool) : Res (List String) :=
  match records with
  | [] => Res.panic
  | r :: _ => Res.ok (if hasHeaders then r.map co.trim else (List.range r.length).map Nat.repr)

/-- `ParseCSVSniffAttributeTypesFromReader`, base/csv.go:111-156: the record whose fields decide. -/
def csvFirst (records : List (List String)) (hasHeaders : Bool) : Res (List String) :=
  match if hasHeaders then records.tail else records with
  | [] => Res.panic
  | r :: _ => Res.ok r

/-- The attribute made for one column, base/csv.go:130-153 and 76-78. -/
def csvAttr (co : CsvOps) (ptr : Nat) (name entry : String) : Attr :=
  if co.isNum entry then ⟨ptr, .float name co.prec⟩ else ⟨ptr, .cat name []⟩

/-- The attributes of the columns, given names and deciding fields. -/
def csvMkAttrs (co : CsvOps) (fresh : Nat → Nat) : Nat → List String → List String → List Attr
  | _, _, [] => []
  | _, [], _ :: _ => []
  | i, n :: ns, e :: es => csvAttr co (fresh i) n e :: csvMkAttrs co fresh (i + 1) ns es

/-- `ParseCSVGetAttributesFromReader`, base/csv.go:73-80; with `hasHeaders` and no header at all
`reader.Read` fails first and panics. `names[i]` cannot be out of range in uniform input. -/
def csvAttrs (co : CsvOps) (fresh : Nat → Nat) (records : List (List String)) (hasHeaders : Bool) :
    Res (List Attr) :=
  (csvFirst records hasHeaders).bind fun first =>
    (csvNames co records hasHeaders).map fun names => csvMkAttrs co fresh 0 names first

/-- The values of the categorical attributes, by address. A categorical attribute gains values while a
file is read (base/categorical.go:99-115); the attributes stored in the grid of the model keep the body
they had when added, and this environment holds the current values. -/
abbrev ValEnv := Nat → List String

/-- The values that categorical attributes have before a file is read (the `values` of base/categorical.go:14-18), by address. -/
def envOf (as : List Attr) : ValEnv := fun p =>
  match as.find? fun a => a.ptr == p with
  | some ⟨_, .cat _ vs⟩ => vs
  | _ => []

/-- `GetSysValFromString`: base/float.go:111-117, base/categorical.go:99-115, base/binary.go:51-61. The
panics of the numeric ones are recovered by base/csv.go:162-169 and returned as errors. -/
def sysValFromString (co : CsvOps) (env : ValEnv) (a : Attr) (v : String) : Res (Bytes × ValEnv) :=
  match a.body with
  | .float _ _ =>
    match co.parse v with
    | some b => Res.ok (packU64 b, env)
    | none => Res.err
  | .cat _ _ =>
    let q := catIntern (env a.ptr) v
    Res.ok (q.1, fun p => if p = a.ptr then q.2 else env p)
  | .bin _ =>
    match co.parse v with
    | some b => Res.ok (if f64Pos b then [1#8] else [0#8], env)
    | none => Res.err

/-- The loop over the fields of one record, base/csv.go:189-196: empty fields are skipped; a field
without specification is an index panic. -/
def csvRecord (co : CsvOps) (row : Nat) : Dense → ValEnv → List Spec → List String → Res (Dense × ValEnv)
  | d, env, _, [] => Res.ok (d, env)
  | d, env, specs, v :: vs =>
    if v = "" then csvRecord co row d env specs.tail vs
    else
      match specs with
      | [] => Res.panic
      | s :: ss =>
        (sysValFromString co env s.attr (co.trim v)).bind fun q =>
          (d.set s row q.1).bind fun d' => csvRecord co row d' q.2 ss vs

/-- The loop over the records, base/csv.go:176-198, after the header. -/
def csvRecords (co : CsvOps) (specs : List Spec) : Nat → Dense → ValEnv → List (List String) →
    Res (Dense × ValEnv)
  | _, d, env, [] => Res.ok (d, env)
  | row, d, env, r :: rs =>
    (csvRecord co row d env specs r).bind fun q => csvRecords co specs (row + 1) q.1 q.2 rs

/-- `ParseCSVBuildInstancesFromReader`, base/csv.go:159-201. A failed resolution panics with an `error`
that is recovered. -/
def csvBuild (co : CsvOps) (srt : List Spec → List Spec) (d : Dense) (env : ValEnv) (attrs : List Attr)
    (hasHeader : Bool) (records : List (List String)) : Res (Dense × ValEnv) :=
  match (Grid.dense d).resolve srt attrs with
  | .ok specs => csvRecords co specs 0 d env (if hasHeader then records.tail else records)
  | _ => Res.err

/-- `ParseCSVToInstancesFromReader`, base/csv.go:205-235. Returns the grid and the values of the
categorical attributes. -/
def parseCSVToInstances (pg : Nat) (co : CsvOps) (srt : List Spec → List Spec) (fresh : Nat → Nat)
    (hasHeaders : Bool) (records : List (List String)) : Res (Dense × ValEnv) :=
  (csvRowCount records).bind fun n =>
    (csvAttrs co fresh records hasHeaders).bind fun attrs =>
      (addAll pg Dense.new attrs).bind fun d =>
        (csvBuild co srt (d.extend (if hasHeaders then n - 1 else n)) (fun _ => []) attrs hasHeaders
            records).bind fun q =>
          match attrs.getLast? with
          | none => Res.panic
          | some a =>
            match q.1.addClassAttribute a with
            | .ok d' => Res.ok (d', q.2)
            | .err => Res.ok q
            | .panic => Res.panic

/-- An attribute as the program sees it after values have been added to it, base/categorical.go:99-115. -/
def Attr.current (env : ValEnv) (a : Attr) : Attr :=
  match a.body with
  | .cat n _ => ⟨a.ptr, .cat n (env a.ptr)⟩
  | _ => a

/-- The table that base/csv.go:205-235 returns: it refers to its attributes by their addresses, so their values are those
that have been read. -/
def Dense.current (env : ValEnv) (d : Dense) : Dense :=
  { d with
    ags := d.ags.map fun g => { g with attrs := g.attrs.map (Attr.current env) }
    classAttrs := d.classAttrs.map fun p => ({ p.1 with attr := p.1.attr.current env }, p.2)
    attributes := d.attributes.map (Attr.current env) }

/-- Add the attributes, each in its group if it has one, and mark those with a class group,
base/csv.go:344-362. -/
def addGrouped (pg : Nat) (groups clsGroups : GoMap String String) : Dense → List Attr → Res Dense
  | d, [] => Res.ok d
  | d, a :: rest =>
    let added :=
      match groups.get? a.name with
      | some ag => (d.addAttributeToGroup a ag).orPanic.map Prod.fst
      | none => (d.addAttribute pg a).map Prod.fst
    added.bind fun d' =>
      if (clsGroups.get? a.name).isSome then
        (d'.addClassAttribute a).orPanic.bind fun d'' => addGrouped pg groups clsGroups d'' rest
      else addGrouped pg groups clsGroups d' rest

/-- Create the groups in the order of the map iteration, base/csv.go:335-341. -/
def createAll : Dense → List (String × Nat) → Res Dense
  | d, [] => Res.ok d
  | d, (n, s) :: rest => (d.createAttributeGroup n s).orPanic.bind fun d' => createAll d' rest

/-- The two maps of groups as one, base/csv.go:313-321: for a name in both the class group wins. -/
def combinedGroups (groups clsGroups : GoMap String String) : GoMap String String :=
  (groups ++ clsGroups).foldl (fun m p => m.set p.1 p.2) []

/-- The groups to create with their sizes, base/csv.go:312-332. -/
def groupSizes (groups clsGroups : GoMap String String) (attrs : List Attr) : GoMap String Nat :=
  attrs.foldl (fun m a =>
      match (combinedGroups groups clsGroups).get? a.name with
      | some ag => m.set ag (if a.isBin then 0 else 8)
      | none => m)
    (clsGroups.foldl (fun m p => m.set p.2 8) (groups.foldl (fun m p => m.set p.2 0) []))

/-- `ParseCSVToInstancesWithAttributeGroupsFromReader`, base/csv.go:291-373. `over` are the attribute
overrides, `groups` the combined groups of lines 312-321, `sizes` the groups with their sizes
(lines 323-332) in map order. -/
def parseCSVWithGroups (pg : Nat) (co : CsvOps) (srt : List Spec → List Spec) (fresh : Nat → Nat)
    (groups clsGroups : GoMap String String) (over : Nat → Option Attr) (sizes : List (String × Nat))
    (hasHeaders : Bool) (records : List (List String)) : Res (Dense × ValEnv) :=
  (csvRowCount records).bind fun n =>
    (csvAttrs co fresh records hasHeaders).bind fun attrs0 =>
      let attrs := attrs0.mapIdx fun i a => (over i).getD a
      (createAll Dense.new sizes).bind fun d0 =>
        (addGrouped pg groups clsGroups d0 attrs).bind fun d =>
          csvBuild co srt (d.extend n) (envOf attrs) attrs hasHeaders records

/-- `ParseMatchAttributes`, base/csv.go:239-249: the last template attribute that is equal or has the
same name wins. -/
def matchAttr (a : Attr) (template : List Attr) : Attr :=
  template.foldl (fun acc b => if a.equals b then b else if a.name = b.name then b else acc) a

end Golearn
