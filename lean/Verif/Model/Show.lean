import Verif.Model.Instances
import Verif.Model.Mat

/-!
# Instances as text (base/dense.go, base/view.go, base/filtered.go, base/mat.go)

`srt` is the sort at the end of `ResolveAttributes`.
-/

namespace Golearn

/-- `String` of an attribute: base/float.go:89-91, base/categorical.go:121-123, base/binary.go:91-93. -/
def Attr.show (a : Attr) : String :=
  match a.body with
  | .float name _ => "FloatAttribute(" ++ name ++ ")"
  | .cat name vs => "CategoricalAttribute(\"" ++ name ++ "\", [" ++ " ".intercalate vs ++ "])"
  | .bin name => "BinaryAttribute(" ++ name ++ ")"

/-- The text of one cell. -/
def cellString (fo : FloatOps) (get : Spec → Nat → Res Bytes) (row : Nat) (s : Spec) : Res String :=
  (get s row).bind fun v => s.attr.getString fo v

/-- One line of data, e.g. base/dense.go:526-533. -/
def dataLine (fo : FloatOps) (get : Spec → Nat → Res Bytes) (specs : List Spec) (row : Nat) : Res String :=
  (mapRes (cellString fo get row) specs).map fun ts => "\t" ++ String.join (ts.map fun t => t ++ " ") ++ "\n"

/-- The lines of the attributes, e.g. base/dense.go:512-518. -/
def attrLines (marks : List (Spec × Bool)) : String :=
  String.join (marks.map fun p => (if p.2 then "*\t" else "\t") ++ p.1.attr.show ++ "\n")

/-- The last line, e.g. base/dense.go:535-540. -/
def rowsLeft (rows shown : Nat) : String :=
  if rows - shown ≠ 0 then "\t...\n" ++ toString (rows - shown) ++ " row(s) undisplayed" else "All rows displayed"

/-- Whether the line of an attribute has a star: base/dense.go:514, base/view.go:276, base/filtered.go:246. -/
def Grid.starred : Grid → Spec → Bool
  | .dense d, s => (d.classAttrs.get? s).getD false
  | .view _ _ _ cls _, s => flag cls s.attr
  | .filt _ _ cls _, s => flag cls s.attr

/-- The lines before the attributes: base/dense.go:504-510, base/view.go:257-272, base/filtered.go:239-241. `fname` is the `%s` of the
filter. -/
def Grid.heading (fname : Filter → String) : Grid → String
  | .dense d => "Instances with " ++ toString d.maxRow ++ " row(s) " ++ toString d.size.1 ++ " attribute(s)\nAttributes: \n"
  | .view src attrs rows cls mask =>
    "InstancesView with " ++ toString (Grid.view src attrs rows cls mask).size.2 ++ " row(s) " ++
      toString (Grid.view src attrs rows cls mask).size.1 ++ " attribute(s)\n" ++
      (if attrs.isSome then "With defined Attribute view\n" else "") ++ (if rows.isSome then "With defined Row view\n" else "") ++
      (if mask then "Row masking on.\n" else "") ++ "Attributes:\n"
  | .filt f _ _ _ => "Lazily filtered instances using " ++ fname f ++ "\nAttributes: \n"

/-- The line between attributes and data: base/dense.go:520, base/view.go:286 and base/filtered.go:252. -/
def Grid.dataHeading : Grid → String
  | .view .. => "Data:"
  | _ => "\nData:\n"

/-- The number of rows shown at most: base/dense.go:521, base/view.go:252, base/filtered.go:230. -/
def Grid.shownAtMost : Grid → Nat
  | .filt .. => 5
  | _ => 30

/-- The end of the text: base/dense.go:535-542, base/view.go:296-303, base/filtered.go:262. -/
def Grid.ending (rows shown : Nat) : Grid → String
  | .filt .. => ""
  | _ => rowsLeft rows shown

/-- `String`: base/dense.go:498-543, base/view.go:250-304, base/filtered.go:225-263. -/
def Grid.toText (fo : FloatOps) (fname : Filter → String) (srt : List Spec → List Spec) (g : Grid) : Res String :=
  (g.resolve srt g.allAttributes).bind fun specs =>
    (mapRes (dataLine fo g.get specs) (List.range (min g.shownAtMost g.size.2))).map fun lines =>
      g.heading fname ++ attrLines (specs.map fun s => (s, g.starred s)) ++ g.dataHeading ++ String.join lines ++
        g.ending g.size.2 (min g.shownAtMost g.size.2)

/-- `appendToRowBuf`: base/fixed.go:86-94, base/bag.go:90-99. -/
def Group.rowString (fo : FloatOps) (p : Group) (row : Nat) : Res String :=
  (mapRes (fun q : Attr × Nat => (p.get q.2 row).bind fun v => q.1.getString fo v) p.attrs.zipIdx).map fun ts => " ".intercalate ts

/-- `RowString`: base/dense.go:442-454, base/view.go:306-320, base/filtered.go:198-215. -/
def Grid.rowString (fo : FloatOps) (srt : List Spec → List Spec) (g : Grid) (row : Nat) : Res String :=
  match g with
  | .dense d => (mapRes (fun p : Group => p.rowString fo row) d.ags).map fun ts => " ".intercalate ts
  | g => (g.resolve srt g.allAttributes).bind fun specs => (mapRes (cellString fo g.get row) specs).map fun ts => " ".intercalate ts

namespace MatInst

/-- `ResolveAllAttributes`, base/util_attributes.go:62-64. -/
def resolveAll (srt : List Spec → List Spec) (m : MatInst) : Res (List Spec) :=
  (mapRes (fun a => (m.getAttribute a).orPanic) m.attributes).map srt

/-- `String`, base/mat.go:121-167. The stars are given by the position in the resolved list. -/
def toText (fo : FloatOps) (srt : List Spec → List Spec) (m : MatInst) : Res String :=
  (m.resolveAll srt).bind fun specs =>
    (mapRes (dataLine fo m.get specs) (List.range (min 30 m.rows))).map fun lines =>
      "Instances with " ++ toString m.rows ++ " row(s) " ++ toString m.attributes.length ++ " attribute(s)\nAttributes: \n" ++
        attrLines (specs.zipIdx.map fun p => (p.1, (m.classAttrs.get? p.2).getD false)) ++ "\nData:\n" ++ String.join lines ++
        rowsLeft m.rows (min 30 m.rows)

/-- `RowString`, base/mat.go:111-113. -/
def rowString (_m : MatInst) (row : Nat) : String := toString row

end MatInst

end Golearn
