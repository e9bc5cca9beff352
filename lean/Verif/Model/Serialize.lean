import Verif.Model.Instances

/-!
# Serialisation (base/serialize.go, base/serialize_attributes.go, base/serialize_instances.go)

JSON documents are modelled as trees; the text produced by `encoding/json` is not (its `Marshal` and
`Unmarshal` are taken to be inverse to each other). The tar/gzip container is modelled as the list
of its entries. Disk errors are not modelled.
-/

namespace Golearn

/-- A JSON document. Whole numbers and numbers given by the bits of a `float64` are kept apart; `base64 j` is the string
`encoding/json` makes of a byte slice that holds the text of `j`. -/
inductive Json where
  | null
  | bool (b : Bool)
  | num (n : Int)
  | flt (u : U64)
  | str (s : String)
  | base64 (j : Json)
  | arr (l : List Json)
  | obj (l : List (String × Json))
  deriving Repr

/-- Field lookup in a JSON object. -/
def Json.field (k : String) : Json → Option Json
  | .obj l => (l.find? fun p => p.1 == k).map Prod.snd
  | _ => none

/-! ## Attributes -/

/-- `MarshalJSON`: base/float.go:18-26, base/categorical.go:17-25, base/binary.go:15-20. A Go slice
that is `nil` marshals to `null`, an empty one to `[]`; `nilVals` says which of the two an attribute
without values has (`new(CategoricalAttribute)` has a `nil` slice, `NewCategoricalAttribute` an empty
one). -/
def attrToJson (nilVals : Bool) : AttrBody → Json
  | .float n p => .obj [("type", .str "float"), ("name", .str n), ("attr", .obj [("precision", .num p)])]
  | .cat n vs => .obj [("type", .str "categorical"), ("name", .str n),
      ("attr", .obj [("values", if vs.isEmpty && nilVals then .null else .arr (vs.map Json.str))])]
  | .bin n => .obj [("type", .str "binary"), ("name", .str n)]

/-- The type assertions `v.(string)` of base/categorical.go:34-36. -/
def jsonStrings : List Json → Res (List String)
  | [] => Res.ok []
  | .str s :: rest => (jsonStrings rest).map (s :: ·)
  | _ :: _ => Res.panic

/-- A string field of the shim structure of base/serialize_attributes.go:57-61: absent or `null`
leaves the empty string, another type is an error. -/
def jsonStringField (j : Json) (k : String) : Res String :=
  match j.field k with
  | none => Res.ok ""
  | some .null => Res.ok ""
  | some (.str s) => Res.ok s
  | some _ => Res.err

/-- `DeserializeAttribute`, base/serialize_attributes.go:56-90, with the `UnmarshalJSON` methods it
calls (base/float.go:29-40, base/categorical.go:28-38, base/binary.go:24-26). Numbers pass through a
`float64`, which `viaFloat` stands for; a precision that is not a whole number is not modelled (an error here). -/
def deserializeAttr (viaFloat : Int → Int) (j : Json) : Res AttrBody :=
  match j with
  | .obj _ =>
    (jsonStringField j "type").bind fun ty =>
      (jsonStringField j "name").bind fun name =>
        if ty = "binary" then Res.ok (.bin name)
        else if ty = "float" then
          match j.field "attr" with
          | none => Res.err
          | some a =>
            match a.field "precision" with
            | some (.num p) => Res.ok (.float name (viaFloat p))
            | some (.flt _) => Res.err
            | some _ => Res.panic
            | none => Res.err
        else if ty = "categorical" then
          match j.field "attr" with
          | none => Res.err
          | some (.obj a) =>
            match (Json.obj a).field "values" with
            | some (.arr l) => (jsonStrings l).map fun vs => .cat name vs
            | _ => Res.panic
          | some .null => Res.panic
          | some _ => Res.err
        else Res.err
  | .null => Res.err
  | _ => Res.err

/-- `DeserializeAttributes`, base/serialize_attributes.go:93-111. -/
def deserializeAttrs (viaFloat : Int → Int) : Json → Res (List AttrBody)
  | .arr l => mapRes (deserializeAttr viaFloat) l
  | .null => Res.ok []
  | _ => Res.err

/-! ## The archive -/

/-- Contents of an archive entry: bytes, or a JSON document. -/
inductive Payload where
  | bytes (b : Bytes)
  | json (j : Json)
  deriving Repr

/-- A tar archive. -/
abbrev Archive := List (String × Payload)

/-- `GetNamedFile`, base/serialize.go:35-69, and `GetBytesForKey`, base/serialize.go:176-178. -/
def getNamedFile : Archive → String → Res Payload
  | [], _ => Res.err
  | (n, b) :: rest, name => if n = name then Res.ok b else getNamedFile rest name

/-- `WriteBytesForKey`, base/serialize.go:291-315. -/
def writeForKey (ar : Archive) (key : String) (p : Payload) : Archive := ar ++ [(key, p)]

/-- `Prefix`, base/serialize.go:102-107 and 362-367. -/
def tarPrefix (pre suffix : String) : String := if pre = "" then suffix else pre ++ "/" ++ suffix

/-- Bytes of the string `SerializationFormatVersion` = "golearn 1.0", base/serialize.go:15-17. -/
def formatVersion : Bytes :=
  [0x67#8, 0x6f#8, 0x6c#8, 0x65#8, 0x61#8, 0x72#8, 0x6e#8, 0x20#8, 0x31#8, 0x2e#8, 0x30#8]

/-- The archive a new classifier file starts with, base/serialize.go:383-426. -/
def classifierStub (metadata : Json) : Archive :=
  [("CLS_MANIFEST", .bytes formatVersion), (tarPrefix "" "METADATA", .json metadata)]

/-- `WriteU64ForKey`, base/serialize.go:318-321. -/
def writeU64ForKey (ar : Archive) (key : String) (v : U64) : Archive :=
  writeForKey ar key (.bytes (packU64 v))

/-- `GetU64ForKey`, base/serialize.go:203-209 (an entry that is not eight bytes long is not
considered). -/
def getU64ForKey (ar : Archive) (key : String) : Res U64 :=
  (getNamedFile ar key).bind fun
    | .bytes b => unpackU64 b
    | .json _ => Res.panic

/-- `WriteAttributesForKey`, base/serialize.go:345-360. -/
def writeAttributesForKey (nilVals : Bool) (ar : Archive) (key : String) (attrs : List AttrBody) : Archive :=
  go (writeU64ForKey ar (tarPrefix key "ATTR_COUNT") (BitVec.ofNat 64 attrs.length)) attrs 0
where
  go (ar : Archive) : List AttrBody → Nat → Archive
    | [], _ => ar
    | a :: rest, i =>
      go (writeForKey ar (tarPrefix key (Nat.repr i)) (.json (attrToJson nilVals a))) rest (i + 1)

/-- `GetAttributeForKey`, base/serialize.go:212-222. -/
def getAttributeForKey (viaFloat : Int → Int) (ar : Archive) (key : String) : Res AttrBody :=
  (getNamedFile ar key).bind fun
    | .bytes _ => Res.err
    | .json j => deserializeAttr viaFloat j

/-- `GetAttributesForKey`, base/serialize.go:225-243. -/
def getAttributesForKey (viaFloat : Int → Int) (ar : Archive) (key : String) : Res (List AttrBody) :=
  (getU64ForKey ar (tarPrefix key "ATTR_COUNT")).bind fun n =>
    mapRes (fun i => getAttributeForKey viaFloat ar (tarPrefix key (Nat.repr i))) (List.range n.toNat)

/-! ## Instances -/

/-- The bytes written by the second `MapOverRows` of base/serialize_instances.go:335-346. -/
def dataBytes (g : Grid) (specs : List Spec) (order : List Nat) : Res Bytes :=
  (g.mapOverRows specs order (fun (out : Bytes) v _ => Res.ok (out ++ v.flatten, Ctl.cont)) []).map
    Prod.fst

/-- `SerializeInstancesToTarWriter`, base/serialize_instances.go:250-355, with the data included.
`cls` and `nrm` are the class and other attributes in the map orders used, `order` the row order,
`srt` the final sort of `ResolveAttributes`. The filling of `allAttrs` (lines 313-317) panics when
there is no room and leaves `nil`s when there is too much, on which `ResolveAttributes` panics. -/
def serializeInstances (srt : List Spec → List Spec) (nilVals : Bool) (cls nrm : List Attr)
    (order : List Nat) (g : Grid) (pre : String) : Res Archive :=
  if g.size.1 ≠ nrm.length + cls.length then Res.panic
  else
    (g.resolve srt (nrm ++ cls)).bind fun specs =>
      (dataBytes g specs order).map fun data =>
        [(pre ++ "MANIFEST", .bytes formatVersion),
         (pre ++ "DIMS", .bytes (packU64 (BitVec.ofNat 64 g.size.1) ++ packU64 (BitVec.ofNat 64 g.size.2))),
         (pre ++ "CATTRS", .json (.arr (cls.map fun a => attrToJson nilVals a.body))),
         (pre ++ "ATTRS", .json (.arr (nrm.map fun a => attrToJson nilVals a.body))),
         (pre ++ "DATA", .bytes data)]

/-- Loop adding the non-class attributes, base/serialize_instances.go:130-133. -/
def addAll (pg : Nat) : Dense → List Attr → Res Dense
  | d, [] => Res.ok d
  | d, a :: rest => (d.addAttribute pg a).bind fun p => addAll pg p.1 rest

/-- Loop adding the class attributes, base/serialize_instances.go:134-141. -/
def addAllClass (pg : Nat) : Dense → List Attr → Res Dense
  | d, [] => Res.ok d
  | d, a :: rest =>
    (d.addAttribute pg a).bind fun p => (p.1.addClassAttribute a).bind fun d' => addAllClass pg d' rest

/-- The reading loop, base/serialize_instances.go:166-181, over the cells in order. `chunk off want`
is the number of bytes `Read` hands over for a request of `want` bytes at offset `off` (an
`io.Reader` may return fewer than asked for); it is cut to what is left. Reading the last byte also
returns `io.EOF`, which is an error everywhere but at the last cell. -/
def readCells (chunk : Nat → Nat → Nat) : Dense → List (Spec × Nat) → Nat → Bytes → Res Dense
  | d, [], _, _ => Res.ok d
  | d, (s, i) :: rest, off, bs =>
    (d.get s i).bind fun r =>
      let n := min (min (chunk off r.length) r.length) bs.length
      if n ≠ r.length then Res.err
      else
        (d.set s i (bs.take n)).bind fun d' =>
          if (bs.drop n).isEmpty && !rest.isEmpty then Res.err
          else readCells chunk d' rest (off + n) (bs.drop n)

/-- The cells in the order they are read: row by row, base/serialize_instances.go:166-168. -/
def cellsInOrder (specs : List Spec) (rows : Nat) : List (Spec × Nat) :=
  (List.range rows).flatMap fun i => specs.map fun s => (s, i)

/-- Give the bodies read from a file new pointers. -/
def withPtrs (fresh : Nat → Nat) : Nat → List AttrBody → List Attr
  | _, [] => []
  | i, b :: rest => ⟨fresh i, b⟩ :: withPtrs fresh (i + 1) rest

/-- `DeserializeInstancesFromTarReader`, base/serialize_instances.go:81-184. `pg` is the page size,
`fresh` the addresses of the new attributes. Counts are taken to be below 2^63. -/
def deserializeInstances (pg : Nat) (fresh : Nat → Nat) (viaFloat : Int → Int)
    (srt : List Spec → List Spec) (chunk : Nat → Nat → Nat) (ar : Archive) (pre : String) :
    Res Dense :=
  (getNamedFile ar (pre ++ "MANIFEST")).bind fun m =>
    match m with
    | .json _ => Res.err
    | .bytes mb =>
      if mb ≠ formatVersion then Res.err
      else
        (getNamedFile ar (pre ++ "DIMS")).bind fun dims =>
          match dims with
          | .json _ => Res.err
          | .bytes db =>
            if db.length < 16 then Res.err
            else
              (unpackU64 (db.take 8)).bind fun attrCount =>
                (unpackU64 (db.drop 8)).bind fun rowCount =>
                  (getNamedFile ar (pre ++ "CATTRS")).bind fun cj =>
                    match cj with
                    | .bytes _ => Res.err
                    | .json cj =>
                      (deserializeAttrs viaFloat cj).bind fun cbodies =>
                        (getNamedFile ar (pre ++ "ATTRS")).bind fun nj =>
                          match nj with
                          | .bytes _ => Res.err
                          | .json nj =>
                            (deserializeAttrs viaFloat nj).bind fun nbodies =>
                              let cls := withPtrs fresh 0 cbodies
                              let nrm := withPtrs fresh cbodies.length nbodies
                              (addAll pg Dense.new nrm).bind fun d1 =>
                                (addAllClass pg d1 cls).bind fun d2 =>
                                  if attrCount.toNat ≠ nrm.length + cls.length then Res.panic
                                  else
                                    let d3 := d2.extend rowCount.toNat
                                    (getNamedFile ar (pre ++ "DATA")).bind fun data =>
                                      match data with
                                      | .json _ => Res.err
                                      | .bytes data =>
                                        ((Grid.dense d3).resolve srt (nrm ++ cls)).bind fun specs =>
                                          readCells chunk d3 (cellsInOrder specs rowCount.toNat) 0 data

end Golearn
