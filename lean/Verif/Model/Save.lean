import Verif.Model.Serialize
import Verif.Model.TreeProba

/-!
# Saving and loading decision trees (trees/id3.go, trees/random.go, base/serialize.go)

A file that is being written is the list of its entries and whether it has been closed. Strings are valid UTF-8. Reading
a file that was not closed is possible: every entry is flushed when it is written, and looking for an entry stops at the
entry. Disk errors are not modelled.
-/

namespace Golearn

/-! ## Files -/

/-- `ClassifierSerializer`, base/serialize.go:251-257. -/
structure Writer where
  entries : Archive
  closed : Bool
  deriving Repr

/-- `WriteBytesForKey`, base/serialize.go:291-315; `tar.Writer.WriteHeader` is an error after `Close`. -/
def Writer.write (w : Writer) (key : String) (p : Payload) : Res Writer :=
  if w.closed then Res.err else Res.ok { w with entries := writeForKey w.entries key p }

/-- `Close`, base/serialize.go:260-288; `tar.Writer.Flush` is an error after `Close`. -/
def Writer.close (w : Writer) : Res Writer :=
  if w.closed then Res.err else Res.ok { w with closed := true }

/-- `ClassifierMetadataV1` as JSON, base/serialize.go:80-92; the tag of `ClassifierVersion` is malformed, so the name of the
field is used. `params` is the custom field, `null` for a nil map. -/
def metadataJson (name version : String) (params : Json) : Json :=
  .obj [("format_version", .num 1), ("classifier", .str name), ("ClassifierVersion", .str version),
    ("classifier_metadata", params)]

/-- `CreateSerializedClassifierStub`, base/serialize.go:383-426. -/
def newWriter (metadata : Json) : Writer := ⟨classifierStub metadata, false⟩

/-- `ReadMetadataAtPrefix`, base/serialize.go:110-114, with `GetJSONForKey`, base/serialize.go:189-195. -/
def readMetadataAt (ar : Archive) (pre : String) : Res Json :=
  (getNamedFile ar (tarPrefix pre "METADATA")).bind fun
    | .json j => Res.ok j
    | .bytes _ => Res.err

/-- `ReadSerializedClassifierStub`, base/serialize.go:119-173: the file, if it can be understood. -/
def readStub (ar : Archive) : Res Archive :=
  (getNamedFile ar "CLS_MANIFEST").bind fun
    | .json _ => Res.err
    | .bytes b =>
      if b ≠ formatVersion then Res.err
      else (readMetadataAt ar "").bind fun m =>
        match m.field "format_version" with
        | some (.num 1) => Res.ok ar
        | _ => Res.err

/-! ## Trees -/

/-- What is saved of a node without children besides its class and distribution: `Type` (pruning leaves it at `RuleNode`), and
`SplitRule` — nil, a rule with a nil attribute, or (after pruning) a rule. -/
structure LeafInfo where
  type : Int
  rule : Option (Option Rule)

/-- What saving depends on: whether an empty categorical attribute has a nil slice of values, the passage of whole numbers
through `float64`, and which floats are finite. -/
structure SaveEnv where
  nilVals : Bool
  viaFloat : Int → Int
  fin : U64 → Bool

/-- An attribute whose JSON has been read as a map and written again, trees/id3.go:42-51. -/
def attrViaMap (viaFloat : Int → Int) : AttrBody → AttrBody
  | .float n p => .float n (viaFloat p)
  | b => b

/-- `DecisionTreeRule.MarshalJSON`, trees/id3.go:35-54; `none` is a nil pointer. A float that is not finite is an error of
`encoding/json`. -/
def ruleToJson (S : SaveEnv) : Option (Option Rule) → Res Json
  | none => Res.ok .null
  | some none => Res.ok (.obj [("split_attribute", .str "unknown"), ("split_val", .num 0)])
  | some (some r) =>
    if S.fin r.val then
      Res.ok (.obj [("split_attribute", attrToJson S.nilVals (attrViaMap S.viaFloat r.attr.body)), ("split_val", .flt r.val)])
    else Res.err

/-- `ClassDist` as JSON. -/
def distToJson (d : GoMap String Nat) : Json := .obj (d.map fun p => (p.1, .num p.2))

/-- A `DecisionTreeNode` as JSON, trees/id3.go:105-112. The order of the fields of a JSON object has no meaning; it is that
of the list of keys here. `info` tells, for the path to a node without children, what else is in it. -/
def treeToJson (S : SaveEnv) (info : List String → LeafInfo) : Tree → List String → Res Json
  | .leaf d c, path =>
    (ruleToJson S (info path).rule).map fun r =>
      .obj [("node_type", .num (info path).type), ("children", .null), ("class_dist", distToJson d), ("class_string", .str c),
        ("decision_tree_rule", r)]
  | .split d c r keys child, path =>
    (mapRes (fun k => (treeToJson S info (child k) (path ++ [k])).map fun j => (k, j)) keys).bind fun ch =>
      (ruleToJson S (some (some r))).map fun r =>
        .obj [("node_type", .num 2), ("children", .obj ch), ("class_dist", distToJson d), ("class_string", .str c),
          ("decision_tree_rule", r)]

/-- `DecisionTreeNode.SaveWithPrefix`, trees/id3.go:137-153; also of `ID3DecisionTree` (trees/id3.go:577-579) and `RandomTree`
(trees/random.go:105-107). `cls` is the class attribute of the root. -/
def saveTree (S : SaveEnv) (info : List String → LeafInfo) (t : Tree) (cls : AttrBody) (w : Writer) (pre : String) : Res Writer :=
  (treeToJson S info t []).bind fun j =>
    (w.write (tarPrefix pre "tree") (.json j)).bind fun w =>
      w.write (tarPrefix pre "treeClassAttr") (.json (attrToJson S.nilVals cls))

/-- `ID3DecisionTree.Save`, trees/id3.go:558-575: the entries of the file. The file is not closed. -/
def saveID3 (S : SaveEnv) (info : List String → LeafInfo) (t : Tree) (cls : AttrBody) : Res Archive :=
  (saveTree S info t cls (newWriter (metadataJson "ID3" "1.0" .null)) "").map Writer.entries

/-- `RandomTree.Save`, trees/random.go:93-102: the entries of the file. The error of `Close` is ignored. -/
def saveRandomTree (S : SaveEnv) (info : List String → LeafInfo) (t : Tree) (cls : AttrBody) : Res Archive :=
  (saveTree S info t cls (newWriter (metadataJson "KNN" "1.0" .null)) "").map Writer.entries

mutual
/-- The depth of a JSON document. -/
def Json.depth : Json → Nat
  | .arr l => Json.depthList l + 1
  | .obj l => Json.depthFields l + 1
  | .base64 j => Json.depth j + 1
  | _ => 0
/-- The greatest depth in a list. -/
def Json.depthList : List Json → Nat
  | [] => 0
  | j :: js => max (Json.depth j) (Json.depthList js)
/-- The greatest depth among the fields. -/
def Json.depthFields : List (String × Json) → Nat
  | [] => 0
  | (_, j) :: fs => max (Json.depth j) (Json.depthFields fs)
end

/-- What loading depends on: the passage of whole numbers through `float64`, whole numbers as floats, and the addresses of
the new attributes. -/
structure LoadEnv where
  viaFloat : Int → Int
  ofInt : Int → U64
  fresh : List String → Nat

/-- `d.SplitVal = splitVal.(float64)`, trees/id3.go:63-65. -/
def splitValOf (L : LoadEnv) : Option Json → Res U64
  | none => Res.ok 0#64
  | some (.flt u) => Res.ok u
  | some (.num n) => Res.ok (L.ofInt n)
  | some _ => Res.panic

/-- `DecisionTreeRule.UnmarshalJSON`, trees/id3.go:56-89; `none` if there is no rule or its attribute is nil. -/
def ruleOfJson (L : LoadEnv) (ptr : Nat) : Option Json → Res (Option Rule)
  | none => Res.ok none
  | some .null => Res.ok none
  | some (.obj l) =>
    (splitValOf L ((Json.obj l).field "split_val")).bind fun v =>
      match (Json.obj l).field "split_attribute" with
      | none => Res.err
      | some (.str s) => if s = "unknown" then Res.ok none else Res.err
      | some a => (deserializeAttr L.viaFloat a).map fun b => some ⟨⟨ptr, b⟩, v⟩
  | some _ => Res.err

/-- A count in a JSON document. Negative counts are not modelled. -/
def countOfJson (p : String × Json) : Res (String × Nat) :=
  match p.2 with
  | .num n => if 0 ≤ n then Res.ok (p.1, n.toNat) else Res.err
  | _ => Res.err

/-- Reading `ClassDist`. -/
def distOfJson : Option Json → Res (GoMap String Nat)
  | none => Res.ok []
  | some .null => Res.ok []
  | some (.obj l) => mapRes countOfJson l
  | some _ => Res.err

/-- A node with children has a rule: without one, its first prediction would panic (not modelled: an error here). -/
def nodeOf (d : GoMap String Nat) (c : String) (r : Option Rule) (ch : List (String × Tree)) : Res Tree :=
  match r with
  | some r => Res.ok (.split d c r (ch.map Prod.fst) fun k => (GoMap.get? ch k).getD (.leaf [] ""))
  | none => Res.err

/-- `json.Unmarshal` into a new `DecisionTreeNode`, trees/id3.go:174. The type of a node is not kept, and a null node is not
modelled. The first argument bounds the depth. -/
def treeOfJson (L : LoadEnv) : Nat → List String → Json → Res Tree
  | 0, _, _ => Res.panic
  | fuel + 1, path, .obj l =>
    (jsonStringField (.obj l) "class_string").bind fun c =>
      (distOfJson ((Json.obj l).field "class_dist")).bind fun d =>
        (ruleOfJson L (L.fresh path) ((Json.obj l).field "decision_tree_rule")).bind fun r =>
          match (Json.obj l).field "children" with
          | none => Res.ok (.leaf d c)
          | some .null => Res.ok (.leaf d c)
          | some (.obj ch) =>
            (mapRes (fun p => (treeOfJson L fuel (path ++ [p.1]) p.2).map fun t => (p.1, t)) ch).bind fun ts => nodeOf d c r ts
          | some _ => Res.err
  | _ + 1, _, _ => Res.err

/-- `LoadWithPrefix` of `DecisionTreeNode` (trees/id3.go:167-187) into a new node, of `ID3DecisionTree` (trees/id3.go:589-592)
and `RandomTree` (trees/random.go:119-122): the tree and the class attribute. -/
def loadTree (L : LoadEnv) (ar : Archive) (pre : String) : Res (Tree × AttrBody) :=
  (getNamedFile ar (tarPrefix pre "tree")).bind fun
    | .bytes _ => Res.err
    | .json j =>
      (treeOfJson L (j.depth + 1) [] j).bind fun t =>
        (getAttributeForKey L.viaFloat ar (tarPrefix pre "treeClassAttr")).map fun a => (t, a)

/-- `ID3DecisionTree.Load`, trees/id3.go:581-587, and `RandomTree.Load`, trees/random.go:110-116. -/
def loadTreeFile (L : LoadEnv) (ar : Archive) : Res (Tree × AttrBody) := (readStub ar).bind fun ar => loadTree L ar ""

end Golearn
