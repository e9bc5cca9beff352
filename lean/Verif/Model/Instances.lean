import Verif.Model.Sort

/-!
# Utility functions on instances and attribute lists (base/util_instances.go,
base/util_attributes.go)

Floats are bit patterns. Two operations on them are parameters of the model: `fmt p u` is
`fmt.Sprintf("%.pf", f)` for the float with pattern `u`, and `gt u v` is `>` on floats.
-/

namespace Golearn

/-- The float operations the model does not compute. -/
structure FloatOps where
  /-- `fmt.Sprintf("%.<p>f", x)` (base/float.go:128-129). -/
  fmt : Int → U64 → String
  /-- `x > y`. -/
  gt : U64 → U64 → Bool

/-- `GetStringFromSysVal`: base/float.go:126-130, base/categorical.go:131-137, base/binary.go:64-69. -/
def Attr.getString (fo : FloatOps) (a : Attr) (raw : Bytes) : Res String :=
  match a.body with
  | .float _ p => (unpackFloatBits raw).map (fo.fmt p)
  | .cat _ vs => catGetString vs raw
  | .bin _ => binGetString raw

/-- Turn a returned error into a panic (`if err != nil { panic(err) }`). -/
def Res.orPanic {α : Type} : Res α → Res α
  | .ok a => .ok a
  | _ => .panic

/-- `GetClass`, base/util_instances.go:61-84. -/
def getClass (fo : FloatOps) (g : Grid) (row : Nat) : Res String :=
  match g.allClassAttributes with
  | [a] => (g.getAttribute a).orPanic.bind fun s => (g.get s row).bind fun v => a.getString fo v
  | _ => Res.panic

/-! ## Class distributions -/

/-- `m[k]++` on a `map[string]int`. -/
def incr (m : GoMap String Nat) (k : String) : GoMap String Nat :=
  m.set k ((m.get? k).getD 0 + 1)

/-- `GetClassDistribution`, base/util_instances.go:188-196, over the given rows. -/
def classDistLoop (fo : FloatOps) (g : Grid) : List Nat → GoMap String Nat → Res (GoMap String Nat)
  | [], m => Res.ok m
  | i :: is, m => (getClass fo g i).bind fun c => classDistLoop fo g is (incr m c)

/-- `GetClassDistribution`, base/util_instances.go:188-196. -/
def getClassDistribution (fo : FloatOps) (g : Grid) : Res (GoMap String Nat) :=
  classDistLoop fo g (List.range g.size.2) []

/-- One row of the loops at base/util_instances.go:217-229 and 246-256: if the outer key is missing
it is created and the row is processed again (`i--; continue`), otherwise the inner count is
incremented. -/
def splitRow (ret : GoMap String (GoMap String Nat)) (sv cv : String) :
    GoMap String (GoMap String Nat) :=
  match ret.get? sv with
  | some m => ret.set sv (incr m cv)
  | none => (ret.set sv []).set sv (incr [] cv)

/-- The loops at base/util_instances.go:216-229 and 245-256. `key` computes `splitVar` from the value
of the split attribute. -/
def splitLoop (fo : FloatOps) (g : Grid) (s : Spec) (key : Bytes → Res String) :
    List Nat → GoMap String (GoMap String Nat) → Res (GoMap String (GoMap String Nat))
  | [], ret => Res.ok ret
  | i :: is, ret =>
    (g.get s i).bind fun v => (key v).bind fun sv => (getClass fo g i).bind fun cv =>
      splitLoop fo g s key is (splitRow ret sv cv)

/-- The threshold key: `"1"` if the value is above the threshold, else `"0"`;
base/util_instances.go:217-221 and 299-305. -/
def thresholdKey (fo : FloatOps) (val : U64) (raw : Bytes) : Res String :=
  (unpackFloatBits raw).map fun u => if fo.gt u val then "1" else "0"

/-- `GetClassDistributionAfterThreshold`, base/util_instances.go:200-232. -/
def distAfterThreshold (fo : FloatOps) (g : Grid) (a : Attr) (val : U64) :
    Res (GoMap String (GoMap String Nat)) :=
  (g.getAttribute a).orPanic.bind fun s =>
    if a.isFloat then splitLoop fo g s (thresholdKey fo val) (List.range g.size.2) [] else Res.panic

/-- `GetClassDistributionAfterSplit`, base/util_instances.go:236-259. -/
def distAfterSplit (fo : FloatOps) (g : Grid) (a : Attr) : Res (GoMap String (GoMap String Nat)) :=
  (g.getAttribute a).orPanic.bind fun s =>
    splitLoop fo g s (a.getString fo) (List.range g.size.2) []

/-- Row callback of `GetClassDistributionByCategoricalValue`, base/util_instances.go:177-181. The
callback answers `false`, so iteration stops. -/
def catDistCallback (ret : List Nat) (vals : List Bytes) (_row : Nat) : Res (List Nat × Ctl) :=
  match vals with
  | [] => Res.panic
  | v :: _ => (unpackU64 v).bind fun u =>
    match ret[u.toNat]? with
    | some c => Res.ok (ret.set u.toNat (c + 1), Ctl.stop)
    | none => Res.panic

/-- `GetClassDistributionByCategoricalValue`, base/util_instances.go:158-184. -/
def catDist (srt : List Spec → List Spec) (g : Grid) (order : List Nat) : Res (List Nat) :=
  match g.allClassAttributes with
  | [a] =>
    match a.body with
    | .cat _ vs =>
      (g.resolve srt [a]).bind fun specs =>
        match g.mapOverRows specs order catDistCallback (List.replicate vs.length 0) with
        | .ok p => Res.ok p.1
        | .err => Res.ok (List.replicate vs.length 0)
        | .panic => Res.panic
    | _ => Res.panic
  | _ => Res.panic

/-- Row callback of `GetClassDistributionByBinaryFloatValue`, base/util_instances.go:141-150. -/
def binFloatDistCallback (fo : FloatOps) (half : U64) (ret : Nat × Nat) (vals : List Bytes)
    (_row : Nat) : Res ((Nat × Nat) × Ctl) :=
  match vals with
  | [] => Res.panic
  | v :: _ => (unpackFloatBits v).map fun u =>
    (if fo.gt u half then (ret.1, ret.2 + 1) else (ret.1 + 1, ret.2), Ctl.stop)

/-- `GetClassDistributionByBinaryFloatValue`, base/util_instances.go:125-153. `half` is 0.5. -/
def binFloatDist (fo : FloatOps) (half : U64) (srt : List Spec → List Spec) (g : Grid)
    (order : List Nat) : Res (Nat × Nat) :=
  match g.allClassAttributes with
  | [a] =>
    if a.isFloat then
      (g.resolve srt [a]).bind fun specs =>
        match g.mapOverRows specs order (binFloatDistCallback fo half) (0, 0) with
        | .ok p => Res.ok p.1
        | .err => Res.ok (0, 0)
        | .panic => Res.panic
    else Res.panic
  | _ => Res.panic

/-! ## Decomposition -/

/-- `newAttrs`, base/util_instances.go:280-286 and 331-337. -/
def withoutAttr (g : Grid) (a : Attr) : List Attr := g.allAttributes.filter fun b => !b.equals a

/-- Row callbacks at base/util_instances.go:297-309 and 347-359: append the row number to the list
of its key. -/
def decomposeCallback (key : Bytes → Res String) (m : GoMap String (List Nat)) (row : List Bytes)
    (rowNo : Nat) : Res (GoMap String (List Nat) × Ctl) :=
  match row.getLast? with
  | none => Res.panic
  | some v => (key v).map fun k => (m.set k ((m.get? k).getD [] ++ [rowNo]), Ctl.cont)

/-- Common part of base/util_instances.go:288-317 and 339-367. `order` is the row order of
`MapOverRows`, whose error is ignored. -/
def decomposeWith (srt : List Spec → List Spec) (g : Grid) (a : Attr) (s : Spec)
    (key : Bytes → Res String) (order : List Nat) : Res (GoMap String Grid) :=
  (g.resolve srt (withoutAttr g a)).bind fun specs =>
    let mapped : Res (GoMap String (List Nat)) :=
      match g.mapOverRows (specs ++ [s]) order (decomposeCallback key) [] with
      | .ok p => Res.ok p.1
      | .err => Res.ok []
      | .panic => Res.panic
    mapped.bind fun m => Res.ok (m.map fun p => (p.1, Grid.viewFromVisible g p.2 specs))

/-- `DecomposeOnAttributeValues`, base/util_instances.go:325-368. -/
def decomposeValues (fo : FloatOps) (srt : List Spec → List Spec) (g : Grid) (a : Attr)
    (order : List Nat) : Res (GoMap String Grid) :=
  (g.getAttribute a).orPanic.bind fun s => decomposeWith srt g a s (s.attr.getString fo) order

/-- `DecomposeOnNumericAttributeThreshold`, base/util_instances.go:269-318. -/
def decomposeThreshold (fo : FloatOps) (srt : List Spec → List Spec) (g : Grid) (a : Attr)
    (val : U64) (order : List Nat) : Res (GoMap String Grid) :=
  if a.isFloat then
    (g.getAttribute a).orPanic.bind fun s => decomposeWith srt g a s (thresholdKey fo val) order
  else Res.panic

/-! ## Train/test split -/

/-- `InstancesTrainTestSplit`, base/util_instances.go:376-396. `draw` are the draws of `Shuffle`,
`coin i` is `rand.Intn(101)` for row `i`, `pct` is `int(100*prop)`. Returns the two views and the
(shuffled) source they look at. -/
def trainTestSplit (srt : List Spec → List Spec) (draw coin : Nat → Nat) (pct : Int) (g : Grid) :
    Res (Grid × Grid × Grid) :=
  (shuffle srt draw g).bind fun src =>
    let rows := List.range src.size.2
    let training := rows.filter fun i => decide ((coin i : Int) > pct)
    let testing := rows.filter fun i => !decide ((coin i : Int) > pct)
    (src.resolve srt src.allAttributes).map fun specs =>
      (Grid.viewFromVisible src training specs, Grid.viewFromVisible src testing specs, src)

/-! ## Comparisons -/

/-- Inner loop of `AttributeIntersect` and `AttributeDifference`, base/util_attributes.go:83-88 and
124-129. -/
def attrMatched (a : Attr) : List Attr → Bool
  | [] => false
  | b :: bs => if a.equals b then true else attrMatched a bs

/-- `AttributeIntersect`, base/util_attributes.go:79-94. -/
def attrIntersect : List Attr → List Attr → List Attr
  | [], _ => []
  | a :: as, l => if attrMatched a l then a :: attrIntersect as l else attrIntersect as l

/-- `AttributeDifference`, base/util_attributes.go:120-135. -/
def attrDifference : List Attr → List Attr → List Attr
  | [], _ => []
  | a :: as, l => if attrMatched a l then attrDifference as l else a :: attrDifference as l

/-- `buildAttrSet`, base/util_attributes.go:66-72, as a map to `true`. -/
def buildAttrSet (l : List Attr) : GoMap Attr Bool := l.foldl (fun m a => m.set a true) []

/-- `AttributeIntersectReferences`, base/util_attributes.go:102-112, in one particular map order
(Go's is any permutation). -/
def attrIntersectRefs (a1 a2 : List Attr) : List Attr :=
  ((buildAttrSet a1).map Prod.fst).filter fun a => ((buildAttrSet a2).get? a).isSome

/-- `AttributeDifferenceReferences`, base/util_attributes.go:144-154, likewise. -/
def attrDifferenceRefs (a1 a2 : List Attr) : List Attr :=
  ((buildAttrSet a1).map Prod.fst).filter fun a => !((buildAttrSet a2).get? a).isSome

/-- `CheckCompatible`, base/util_instances.go:443-453; `none` is the `nil` slice. -/
def checkCompatible (g1 g2 : Grid) : Option (List Attr) :=
  let inter := attrIntersect g1.allAttributes g2.allAttributes
  if inter.length != g1.allAttributes.length then none
  else if inter.length != g2.allAttributes.length then none
  else some inter

/-- Loop at base/util_instances.go:493-499: `a2[i]` panics when `a2` is shorter. -/
def strictLoop : List Attr → List Attr → Res Bool
  | [], _ => Res.ok true
  | _ :: _, [] => Res.panic
  | a :: as, b :: bs => if a.equals b then strictLoop as bs else Res.ok false

/-- The group stored under a name in `AllAttributeGroups`, base/dense.go:157-163. -/
def Dense.groupNamed (d : Dense) (name : String) : Option Group :=
  (d.agMap.get? name).bind fun i => d.ags[i]?

/-- Loop at base/util_instances.go:488-500 over the group names, in the order Go's map iteration
produced. -/
def strictGroups (d1 d2 : Dense) : List String → Res Bool
  | [] => Res.ok true
  | n :: ns =>
    match d1.groupNamed n, d2.groupNamed n with
    | some g1, some g2 =>
      (strictLoop g1.attrs g2.attrs).bind fun b => if b then strictGroups d1 d2 ns else Res.ok false
    | _, _ => Res.panic

/-- `CheckStrictlyCompatible`, base/util_instances.go:458-503; `names` is the map order of `d1`'s
groups. -/
def checkStrictlyCompatible (g1 g2 : Grid) (names : List String) : Res Bool :=
  match g1, g2 with
  | .dense d1, .dense d2 =>
    if (d1.agMap.map Prod.fst).all fun n => (d2.agMap.get? n).isSome then
      if (d2.agMap.map Prod.fst).all fun n => (d1.agMap.get? n).isSome then strictGroups d1 d2 names
      else Res.ok false
    else Res.ok false
  | _, _ => Res.ok false

/-- Row loop of `InstancesAreEqual`, base/util_instances.go:524-530. Both reads are from `inst`. -/
def equalRows (g : Grid) (s1 s2 : Spec) : List Nat → Res Bool
  | [] => Res.ok true
  | i :: is => (g.get s1 i).bind fun b1 => (g.get s2 i).bind fun b2 =>
    if byteSeqEqual b1 b2 then equalRows g s1 s2 is else Res.ok false

/-- Attribute loop of `InstancesAreEqual`, base/util_instances.go:510-531: both specifications are
looked up in `inst`. -/
def equalAttrs (g : Grid) : List Attr → Res Bool
  | [] => Res.ok true
  | a :: as =>
    (g.getAttribute a).orPanic.bind fun s1 =>
      match g.getAttribute a with
      | .ok s2 =>
        if s1.attr.equals s2.attr then
          (equalRows g s1 s2 (List.range g.size.2)).bind fun b =>
            if b then equalAttrs g as else Res.ok false
        else Res.ok false
      | .err => Res.ok false
      | .panic => Res.panic

/-- `InstancesAreEqual`, base/util_instances.go:507-534. The second argument is never used. -/
def instancesAreEqual (inst _other : Grid) : Res Bool := equalAttrs inst inst.allAttributes

end Golearn
