import Verif.Model.SaveBag
import Verif.Model.NaiveBayes

/-! # Saving and loading Bernoulli naive Bayes classifiers (naive/bernoulli_nb.go:64-170) -/

namespace Golearn

/-- `WriteAttributesForKey`, base/serialize.go:345-360, on a file that may be closed. -/
def Writer.attributes (w : Writer) (nilVals : Bool) (key : String) (attrs : List AttrBody) : Res Writer :=
  if w.closed then Res.err else Res.ok { w with entries := writeAttributesForKey nilVals w.entries key attrs }

/-- `ReplaceDeserializedAttributesWithVersionsFromInstances`, base/serialize_attributes.go:126-136. -/
def replaceAttrs (bs : List AttrBody) (with_ : List Attr) : Res (List Attr) := mapRes (fun b => replaceAttr b with_) bs

section
variable {K : Type}

/-- The conditional probabilities as JSON: `num p` are the bits of `p`. Numbers that are not finite cannot be written. -/
def condToJson (num : K → U64) (fin : U64 → Bool) (m : GoMap String (List K)) : Res Json :=
  if m.all fun p => p.2.all fun x => fin (num x) then
    Res.ok (.obj (m.map fun p => (p.1, .arr (p.2.map fun x => .flt (num x)))))
  else Res.err

/-- Reading a `float64`. -/
def floatOfJson (val : U64 → K) : Json → Res K
  | .flt u => Res.ok (val u)
  | _ => Res.err

/-- Reading one entry of the conditional probabilities; `null` is a nil slice. -/
def condEntryOfJson (val : U64 → K) (p : String × Json) : Res (String × List K) :=
  match p.2 with
  | .arr l => (mapRes (floatOfJson val) l).map fun xs => (p.1, xs)
  | .null => Res.ok (p.1, [])
  | _ => Res.err

/-- Reading the conditional probabilities. -/
def condOfJson (val : U64 → K) : Json → Res (GoMap String (List K))
  | .obj l => mapRes (condEntryOfJson val) l
  | .null => Res.ok []
  | _ => Res.err

/-- `BernoulliNBClassifier.SaveWithPrefix`, naive/bernoulli_nb.go:132-170; `fitOn` is the structural copy of the training data. -/
def saveNB (G : GridEnv) (nilVals : Bool) (num : K → U64) (fin : U64 → Bool) (nb : NB K) (fitOn : Dense) (w : Writer) (pre : String) :
    Res Writer :=
  (w.structure G nilVals (tarPrefix pre "INSTANCE_STRUCTURE") fitOn).bind fun w =>
    (w.attributes nilVals (tarPrefix pre "TRAINING_ATTRIBUTES") (nb.attrs.map Attr.body)).bind fun w =>
      (w.write (tarPrefix pre "NUM_FEATURES") (.bytes (packU64 (BitVec.ofNat 64 nb.features)))).bind fun w =>
        (w.write (tarPrefix pre "NUM_TRAINING_INSTANCES") (.bytes (packU64 (BitVec.ofNat 64 nb.rows)))).bind fun w =>
          (w.write (tarPrefix pre "CLASS_INSTANCES") (.json (distToJson nb.inst))).bind fun w =>
            (condToJson num fin nb.condProb).bind fun j => w.write (tarPrefix pre "COND_MAP") (.json j)

/-- `GetJSONForKey`, base/serialize.go:189-195. -/
def getJsonForKey (ar : Archive) (key : String) : Res Json :=
  (getNamedFile ar key).bind fun
    | .json j => Res.ok j
    | .bytes _ => Res.err

/-- `BernoulliNBClassifier.LoadWithPrefix`, naive/bernoulli_nb.go:92-130. Counts are taken to be below 2^63. -/
def loadNB (G : GridEnv) (viaFloat : Int → Int) (val : U64 → K) (ar : Archive) (pre : String) : Res (NB K × Dense) :=
  (getInstancesForKey G viaFloat ar (tarPrefix pre "INSTANCE_STRUCTURE")).bind fun fitOn =>
    (getAttributesForKey viaFloat ar (tarPrefix pre "TRAINING_ATTRIBUTES")).bind fun raw =>
      (replaceAttrs raw fitOn.allAttributes).bind fun attrs =>
        (getU64ForKey ar (tarPrefix pre "NUM_FEATURES")).bind fun features =>
          (getU64ForKey ar (tarPrefix pre "NUM_TRAINING_INSTANCES")).bind fun rows =>
            (getJsonForKey ar (tarPrefix pre "CLASS_INSTANCES")).bind fun ji =>
              (distOfJson (some ji)).bind fun inst =>
                (getJsonForKey ar (tarPrefix pre "COND_MAP")).bind fun jc =>
                  (condOfJson val jc).map fun cond => (⟨cond, inst, rows.toNat, features.toNat, attrs⟩, fitOn)

/-- `BernoulliNBClassifier.Save`, naive/bernoulli_nb.go:64-81: the entries of the file. -/
def saveNBFile (G : GridEnv) (nilVals : Bool) (num : K → U64) (fin : U64 → Bool) (nb : NB K) (fitOn : Dense) : Res Archive :=
  (saveNB G nilVals num fin nb fitOn (newWriter (metadataJson "KNN" "1.0" .null)) "").map Writer.entries

/-- `BernoulliNBClassifier.Load`, naive/bernoulli_nb.go:83-90. -/
def loadNBFile (G : GridEnv) (viaFloat : Int → Int) (val : U64 → K) (ar : Archive) : Res (NB K × Dense) :=
  (readStub ar).bind fun ar => loadNB G viaFloat val ar ""
end

end Golearn
