import Verif.Model.SaveNB
import Verif.Model.Liblinear
import Verif.Model.OneVsAll
import Verif.Model.Copy

/-! # Saving and loading linear support vector machines and one-vs-all models (linear_models, meta/one_v_all.go, ensemble/multisvc.go) -/

namespace Golearn

/-! ## The text files of liblinear -/

/-- A word, a whole number or a decimal number in the text of a model file. `num x` is the text `%.16g` gives for `x`. -/
inductive LTok (K : Type) where
  | word (s : String)
  | int (i : Int)
  | num (x : K)

/-- `solver_type_table`, linear_models/linear.cpp:2579-2585. -/
def solverNames : List String :=
  ["L2R_LR", "L2R_L2LOSS_SVC_DUAL", "L2R_L2LOSS_SVC", "L2R_L1LOSS_SVC_DUAL", "MCSVM_CS", "L1R_L2LOSS_SVC", "L1R_LR", "L2R_LR_DUAL",
   "", "", "", "L2R_L2LOSS_SVR", "L2R_L2LOSS_SVR_DUAL", "L2R_L1LOSS_SVR_DUAL"]

section
variable {K : Type} [Field K] [LinearOrder K]

/-- The number of weights, linear_models/linear.cpp:2594-2609 and 2725-2734, for solvers other than `MCSVM_CS`. -/
def weightCount (nrFeature nrClass : Nat) (bias : K) : Nat :=
  (if 0 ≤ bias then nrFeature + 1 else nrFeature) * (if nrClass = 2 then 1 else nrClass)

/-- `save_model`, linear_models/linear.cpp:2587-2640: the words of the file. The spaces and line breaks between them are left out,
since reading skips them; an empty word, for which there would be nothing between the spaces, is left out, too. Labels are never
missing for classifiers; a label past the end of the array is a panic here. Solver numbers are in the table. -/
def saveModelText (solver : Nat) (m : LModel K) : Res (List (LTok K)) :=
  match solverNames[solver]? with
  | none => Res.panic
  | some s =>
    if m.label.length < m.nrClass then Res.panic
    else Res.ok ([.word "solver_type"] ++ (if s = "" then [] else [.word s]) ++ [.word "nr_class", .int m.nrClass, .word "label"] ++
      (m.label.take m.nrClass).map LTok.int ++ [.word "nr_feature", .int m.nrFeature, .word "bias", .num m.bias, .word "w"] ++
      (List.range (weightCount m.nrFeature m.nrClass m.bias)).map fun k => LTok.num (m.w k))

/-- What `load_model` has read so far, linear_models/linear.cpp:2647-2655. -/
structure LHeader (K : Type) where
  solver : Option Nat := none
  nrClass : Option Nat := none
  label : Option (List Int) := none
  nrFeature : Option Nat := none
  bias : Option K := none

/-- `fscanf` of `n` whole numbers, linear_models/linear.cpp:2710-2711. Other text is not modelled (an error here). -/
def scanInts : Nat → List (LTok K) → Res (List Int × List (LTok K))
  | 0, ts => Res.ok ([], ts)
  | n + 1, .int i :: ts => (scanInts n ts).map fun p => (i :: p.1, p.2)
  | _ + 1, _ => Res.err

/-- `fscanf` of `n` decimal numbers, linear_models/linear.cpp:2737-2743: `rnd x` is the number that the text of `x` stands for. -/
def scanNums (rnd : K → K) : Nat → List (LTok K) → Res (List K)
  | 0, _ => Res.ok []
  | n + 1, .num x :: ts => (scanNums rnd n ts).map fun p => rnd x :: p
  | _ + 1, _ => Res.err

/-- The loop of `load_model`, linear_models/linear.cpp:2661-2722. Labels before the number of classes, negative numbers and text that
does not fit are not modelled (errors here); so is the end of the file, where the loop would go on for ever. The first argument
bounds the number of rounds. -/
def loadHeader (rnd : K → K) : Nat → List (LTok K) → LHeader K → Res (LHeader K × List (LTok K))
  | fuel + 1, .word c :: ts, h =>
    if c = "solver_type" then
      match ts with
      | .word s :: ts =>
        let i := solverNames.findIdx fun x => decide (x = s)
        if i < solverNames.length then loadHeader rnd fuel ts { h with solver := some i } else Res.err
      | _ => Res.err
    else if c = "nr_class" then
      match ts with
      | .int (.ofNat n) :: ts => loadHeader rnd fuel ts { h with nrClass := some n }
      | _ => Res.err
    else if c = "nr_feature" then
      match ts with
      | .int (.ofNat n) :: ts => loadHeader rnd fuel ts { h with nrFeature := some n }
      | _ => Res.err
    else if c = "bias" then
      match ts with
      | .num x :: ts => loadHeader rnd fuel ts { h with bias := some (rnd x) }
      | _ => Res.err
    else if c = "w" then Res.ok (h, ts)
    else if c = "label" then
      match h.nrClass with
      | some n => (scanInts n ts).bind fun p => loadHeader rnd fuel p.2 { h with label := some p.1 }
      | none => Res.err
    else Res.err
  | _, _, _ => Res.err

/-- `load_model`, linear_models/linear.cpp:2642-2751: the solver and the model. Fields that are missing from the file are not modelled
(an error here). -/
def loadModelText (rnd : K → K) (ts : List (LTok K)) : Res (Nat × LModel K) :=
  (loadHeader rnd ts.length ts {}).bind fun p =>
    match p.1.solver, p.1.nrClass, p.1.label, p.1.nrFeature, p.1.bias with
    | some solver, some nrClass, some label, some nrFeature, some bias =>
      (scanNums rnd (weightCount nrFeature nrClass bias) p.2).map fun ws =>
        (solver, { nrFeature := nrFeature, nrClass := nrClass, w := fun k => ws.getD k 0, label := label, bias := bias })
    | _, _, _, _, _ => Res.err

/-! ## Linear support vector machines -/

/-- What the files depend on: the bits of a number and back, which bits are finite, the text of a model and back, and what a number is
after it was printed with 16 digits. -/
structure SvcEnv (K : Type) where
  num : K → U64
  val : U64 → K
  fin : U64 → Bool
  text : List (LTok K) → Bytes
  parse : Bytes → Res (List (LTok K))
  rnd : K → K

/-- `LinearSVC`, linear_models/linearsvc.go:111-115: the parameters (`none` for a nil pointer), and the model with the solver it was
trained with (`none` before training). -/
structure SvcModel (K : Type) where
  params : Option (SvcParams K)
  model : Option (Nat × LModel K)

/-- `ClassWeights` as JSON. -/
def weightsToJson (E : SvcEnv K) : Option (List K) → Json
  | none => .null
  | some ws => .arr (ws.map fun x => .flt (E.num x))

/-- `LinearSVCParams` as JSON, linear_models/linearsvc.go:30-37. Numbers that are not finite cannot be written. -/
def svcParamsToJson (E : SvcEnv K) : Option (SvcParams K) → Res Json
  | none => Res.ok .null
  | some p =>
    if ((p.weights.getD []) ++ [p.c, p.eps]).all fun x => E.fin (E.num x) then
      Res.ok (.obj [("SolverType", .num p.solver),
        ("ClassWeights", weightsToJson E p.weights), ("C", .flt (E.num p.c)), ("Eps", .flt (E.num p.eps)), ("WeightClassesAutomatically", .bool p.auto), ("Dual", .bool p.dual)])
    else Res.err

/-- Reading `ClassWeights`. -/
def weightsOfJson (E : SvcEnv K) : Option Json → Res (Option (List K))
  | some .null => Res.ok none
  | some (.arr l) => (mapRes (floatOfJson E.val) l).map some
  | _ => Res.err

/-- Reading `LinearSVCParams`. Missing fields and negative solver numbers are not modelled (errors here). -/
def svcParamsOfJson (E : SvcEnv K) : Json → Res (Option (SvcParams K))
  | .null => Res.ok none
  | .obj l =>
    (weightsOfJson E ((Json.obj l).field "ClassWeights")).bind fun weights =>
      match (Json.obj l).field "SolverType", (Json.obj l).field "C", (Json.obj l).field "Eps",
        (Json.obj l).field "WeightClassesAutomatically", (Json.obj l).field "Dual" with
      | some (.num (.ofNat solver)), some c, some eps, some (.bool auto), some (.bool dual) =>
        (floatOfJson E.val c).bind fun c => (floatOfJson E.val eps).map fun eps => some ⟨solver, weights, c, eps, auto, dual⟩
      | _, _, _, _, _ => Res.err
  | _ => Res.err

/-- `LinearSVC.SaveWithPrefix`, linear_models/linearsvc.go:251-292, with `Export`, linear_models/liblinear.go:68-74. Saving a model that
was not trained follows a nil pointer. The error of writing the model is ignored by the code. -/
def saveSvc (E : SvcEnv K) (m : SvcModel K) (w : Writer) (pre : String) : Res Writer :=
  (svcParamsToJson E m.params).bind fun j =>
    (m.model.elim Res.panic fun p => saveModelText p.1 p.2).bind fun ts =>
      (w.write (tarPrefix pre "PARAMETERS") (.json j)).map fun w =>
        match w.write (tarPrefix pre "MODEL") (.bytes (E.text ts)) with
        | .ok w' => w'
        | _ => w

/-- `LinearSVC.LoadWithPrefix`, linear_models/linearsvc.go:306-331, with `Load`, linear_models/liblinear.go:76-82. -/
def loadSvc (E : SvcEnv K) (ar : Archive) (pre : String) : Res (SvcModel K) :=
  (getJsonForKey ar (tarPrefix pre "PARAMETERS")).bind fun j => (svcParamsOfJson E j).bind fun params =>
    (getNamedFile ar (tarPrefix pre "MODEL")).bind fun
      | .json _ => Res.err
      | .bytes b => (E.parse b).bind fun ts => (loadModelText E.rnd ts).map fun m => ⟨params, some m⟩

/-- The metadata of a `LinearSVC`, linear_models/linearsvc.go:217-236; it panics if the parameters cannot be written. -/
def svcMetadata (E : SvcEnv K) (m : SvcModel K) : Res Json :=
  match svcParamsToJson E m.params with
  | .ok j => Res.ok (metadataJson "LinearSVC" "1.0" j)
  | _ => Res.panic

/-- `LinearSVC.Save`, linear_models/linearsvc.go:239-249: the entries of the file. -/
def saveSvcFile (E : SvcEnv K) (m : SvcModel K) : Res Archive :=
  (svcMetadata E m).bind fun j => (saveSvc E m (newWriter j) "").map Writer.entries

/-- `LinearSVC.Load`, linear_models/linearsvc.go:294-304. -/
def loadSvcFile (E : SvcEnv K) (ar : Archive) : Res (SvcModel K) := (readStub ar).bind fun ar => loadSvc E ar ""

/-- `LinearSVC.Predict` of a model that may not have been trained, linear_models/linearsvc.go:187-215. -/
def SvcModel.predict (val : U64 → K) (enc : Int → U64) (srt : List Spec → List Spec) (pg : Nat) (order : Grid → List Nat)
    (m : SvcModel K) (g : Grid) : Res Grid :=
  match m.model with
  | some p => (svcPredict val enc srt pg (order g) p.2 g).map Grid.dense
  | none => Res.panic
end

/-! ## One-vs-all models -/

/-- What is saved of a `OneVsAllModel`, meta/one_v_all.go:12-19. -/
structure SavedOva (M : Type) where
  filters : List OvaFilter
  models : List M
  classValues : List String
  fitOn : Dense

/-- The names of the entries of filter `i`, meta/one_v_all.go:262-264 and 284. -/
def ovaFilterKey (pre : String) (i : Nat) : String := tarPrefix pre (tarPrefix "FILTER" (Nat.repr i))

/-- The names of the entries of classifier `i`, meta/one_v_all.go:262-264 and 320. -/
def ovaClassKey (pre : String) (i : Nat) : String := tarPrefix pre (tarPrefix "CLASSIFIERS" (Nat.repr i))

/-- Writing an attribute, base/serialize.go:335-342. -/
def Writer.attribute (w : Writer) (nilVals : Bool) (key : String) (a : Attr) : Res Writer :=
  w.write key (.json (attrToJson nilVals a.body))

/-- One round of the loop over the map of a filter, meta/one_v_all.go:291-305. -/
def saveOvaPair (nilVals : Bool) (p : Attr × Attr) (w : Writer) (key : String) : Res Writer :=
  (w.attribute nilVals (tarPrefix key "KEY") p.1).bind fun w => w.attribute nilVals (tarPrefix key "VAL") p.2

/-- One round of the loop over the filters, meta/one_v_all.go:283-316. `ord` is the order of the map of the filter. -/
def saveOvaFilter (nilVals : Bool) (ord : OvaFilter → GoMap Attr Attr) (f : OvaFilter) (w : Writer) (key : String) : Res Writer :=
  (w.write (tarPrefix key "COUNT") (.bytes (packU64 (BitVec.ofNat 64 f.attrs.length)))).bind fun w =>
    (saveEach (saveOvaPair nilVals) (fun j => tarPrefix key (Nat.repr j)) (ord f) 0 w).bind fun w =>
      (w.attribute nilVals (tarPrefix key "CLASS_ATTR") f.cls).bind fun w =>
        w.write (tarPrefix key "CLASS_VAL") (.bytes (packU64 f.val))

/-- `OneVsAllModel.SaveWithPrefix`, meta/one_v_all.go:260-328; `save c` is the method `SaveWithPrefix` of `c`. The file is closed. -/
def saveOva {M : Type} (G : GridEnv) (nilVals : Bool) (ord : OvaFilter → GoMap Attr Attr) (save : M → Writer → String → Res Writer)
    (m : SavedOva M) (w : Writer) (pre : String) : Res Writer :=
  (w.structure G nilVals (tarPrefix pre "INSTANCE_STRUCTURE") m.fitOn).bind fun w =>
    (w.write (tarPrefix pre "CLASS_VALUES") (.json (.arr (m.classValues.map Json.str)))).bind fun w =>
      (w.write (tarPrefix pre "FILTER_COUNT") (.bytes (packU64 (BitVec.ofNat 64 m.filters.length)))).bind fun w =>
        (saveEach (saveOvaFilter nilVals ord) (ovaFilterKey pre) m.filters 0 w).bind fun w =>
          (saveEach save (ovaClassKey pre) m.models 0 w).bind fun w => w.close

/-- What is loaded of a `OneVsAllModel`. -/
structure LoadedOva (μ : Type) where
  filters : List OvaFilter
  models : List μ
  maxVal : U64
  classValues : List String
  fitOn : Dense

/-- One round of the loop that reads the map of a filter, meta/one_v_all.go:178-198. `fresh` is the address of the new attribute. -/
def loadOvaPair (viaFloat : Int → Int) (fresh : Nat) (fitOn : Dense) (ar : Archive) (key : String) : Res (Attr × Attr) :=
  (getAttributeForKey viaFloat ar (tarPrefix key "KEY")).bind fun k =>
    (getAttributeForKey viaFloat ar (tarPrefix key "VAL")).bind fun v =>
      (replaceAttr k fitOn.allAttributes).map fun a => (a, ⟨fresh, v⟩)

/-- One round of the loop that reads the filters, meta/one_v_all.go:166-218. -/
def loadOvaFilter (viaFloat : Int → Int) (fresh : Nat → Nat) (fitOn : Dense) (ar : Archive) (key : String) : Res OvaFilter :=
  (getU64ForKey ar (tarPrefix key "COUNT")).bind fun count =>
    (mapRes (fun j => loadOvaPair viaFloat (fresh j) fitOn ar (tarPrefix key (Nat.repr j))) (List.range count.toNat)).bind fun ps =>
      (getAttributeForKey viaFloat ar (tarPrefix key "CLASS_ATTR")).bind fun c =>
        (replaceAttr c fitOn.allAttributes).bind fun c =>
          (getU64ForKey ar (tarPrefix key "CLASS_VAL")).map fun v => ⟨ps.foldl (fun m p => m.set p.1 p.2) [], c, v⟩

/-- A JSON string read into a Go string; `null` leaves it empty. -/
def stringOfJson : Json → Res String
  | .str s => Res.ok s
  | .null => Res.ok ""
  | _ => Res.err

/-- Reading a slice of strings; `null` is a nil slice. -/
def stringsOfJson : Json → Res (List String)
  | .arr l => mapRes stringOfJson l
  | .null => Res.ok []
  | _ => Res.err

/-- `OneVsAllModel.LoadWithPrefix`, meta/one_v_all.go:143-240. `mk s` is the call of `NewClassifierFunction(s)`, and `load s` such a call
followed by `LoadWithPrefix`. `fresh i j` is the address of the `j`-th new attribute of filter `i`, and `ordF` and `freshF` are what the
call of `Fit` depends on. -/
def loadOva {μ : Type} (G : GridEnv) (viaFloat : Int → Int) (mk : String → Res Unit) (load : String → Archive → String → Res μ)
    (fresh : Nat → Nat → Nat) (freshF : Attr → Nat) (ordF : Nat → List FAttr → List FAttr) (ar : Archive) (pre : String) :
    Res (LoadedOva μ) :=
  (getInstancesForKey G viaFloat ar (tarPrefix pre "INSTANCE_STRUCTURE")).bind fun d =>
    (OneVsAll.fit (fun s _ => (mk s).map fun _ _ => Res.panic) freshF ordF (.dense d)).bind fun fitted =>
      (copyStructure G.pg (.dense d) (G.cls (.dense d))).bind fun copy =>
        (getU64ForKey ar (tarPrefix pre "FILTER_COUNT")).bind fun count =>
          (mapRes (fun i => loadOvaFilter viaFloat (fresh i) copy.1 ar (ovaFilterKey pre i)) (List.range count.toNat)).bind fun filters =>
            (getJsonForKey ar (tarPrefix pre "CLASS_VALUES")).bind fun j =>
              (stringsOfJson j).bind fun vs =>
                (mapRes (fun p : String × Nat => load p.1 ar (ovaClassKey pre p.2)) vs.zipIdx).map fun models =>
                  ⟨filters, models, fitted.maxVal, vs, copy.1⟩

/-- `OneVsAllModel.Save`, meta/one_v_all.go:252-258: the entries of the file. -/
def saveOvaFile {M : Type} (G : GridEnv) (nilVals : Bool) (ord : OvaFilter → GoMap Attr Attr) (save : M → Writer → String → Res Writer)
    (m : SavedOva M) : Res Archive :=
  (saveOva G nilVals ord save m (newWriter (metadataJson "OneVsAllModel" "1.0" .null)) "").map Writer.entries

/-- `OneVsAllModel.Load`, meta/one_v_all.go:132-141. -/
def loadOvaFile {μ : Type} (G : GridEnv) (viaFloat : Int → Int) (mk : String → Res Unit) (load : String → Archive → String → Res μ)
    (fresh : Nat → Nat → Nat) (freshF : Attr → Nat) (ordF : Nat → List FAttr → List FAttr) (ar : Archive) : Res (LoadedOva μ) :=
  (readStub ar).bind fun ar => loadOva G viaFloat mk load fresh freshF ordF ar ""

/-- A loaded model as a model that predicts; `pred q` is the method `Predict` of `q`. -/
def LoadedOva.model {μ : Type} (pred : μ → Grid → Res Grid) (m : LoadedOva μ) : OneVsAll :=
  ⟨m.filters, m.models.map pred, m.maxVal, m.classValues⟩

/-! ## Linear support vector machines for several classes -/

section
variable {K : Type} [Field K] [LinearOrder K]

/-- `MultiLinearSVC`, ensemble/multisvc.go:13-17, before it is saved; `weights` is `none` for a nil map. -/
structure MultiSvc (K : Type) where
  params : Option (SvcParams K)
  weights : Option (GoMap String K)
  ova : SavedOva (SvcModel K)

/-- The weights as JSON. -/
def classWeightsToJson (E : SvcEnv K) : Option (GoMap String K) → Res Json
  | none => Res.ok .null
  | some ws =>
    if ws.all fun p => E.fin (E.num p.2) then Res.ok (.obj (ws.map fun p => (p.1, .flt (E.num p.2)))) else Res.err

/-- Reading the weights into a map that is there already: `encoding/json` keeps its other entries. -/
def classWeightsOfJson (E : SvcEnv K) (old : Option (GoMap String K)) : Json → Res (Option (GoMap String K))
  | .null => Res.ok none
  | .obj l =>
    (mapRes (fun p : String × Json => (floatOfJson E.val p.2).map fun x => (p.1, x)) l).map fun ps =>
      some (ps.foldl (fun m p => m.set p.1 p.2) (old.getD []))
  | _ => Res.err

/-- `MultiLinearSVC.SaveWithPrefix`, ensemble/multisvc.go:108-128. The prefix is followed by a slash even if it is empty. -/
def saveMulti (G : GridEnv) (nilVals : Bool) (ord : OvaFilter → GoMap Attr Attr) (E : SvcEnv K) (m : MultiSvc K) (w : Writer)
    (pre : String) : Res Writer :=
  (svcParamsToJson E m.params).bind fun jp => (w.write (pre ++ "/params") (.json jp)).bind fun w =>
    (classWeightsToJson E m.weights).bind fun jw => (w.write (pre ++ "/weights") (.json jw)).bind fun w =>
      saveOva G nilVals ord (saveSvc E) m.ova w (pre ++ "/one-vs-all")

/-- `MultiLinearSVC.Save`, ensemble/multisvc.go:94-106: the entries of the file. The file is closed twice, and the error of that is
ignored. -/
def saveMultiFile (G : GridEnv) (nilVals : Bool) (ord : OvaFilter → GoMap Attr Attr) (E : SvcEnv K) (m : MultiSvc K) : Res Archive :=
  (saveMulti G nilVals ord E m (newWriter (metadataJson "MultiLinearSVC" "1" .null)) "").map Writer.entries

/-- A `MultiLinearSVC` that has been loaded. -/
structure LoadedMulti (K : Type) where
  params : Option (SvcParams K)
  weights : Option (GoMap String K)
  ova : LoadedOva (SvcModel K)

/-- The classifier function, ensemble/multisvc.go:45-65: with nil parameters it panics. -/
def multiMake (params : Option (SvcParams K)) (_cls : String) : Res Unit :=
  match params with
  | some _ => Res.ok ()
  | none => Res.panic

/-- `MultiLinearSVC.LoadWithPrefix`, ensemble/multisvc.go:153-176, into a model whose weights are `old`. -/
def loadMulti (G : GridEnv) (viaFloat : Int → Int) (E : SvcEnv K) (old : Option (GoMap String K)) (fresh : Nat → Nat → Nat)
    (freshF : Attr → Nat) (ordF : Nat → List FAttr → List FAttr) (ar : Archive) (pre : String) : Res (LoadedMulti K) :=
  (getJsonForKey ar (pre ++ "/params")).bind fun jp => (svcParamsOfJson E jp).bind fun params =>
    (getJsonForKey ar (pre ++ "/weights")).bind fun jw => (classWeightsOfJson E old jw).bind fun weights =>
      (loadOva G viaFloat (multiMake params) (fun s ar key => (multiMake params s).bind fun _ => loadSvc E ar key) fresh freshF ordF ar
        (pre ++ "/one-vs-all")).map fun ova => ⟨params, weights, ova⟩

/-- `MultiLinearSVC.Load`, ensemble/multisvc.go:139-151. -/
def loadMultiFile (G : GridEnv) (viaFloat : Int → Int) (E : SvcEnv K) (old : Option (GoMap String K)) (fresh : Nat → Nat → Nat)
    (freshF : Attr → Nat) (ordF : Nat → List FAttr → List FAttr) (ar : Archive) : Res (LoadedMulti K) :=
  (readStub ar).bind fun ar => loadMulti G viaFloat E old fresh freshF ordF ar ""
end

end Golearn
