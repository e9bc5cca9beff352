import Verif.Proofs.SaveSvc
import Verif.Proofs.SvcOva
import Verif.Props.C102
import Mathlib.Data.Countable.Basic
import Mathlib.Data.Rat.Encodable
import Mathlib.Logic.Encodable.Basic
import Mathlib.Logic.Equiv.List

/-! # C103: linear support vector machines and one-vs-all models that are saved and loaded predict the same -/

namespace Golearn

section
variable {K : Type} [Field K] [LinearOrder K]

/-- Models with the same sizes, labels and weights predict the same for every data. -/
theorem svcPredict_same {m m' : LModel K} (h : m.Same m') (val : U64 → K) (enc : Int → U64) (srt : List Spec → List Spec) (pg : Nat)
    (order : List Nat) (g : Grid) : svcPredict val enc srt pg order m' g = svcPredict val enc srt pg order m g := by
  have : svcCallback val enc m' = svcCallback val enc m := by
    funext s ret vals row
    unfold svcCallback
    congr 1
    funext x
    rw [libPredict_same h]
  unfold svcPredict
  rw [this]

/-- Saving a trained linear support vector machine and loading it gives one with the same parameters, solver, labels and bias, and each
weight is what is read from the 16 digits that were written. -/
theorem C103_svc_file (E : SvcEnv K) (hE : E.Ok) (m : SvcModel K) (solver : Nat) (lm : LModel K) (hk : m.Written E solver lm) :
    ∃ ar lm', saveSvcFile E m = Res.ok ar ∧ loadSvcFile E ar = Res.ok ⟨m.params, some (solver, lm')⟩ ∧
      lm'.nrFeature = lm.nrFeature ∧ lm'.nrClass = lm.nrClass ∧ lm'.label = lm.label ∧ lm'.bias = lm.bias ∧
      ∀ k, k < weightCount lm.nrFeature lm.nrClass lm.bias → lm'.w k = E.rnd (lm.w k) := by
  obtain ⟨es, h1, h2, h3⟩ := svc_entries_rounded E hE m solver lm hk ""
  obtain ⟨j, j1, _⟩ := params_roundtrip E m.params hk.params
  have hd : ∀ p ∈ classifierStub (metadataJson "LinearSVC" "1.0" j), ∀ q ∈ es, p.1 ≠ q.1 := by
    intro p hp q hq
    simp only [classifierStub, List.mem_cons, List.not_mem_nil, or_false] at hp
    rcases hp with rfl | rfl <;> rcases h1 q hq with h | h <;> rw [h] <;> dsimp only <;> decide
  refine ⟨classifierStub (metadataJson "LinearSVC" "1.0" j) ++ es, loadedModel E.rnd lm, ?_, ?_, rfl, rfl, rfl, rfl, ?_⟩
  · unfold saveSvcFile svcMetadata
    simp only [j1, Res.bind_ok]
    rw [h2 _ rfl]
    rfl
  · rw [loadSvcFile, readStub_eq, Res.bind_ok, h3 _ (agrees_self _ es hd)]
  · intro k hk
    simp only [loadedModel, if_pos hk]

/-- If the weights are numbers that 16 digits tell exactly, the loaded one predicts the same for every data. -/
theorem C103_svc_partial (E : SvcEnv K) (hE : E.Ok) (m : SvcModel K) (solver : Nat) (lm : LModel K) (hk : m.Kept E solver lm) :
    ∃ ar m', saveSvcFile E m = Res.ok ar ∧ loadSvcFile E ar = Res.ok m' ∧ m.Same m' ∧
      ∀ (val : U64 → K) (enc : Int → U64) (srt : List Spec → List Spec) (pg : Nat) (order : Grid → List Nat) (g : Grid),
        m'.predict val enc srt pg order g = m.predict val enc srt pg order g := by
  obtain ⟨ar, lm', h1, h2, h3, h4, h5, h6, h7⟩ := C103_svc_file E hE m solver lm hk.toWritten
  have hs : lm.Same lm' := ⟨h3, h4, h5, h6, fun k hk' => by rw [h7 k hk', hk.weights k hk']⟩
  refine ⟨ar, _, h1, h2, ⟨rfl, solver, lm, lm', hk.trained, rfl, hs⟩, ?_⟩
  intro val enc srt pg order g
  unfold SvcModel.predict
  rw [hk.trained]
  simp only
  rw [svcPredict_same hs]

end

/-- Saving a one-vs-all model and loading it restores the class values, the filters and the classifiers, if each classifier is restored
(`good i` is what is known of classifier `i`). -/
theorem C103_ova_partial {M μ : Type} (G : GridEnv) (hG : G.Ok) (nilVals : Bool) (viaFloat : Int → Int)
    (ord : OvaFilter → GoMap Attr Attr) (hord : ∀ f, (ord f).Perm f.attrs)
    (save : M → Writer → String → Res Writer) (mk : String → Res Unit) (load : String → Archive → String → Res μ)
    (fresh : Nat → Nat → Nat) (freshF : Attr → Nat) (ordF : Nat → List FAttr → List FAttr) (good : Nat → μ → Prop) (m : SavedOva M)
    (hk : m.Kept nilVals viaFloat) (hmk : ∀ s ∈ m.classValues, mk s = Res.ok ())
    (hm : ∀ i q s, m.models[i]? = some q → m.classValues[i]? = some s → Restores (save q) (load s) (good i) false) :
    ∃ ar m', saveOvaFile G nilVals ord save m = Res.ok ar ∧ loadOvaFile G viaFloat mk load fresh freshF ordF ar = Res.ok m' ∧
      m.Restored good m' := by
  obtain ⟨es, h1, h2, h3⟩ := ova_entries G hG nilVals viaFloat ord hord save mk load fresh freshF ordF good m hk hmk hm ""
  have hd : ∀ p ∈ classifierStub (metadataJson "OneVsAllModel" "1.0" .null), ∀ q ∈ es, p.1 ≠ q.1 := by
    intro p hp q hq e
    obtain ⟨s, hs, ht⟩ := h1 q hq
    rw [hs, show tarPrefix "" s = s from if_pos rfl] at e
    rw [← e] at ht
    simp only [classifierStub, List.mem_cons, List.not_mem_nil, or_false] at hp
    rcases hp with rfl | rfl <;> revert ht <;> decide
  obtain ⟨m', q1, q2⟩ := h3 _ (agrees_self _ es hd)
  refine ⟨classifierStub (metadataJson "OneVsAllModel" "1.0" .null) ++ es, m', ?_, ?_, q2⟩
  · unfold saveOvaFile
    rw [h2 _ rfl, Res.map_ok]
    rfl
  · rw [loadOvaFile, readStub_eq, Res.bind_ok, q1]

section
variable {K : Type} [Field K] [LinearOrder K]

/-- Saving a linear support vector machine for several classes and loading it into a new one restores its parameters, its weights and
its classifiers. -/
theorem C103_multi_partial (G : GridEnv) (hG : G.Ok) (nilVals : Bool) (viaFloat : Int → Int)
    (ord : OvaFilter → GoMap Attr Attr) (hord : ∀ f, (ord f).Perm f.attrs) (E : SvcEnv K) (hE : E.Ok)
    (fresh : Nat → Nat → Nat) (freshF : Attr → Nat) (ordF : Nat → List FAttr → List FAttr) (m : MultiSvc K)
    (hk : m.Kept nilVals viaFloat E) :
    ∃ ar m', saveMultiFile G nilVals ord E m = Res.ok ar ∧ loadMultiFile G viaFloat E none fresh freshF ordF ar = Res.ok m' ∧
      m'.params = m.params ∧ m'.weights = m.weights ∧ m.ova.Restored m.ova.SameAt m'.ova := by
  obtain ⟨p, hp, hpk⟩ := hk.params
  obtain ⟨jp, jp1, jp2⟩ := params_roundtrip E m.params (fun q hq => by rw [hp, Option.some.injEq] at hq; exact hq ▸ hpk)
  obtain ⟨jw, jw1, jw2⟩ := classWeights_roundtrip E m.weights hk.weights
  obtain ⟨es, h1, h2, h3⟩ := ova_entries G hG nilVals viaFloat ord hord (saveSvc E) (multiMake m.params)
    (fun s ar key => (multiMake m.params s).bind fun _ => loadSvc E ar key) fresh freshF ordF m.ova.SameAt m.ova hk.ova
    (fun s _ => by rw [hp]; rfl) (by
      intro i q s hq _ pre
      obtain ⟨solver, lm, hq'⟩ := hk.members q (List.mem_of_getElem? hq)
      obtain ⟨es, e1, e2, e3⟩ := svc_restores E hE q solver lm hq' pre
      refine ⟨es, e1, e2, fun ar ha => ?_⟩
      obtain ⟨q', l1, l2⟩ := e3 ar ha
      exact ⟨q', by rw [hp]; exact l1, q, hq, l2⟩) "/one-vs-all"
  obtain ⟨A, hA⟩ : ∃ A : Archive, A = [("/params", .json jp), ("/weights", .json jw)] := ⟨_, rfl⟩
  have hn : ∀ e ∈ es, e.1.toList.take 2 = "/o".toList := by
    intro e he
    obtain ⟨s, hs, _⟩ := h1 e he
    rw [hs, tarPrefix_of_ne (by decide)]
    simp only [String.toList_append, List.append_assoc]
    rw [List.take_append_of_le_length (by decide)]
    decide
  have hsep : ∀ e : String, e.toList.take 2 ≠ "/o".toList → ∀ q ∈ es, e ≠ q.1 := by
    intro e he q hq h
    exact he (h ▸ hn q hq)
  have hd : ∀ p ∈ classifierStub (metadataJson "MultiLinearSVC" "1" .null), ∀ q ∈ A ++ es, p.1 ≠ q.1 := by
    intro p hp q hq
    rw [List.mem_append] at hq
    simp only [classifierStub, List.mem_cons, List.not_mem_nil, or_false] at hp
    rcases hq with hq | hq
    · rw [hA] at hq
      simp only [List.mem_cons, List.not_mem_nil, or_false] at hq
      rcases hp with rfl | rfl <;> rcases hq with rfl | rfl <;> dsimp only <;> decide
    · rcases hp with rfl | rfl
      · exact hsep _ (by dsimp only; decide) q hq
      · exact hsep _ (by dsimp only; decide) q hq
  have ha := agrees_self (classifierStub (metadataJson "MultiLinearSVC" "1" .null)) (A ++ es) hd
  have a1 := agrees_append_left ha
  have a2 := agrees_append_right ha (by
    intro p hp q hq
    rw [hA] at hp
    simp only [List.mem_cons, List.not_mem_nil, or_false] at hp
    rcases hp with rfl | rfl
    · exact hsep _ (by dsimp only; decide) q hq
    · exact hsep _ (by dsimp only; decide) q hq)
  obtain ⟨ova, o1, o2⟩ := h3 _ a2
  rw [hA] at a1
  refine ⟨classifierStub (metadataJson "MultiLinearSVC" "1" .null) ++ (A ++ es), ⟨m.params, m.weights, ova⟩, ?_, ?_, rfl, rfl, o2⟩
  · unfold saveMultiFile saveMulti
    rw [jp1, Res.bind_ok]
    simp only [Writer.write, newWriter, writeForKey, Bool.false_eq_true, if_false, Res.bind_ok]
    rw [jw1, Res.bind_ok, show "" ++ "/one-vs-all" = "/one-vs-all" from rfl, h2 _ rfl, Res.map_ok, hA]
    simp
  · unfold loadMultiFile
    rw [readStub_eq, Res.bind_ok]
    unfold loadMulti
    have f1 := getNamedFile_eq_of_mem a1 (k := "/params") (by rw [getNamedFile, if_pos rfl])
    have f2 := getNamedFile_eq_of_mem a1 (k := "/weights") (by rw [getNamedFile, if_neg (by decide), getNamedFile, if_pos rfl])
    rw [← hA] at f1 f2
    rw [show "" ++ "/params" = "/params" from rfl, show "" ++ "/weights" = "/weights" from rfl, show "" ++ "/one-vs-all" = "/one-vs-all" from rfl,
      getJsonForKey, f1, Res.bind_ok]
    simp only [Res.bind_ok]
    rw [jp2, Res.bind_ok, getJsonForKey, f2, Res.bind_ok]
    simp only [Res.bind_ok]
    rw [jw2, Res.bind_ok, o1, Res.map_ok]

/-! ## Trained models -/

/-- What `Fit` leaves behind: the values of the class attribute, and a filter for each about the training data's attributes. -/
theorem C103_fitted {train : String → Option Grid → Res (Grid → Res Grid)} {fresh : Attr → Nat}
    {ord : Nat → List FAttr → List FAttr} {g : Grid} {c : Attr} {nm : String} {vs : List String}
    (hcl : g.allClassAttributes = [c]) (hcb : c.body = .cat nm vs) {M : OneVsAll} (h : OneVsAll.fit train fresh ord g = Res.ok M) :
    M.classValues = vs ∧ ∀ f ∈ M.filters, ∃ i : Nat, f = ⟨ovaAttrs fresh g.allAttributes c, c, BitVec.ofNat 64 i⟩ := by
  unfold OneVsAll.fit at h
  rw [hcl] at h
  simp only [hcb] at h
  obtain ⟨v, _, h⟩ := Res.bind_eq_ok.1 h
  split at h
  · cases h
  · obtain ⟨cs, _, rfl⟩ := Res.map_eq_ok.1 h
    refine ⟨rfl, ?_⟩
    intro f hf
    obtain ⟨i, _, rfl⟩ := List.mem_map.1 hf
    exact ⟨i, rfl⟩

/-- A one-vs-all model that was trained on data that survives being written, with the copy of the structure of the data that `Fit` keeps,
meets the requirements for saving. -/
theorem C103_trained {M : Type} (nilVals : Bool) (viaFloat : Int → Int) (h2 : viaFloat 2 = 2)
    (train : String → Option Grid → Res (Grid → Res Grid)) (fresh : Attr → Nat) (ord : Nat → List FAttr → List FAttr) (g : Grid) (n : Nat)
    (hk : GridKept nilVals viaFloat g n) (c : Attr) (nm : String) (vs : List String) (hcl : g.allClassAttributes = [c])
    (hcb : c.body = .cat nm vs) (hnd : vs.Nodup) (hfew : vs.length < 2 ^ 64) (fit : OneVsAll)
    (hfit : OneVsAll.fit train fresh ord g = Res.ok fit) (pg : Nat) :
    ∃ copy s1 s2, copyStructure pg g [c] = Res.ok (copy, s1, s2) ∧
      ∀ models : List M, models.length = fit.classifiers.length → (⟨fit.filters, models, fit.classValues, copy⟩ : SavedOva M).Kept nilVals viaFloat := by
  obtain ⟨copy, s1, s2, k1, k2, k3, k4, k5⟩ := structural_copy_kept pg g n hk [c] (by rw [hcl])
  obtain ⟨f0, f1, f2, f3, _⟩ := ova_fit hcl hcb hnd (by omega) hfit
  obtain ⟨e1, e2⟩ := C103_fitted hcl hcb hfit
  have hcin : c ∈ g.allAttributes := hk.classes c (by rw [hcl]; simp)
  refine ⟨copy, s1, s2, k1, fun models hm => ?_⟩
  have hattrs := ovaAttrs_eq fresh hk.distinct hcin
  refine ⟨k2, k3, ⟨c, nm, ?_, by rw [e1]; exact hcb⟩, by rw [e1]; exact hnd, by rw [e1]; exact f0, by rw [e1]; exact hfew,
    by rw [e1, hm, f2], by rw [e1, f1], ?_, ?_, ?_⟩
  · refine List.perm_singleton.1 ((List.perm_ext_iff_of_nodup k2.classNodup (by simp)).2 ?_)
    intro x
    show x ∈ copy.allClassAttributes ↔ _
    rw [k5, hcl]
  · intro f hf
    obtain ⟨i, rfl⟩ := e2 f hf
    simp only [hattrs, List.map_map]
    have : (g.allAttributes.map (Prod.fst ∘ fun a => (a, ovaNew fresh c a))) = g.allAttributes := by
      exact List.map_id _
    rw [this]
    exact nodup_of_distinct hk.distinct
  · intro f hf
    obtain ⟨i, rfl⟩ := e2 f hf
    refine ⟨k4.symm.subset hcin, ?_⟩
    intro p hp
    simp only [hattrs, List.mem_map] at hp
    obtain ⟨a, ha, rfl⟩ := hp
    exact k4.symm.subset ha
  · intro f hf p hp
    obtain ⟨i, rfl⟩ := e2 f hf
    simp only [hattrs, List.mem_map] at hp
    obtain ⟨a, ha, rfl⟩ := hp
    simp only [ovaNew]
    split
    · refine ⟨by simp, ?_⟩
      intro nm' k e
      simp only [AttrBody.float.injEq] at e
      rw [← e.2, h2]
    · exact hk.kept a ha

/-- What the data to predict may be: rows with the attribute objects of the training data (such as a view of the same file), of which no
float attribute has the name of the class; or rows none of whose attribute objects are those of the training data (such as another
file). -/
def KnownOrNew (g what : Grid) (c : Attr) : Prop :=
  (what.allAttributes = g.allAttributes ∧ what.allClassAttributes = [c] ∧ NoNameClash what c) ∨
  ∀ a ∈ what.allAttributes, a ∉ g.allAttributes

/-- A one-vs-all model of linear support vector machines that has been restored predicts exactly what the trained one predicts, for
data whose class is not binary and which has other attribute objects than the restored model. -/
theorem C103_predicts_same_partial {K' : Type} [LinearOrder K'] [Zero K'] (num : U64 → Option K')
    (val : U64 → K) (enc : Int → U64) (srt : List Spec → List Spec) (hsrt : PositionSort srt) (pg : Nat)
    (order order' : Grid → List Nat) (ho : ∀ v : Grid, v.RowOrder (order v)) (ho' : ∀ v : Grid, v.RowOrder (order' v))
    (train : String → Option Grid → Res (Grid → Res Grid)) (fresh : Attr → Nat) (ordF ord ord' : Nat → List FAttr → List FAttr)
    (hord : ∀ i l, (ord i l).Perm l) (hord' : ∀ i l, (ord' i l).Perm l) (g : Grid) (hgd : g.distinct) (c : Attr) (nm : String)
    (vs : List String) (hcl : g.allClassAttributes = [c]) (hcin : c ∈ g.allAttributes) (hcb : c.body = .cat nm vs) (hnd : vs.Nodup)
    (hfew : vs.length < 2 ^ 64) (fit : OneVsAll) (hfit : OneVsAll.fit train fresh ordF g = Res.ok fit)
    (m : SavedOva (SvcModel K)) (hfs : m.filters = fit.filters) (hcv : m.classValues = fit.classValues)
    (hmod : fit.classifiers = m.models.map fun q => q.predict val enc srt pg order)
    (hok : ∀ q ∈ m.models, ∀ solver lm, q.model = some (solver, lm) → lm.label.length = lm.nrClass ∧ lm.label ≠ [])
    (m' : LoadedOva (SvcModel K)) (hr : m.Restored m.SameAt m') (what : Grid) (n : Nat) (P : what.Presents n) (T : what.typed n)
    (hd : what.distinct) (cw : Attr) (hcw : what.allClassAttributes = [cw]) (hcwin : cw ∈ what.allAttributes) (hbin : cw.isBin = false)
    (hold : KnownOrNew g what c) (hnew : ∀ a ∈ what.allAttributes, a ∉ m'.fitOn.allAttributes) :
    (m'.model fun q => q.predict val enc srt pg order').predict num pg srt ord' what = fit.predict num pg srt ord what := by
  obtain ⟨f0, f1, f2, f3, f4, _⟩ := ova_fit hcl hcb hnd (by omega) hfit
  have hvs := (C103_fitted hcl hcb hfit).1
  have hlenM : m.models.length = vs.length := by rw [← f2, hmod, List.length_map]
  obtain ⟨fs, hfs1, hfs2⟩ := positionSort_attrs hsrt what.nonClassFloats
  -- the labels
  have hex : ∀ q ∈ m.models, ∃ lm, (∃ solver, q.model = some (solver, lm)) := by
    intro q hq
    obtain ⟨i, hi, rfl⟩ := List.getElem_of_mem hq
    have hi' : i < m'.models.length := by rw [hr.models.1]; exact hi
    obtain ⟨p, p1, _, solver, lm, lm', p3, _⟩ := hr.models.2 i _ (List.getElem?_eq_getElem hi')
    rw [List.getElem?_eq_getElem hi, Option.some.injEq] at p1
    exact ⟨lm, solver, by rw [p1]; exact p3⟩
  have hlab : ∀ i, i < vs.length → ∃ (q : SvcModel K) (solver : Nat) (lm : LModel K) (lab : Nat → Int), m.models[i]? = some q ∧
      q.model = some (solver, lm) ∧ ∀ r, libPredict lm (what.point val fs r) = Res.ok (lab r) := by
    intro i hi
    have hi' : i < m.models.length := by omega
    obtain ⟨lm, solver, h⟩ := hex _ (List.getElem_mem hi')
    obtain ⟨l1, l2⟩ := hok _ (List.getElem_mem hi') solver lm h
    choose lab hl using fun r => libPredict_total lm (what.point val fs r) l1 l2
    exact ⟨_, solver, lm, lab, List.getElem?_eq_getElem hi', h, hl⟩
  choose q solver lm lab h1 h3 h4 using hlab
  have hmaxeq : m'.maxVal = fit.maxVal := by
    apply BitVec.eq_of_toNat_eq
    have := hr.maxVal
    rw [hcv, hvs] at this
    omega
  obtain ⟨ret, _, g2, _⟩ := generate_any pg hbin P.rows hcw
  refine ova_predict_same (n := n) (y := fun i r => if h : i < vs.length then num (enc (lab i h r)) else none) hmaxeq ?_ pg ?_ ?_ ?_
  · show m'.filters.length = _
    rw [← hfs, hr.filters.length_eq]
  · intro ret' h
    obtain ⟨ret, g1, g2, _⟩ := generate_any pg hbin P.rows hcw
    rw [g1, Res.ok.injEq] at h
    rw [← h]
    exact g2.rows
  · intro i hi
    have hi : i < vs.length := by omega
    have hfi := f4 i hi
    have hci : fit.classifiers[i]? = some ((q i hi).predict val enc srt pg order) := by
      rw [hmod, List.getElem?_map, h1 i hi]
      rfl
    have key : ∃ d a, svcPredict val enc srt pg
        (order (Grid.newFiltered what ((⟨ovaAttrs fresh g.allAttributes c, c, BitVec.ofNat 64 i⟩ : OvaFilter).filter (ord i)))) (lm i hi)
        (Grid.newFiltered what ((⟨ovaAttrs fresh g.allAttributes c, c, BitVec.ofNat 64 i⟩ : OvaFilter).filter (ord i))) = Res.ok d ∧
        PredVec d n a ∧ ∀ r, r < n → d.get ⟨some 0, 0, a⟩ r = Res.ok (packU64 (enc (lab i hi r))) := by
      rcases hold with ⟨w1, w2, w3⟩ | w
      · rw [← w1]
        exact marked_predict hsrt P T hd w2 (w1 ▸ hcin) hcb w3 (hord i) i (ho _) hfs1 hfs2 (fun r _ => h4 i hi r)
      · obtain ⟨d, d1, d2, d3⟩ := passed_predict (enc := enc) (pg := pg) hsrt P T (f := ⟨ovaAttrs fresh g.allAttributes c, c, BitVec.ofNat 64 i⟩) (hord i)
          (by
            intro a ha
            simp only [ovaAttrs_eq fresh hgd hcin, List.map_map, List.mem_map, Function.comp, not_exists, not_and]
            rintro x hx rfl
            exact w _ ha hx)
          (by rw [Attr.isFloat, hcb]) (ho _) hcw hcwin hbin hfs1 hfs2 (fun r _ => h4 i hi r)
        exact ⟨d, cw, d1, d2, d3⟩
    obtain ⟨d, a, d1, d2, d3⟩ := key
    refine ⟨_, ask_predVec hsrt hfi hci (d := d) (a := a) ?_ d2, fun r hr => ⟨_, d3 r hr, by simp only [dif_pos hi]⟩⟩
    unfold SvcModel.predict
    rw [h3 i hi]
    simp only
    rw [d1, Res.map_ok]
  · intro i hi
    have hi : i < vs.length := by
      have : (m'.model fun q => q.predict val enc srt pg order').maxVal = m'.maxVal := rfl
      rw [this, hmaxeq] at hi
      omega
    have hi2 : i < m'.filters.length := by rw [← hr.filters.length_eq, hfs, f1]; exact hi
    have hi3 : i < m'.models.length := by rw [hr.models.1, hlenM]; exact hi
    obtain ⟨p, p1, _, solver', l, l', p3, p4, p5⟩ := hr.models.2 i _ (List.getElem?_eq_getElem hi3)
    rw [h1 i hi, Option.some.injEq] at p1
    rw [← p1, h3 i hi, Option.some.injEq, Prod.mk.injEq] at p3
    have hsame := (List.forall₂_iff_get.1 hr.filters).2 i (by rw [hr.filters.length_eq]; exact hi2) hi2
    simp only [List.get_eq_getElem] at hsame
    have hff : m.filters[i]'(by rw [hr.filters.length_eq]; exact hi2) = ⟨ovaAttrs fresh g.allAttributes c, c, BitVec.ofNat 64 i⟩ := by
      have := f4 i hi
      rw [← hfs, List.getElem?_eq_getElem (by rw [hr.filters.length_eq]; exact hi2), Option.some.injEq] at this
      exact this
    have hmem : m'.filters[i] ∈ m'.filters := List.getElem_mem hi2
    obtain ⟨d, d1, d2, d3⟩ := passed_predict (val := val) (enc := enc) (pg := pg) (m := l') (n := n) (lab := lab i hi) (order := order' (Grid.newFiltered what
        (m'.filters[i].filter (ord' i)))) hsrt P T (f := m'.filters[i]) (hord' i)
      (by
        intro a ha hk
        obtain ⟨pr, hp1, rfl⟩ := List.mem_map.1 hk
        exact hnew _ ha ((hr.known _ hmem).2 pr hp1))
      (by rw [Attr.isFloat, hsame.cls, hff]; simp only [hcb]) (ho' _) hcw hcwin hbin hfs1 hfs2
      (fun r _ => by rw [libPredict_same p5, ← p3.2]; exact h4 i hi r)
    refine ⟨_, ask_predVec hsrt (f := m'.filters[i]) (List.getElem?_eq_getElem hi2) (c := m'.models[i].predict val enc srt pg order') ?_ (d := d) (a := cw) ?_ d2,
      fun r hr => ⟨_, d3 r hr, by simp only [dif_pos hi]⟩⟩
    · show (m'.models.map fun q => q.predict val enc srt pg order')[i]? = _
      rw [List.getElem?_map, List.getElem?_eq_getElem hi3]
      rfl
    · unfold SvcModel.predict
      rw [p4]
      simp only
      rw [d1, Res.map_ok]

end

/-! ## What cannot be saved -/

section
variable {K : Type} [Field K] [LinearOrder K]

/-- Saving a linear support vector machine that was not trained follows a nil pointer, if the parameters can be written. -/
theorem C103_untrained (E : SvcEnv K) (m : SvcModel K) (hm : m.model = none) (hp : ∀ p, m.params = some p → E.KeepsParams p) :
    saveSvcFile E m = Res.panic := by
  obtain ⟨j, j1, _⟩ := params_roundtrip E m.params hp
  unfold saveSvcFile svcMetadata saveSvc
  simp only [j1, Res.bind_ok, hm]
  rfl

/-- A bagged model of one-vs-all models cannot be saved: saving the first one closes the file. The same goes for linear support vector
machines for several classes. -/
theorem C103_bagged {M : Type} (G : GridEnv) (nilVals : Bool) (ord : OvaFilter → GoMap Attr Attr) (features : U64) (fitOn : Dense)
    (sel : GoMap Nat (List Attr)) (w w' : Writer) (pre : String) :
    (∀ (save : M → Writer → String → Res Writer) (ms : List (SavedOva M)), ms ≠ [] →
      saveBag G nilVals (saveOva G nilVals ord save) features ms fitOn sel w pre ≠ Res.ok w') ∧
    ∀ (E : SvcEnv K) (ms : List (MultiSvc K)), ms ≠ [] → saveBag G nilVals (saveMulti G nilVals ord E) features ms fitOn sel w pre ≠ Res.ok w' := by
  have closes : ∀ {M : Type} (save : M → Writer → String → Res Writer) (m : SavedOva M) w pre w',
      saveOva G nilVals ord save m w pre = Res.ok w' → w'.closed = true := by
    intro M save m w pre w' h
    unfold saveOva at h
    obtain ⟨_, _, h⟩ := Res.bind_eq_ok.1 h
    obtain ⟨_, _, h⟩ := Res.bind_eq_ok.1 h
    obtain ⟨_, _, h⟩ := Res.bind_eq_ok.1 h
    obtain ⟨_, _, h⟩ := Res.bind_eq_ok.1 h
    obtain ⟨_, _, h⟩ := Res.bind_eq_ok.1 h
    unfold Writer.close at h
    split at h
    · cases h
    · rw [Res.ok.injEq] at h
      rw [← h]
  refine ⟨fun save ms hm => C102_closing_never_saved _ (closes save) G nilVals features ms hm fitOn sel w w' pre, fun E ms hm =>
    C102_closing_never_saved _ (fun m w pre w' h => ?_) G nilVals features ms hm fitOn sel w w' pre⟩
  unfold saveMulti at h
  obtain ⟨_, _, h⟩ := Res.bind_eq_ok.1 h
  obtain ⟨_, _, h⟩ := Res.bind_eq_ok.1 h
  obtain ⟨_, _, h⟩ := Res.bind_eq_ok.1 h
  obtain ⟨_, _, h⟩ := Res.bind_eq_ok.1 h
  exact closes _ _ _ _ _ h
end

/-! ## Examples -/

section Examples

private def tokCode : LTok Rat → List Nat ⊕ (Int ⊕ Rat)
  | .word s => .inl (s.toList.map Char.toNat)
  | .int i => .inr (.inl i)
  | .num x => .inr (.inr x)

/-- The texts of models can be written as bytes and read again. -/
theorem codec_exists : ∃ (text : List (LTok Rat) → Bytes) (parse : Bytes → Res (List (LTok Rat))), ∀ ts, parse (text ts) = Res.ok ts := by
  have h1 : Function.Injective tokCode := by
    intro a b h
    cases a <;> cases b <;> simp only [tokCode, Sum.inl.injEq, Sum.inr.injEq, reduceCtorEq] at h
    · rw [String.toList_inj.1 ((List.map_injective_iff.2 fun c d h => Char.toNat_inj.1 h) h)]
    · rw [h]
    · rw [h]
  have : Countable (LTok Rat) := h1.countable
  obtain ⟨f, hf⟩ := Countable.exists_injective_nat (List (LTok Rat))
  refine ⟨fun ts => List.replicate (f ts) 0#8, fun b => Res.ok (Function.invFun f b.length), fun ts => ?_⟩
  show Res.ok (Function.invFun f (List.replicate (f ts) 0#8).length) = _
  rw [List.length_replicate, Function.leftInverse_invFun hf ts]

/-- The `float64` 0.30000000000000004 and 0.3. -/
private def wA : Rat := 5404319552844596 / 2 ^ 54
private def wB : Rat := 5404319552844595 / 2 ^ 54

/-- Reading 16 digits: 0.30000000000000004 is printed as 0.3, and the other numbers in the model are read as they were. -/
private def rnd16 (x : Rat) : Rat := if x = wA then wB else x

example : |wA - 3 / 10| < 1 / 2 * (1 / 10) ^ 16 ∧ ∀ x, |rnd16 x - x| < (1 / 10) ^ 16 := by
  refine ⟨by norm_num [wA, abs_lt], fun x => ?_⟩
  unfold rnd16
  split
  · next h => rw [h]; norm_num [wA, wB, abs_lt]
  · norm_num

private def numQ (x : Rat) : U64 := BitVec.ofNat 64 x.num.toNat
private def valQ (u : U64) : Rat := u.toNat
private def params0 : SvcParams Rat := ⟨1, none, 1, 0, false, true⟩

private theorem params0_kept (E : SvcEnv Rat) (h1 : E.num = numQ) (h2 : E.val = valQ) (h3 : E.fin = fun _ => true) : E.KeepsParams params0 := by
  refine ⟨⟨?_, ?_⟩, ⟨?_, ?_⟩, ?_⟩
  · rw [h1, h2]; decide +kernel
  · rw [h3]
  · rw [h1, h2]; decide +kernel
  · rw [h3]
  · intro ws h; cases h

/-- Two features, labels 1 and 0. -/
private def lm0 (w0 w1 : Rat) : LModel Rat := ⟨2, 2, fun k => if k = 0 then w0 else w1, [1, 0], -1⟩

/-- The full property: a trained linear support vector machine that was saved and loaded decides about every row as before. -/
def LoadedSvcPredictsSame : Prop :=
  ∀ (E : SvcEnv Rat) (m : SvcModel Rat) (solver : Nat) (lm lm' : LModel Rat) (ar : Archive) (params : Option (SvcParams Rat)),
    E.Ok → (∀ x, |E.rnd x - x| < (1 / 10) ^ 16) → m.Written E solver lm → saveSvcFile E m = Res.ok ar →
    loadSvcFile E ar = Res.ok ⟨params, some (solver, lm')⟩ → ∀ x, libPredict lm' x = libPredict lm x

/-- It is false of the code: 16 digits are not enough to tell `float64` numbers apart. With weights 0.30000000000000004 and -0.3 the row
(1, 1) is positive; the weights that are loaded are 0.3 and -0.3, and the row is not. -/
theorem C103_rounding_refuted : ¬ LoadedSvcPredictsSame := by
  intro H
  obtain ⟨text, parse, hc⟩ := codec_exists
  obtain ⟨E, hE⟩ : ∃ E : SvcEnv Rat, E = ⟨numQ, valQ, fun _ => true, text, parse, rnd16⟩ := ⟨_, rfl⟩
  have hok : E.Ok := by rw [hE]; exact hc
  have hw : (⟨some params0, some (1, lm0 wA (-wB))⟩ : SvcModel Rat).Written E 1 (lm0 wA (-wB)) := by
    refine ⟨rfl, ⟨"L2R_L2LOSS_SVC_DUAL", by decide, by decide⟩, rfl, ?_, ?_⟩
    · intro p hp
      rw [← Option.some.inj hp]
      exact params0_kept E (by rw [hE]) (by rw [hE]) (by rw [hE])
    · rw [hE]; show rnd16 (-1) = -1; decide +kernel
  obtain ⟨ar, lm', s1, s2, l1, l2, l3, l4, l5⟩ := C103_svc_file E hok _ 1 (lm0 wA (-wB)) hw
  have hsame : (lm0 wB (-wB)).Same lm' := by
    refine ⟨l1, l2, l3, l4, fun k hk => ?_⟩
    rw [l5 k hk, hE]
    have hk : k < 2 := hk
    match k, hk with
    | 0, _ => show rnd16 wA = wB; decide +kernel
    | 1, _ => show rnd16 (-wB) = -wB; decide +kernel
  have h1 := H E _ 1 (lm0 wA (-wB)) lm' ar _ hok (by
    intro x
    rw [hE]
    show |rnd16 x - x| < _
    unfold rnd16
    split
    · next h => rw [h]; norm_num [wA, wB, abs_lt]
    · norm_num) hw s1 s2 [1, 1]
  rw [libPredict_same hsame] at h1
  exact absurd h1 (by decide +kernel)

/-! A one-vs-all model for two classes. -/

private def fo0 : FloatOps := ⟨fun _ _ => "", fun _ _ => false⟩
private def aX : Attr := ⟨1, .float "x" 2⟩
private def aC : Attr := ⟨2, .cat "c" ["a", "b"]⟩
private def opsT : List Op := [.add aX, .add aC, .addClass aC, .extend 2, .set 0 0 (packU64 1), .set 0 1 (packU64 9), .set 1 1 (packU64 1)]
private def tr0 : Dense :=
  match run 4096 opsT with
  | .ok st => st.d
  | _ => Dense.new
private def G0 : GridEnv := ⟨id, Grid.allClassAttributes,
  fun g => attrDifferenceRefs g.allAttributes g.allClassAttributes, 4096, fun i => 1000 + i, fun _ w => w⟩

private theorem hG0 : G0.Ok :=
  ⟨⟨List.range, fun _ => List.Perm.refl _, fun l => (filterMap_range l).symm⟩, fun _ => List.Perm.refl _, fun _ => List.Perm.refl _⟩

private theorem run0 : ∃ st, run 4096 opsT = Res.ok st ∧ st.d = tr0 := by
  have h : ((run 4096 opsT).map fun _ => true) = Res.ok true := by decide +kernel
  obtain ⟨st, h1, _⟩ := Res.map_eq_ok.1 h
  exact ⟨st, h1, by rw [tr0, h1]⟩

private theorem denseOK0 : DenseOK 2 tr0 := by
  obtain ⟨st, h1, h2⟩ := run0
  exact h2 ▸ denseOK_run (ops := opsT) (by decide) h1 (by decide)

private theorem kept0 : GridKept true id (.dense tr0) 2 := by
  have D := denseOK0
  have ha : (Grid.dense tr0).allAttributes = [aX, aC] := by decide +kernel
  have hc : (Grid.dense tr0).allClassAttributes = [aC] := by decide +kernel
  exact ⟨D.presents, D.1, D.typed, by decide +kernel, by rw [ha]; decide, by decide, by rw [ha, hc]; decide, by rw [hc]; decide,
    by rw [ha]; simp [AttrKept, aX, aC]⟩

/-- One feature; the label 1 for large values, and the label 0 for large values. -/
private def svcs : List (SvcModel Rat) :=
  [⟨some params0, some (1, ⟨1, 2, fun _ => 1, [1, 0], -1⟩)⟩, ⟨some params0, some (1, ⟨1, 2, fun _ => 1, [0, 1], -1⟩)⟩]
private def order0 : Grid → List Nat
  | .dense d => List.range d.maxRow
  | .view src _ rows _ mask => if mask then (rows.getD []).map Prod.fst else order0 src
  | .filt _ src _ _ => order0 src
private def train0 (s : String) (_ : Option Grid) : Res (Grid → Res Grid) :=
  Res.ok ((svcs.getD (if s = "a" then 0 else 1) ⟨none, none⟩).predict valQ (fun i => BitVec.ofInt 64 i) id 4096 order0)

private theorem order0_ok : ∀ v : Grid, v.RowOrder (order0 v)
  | .dense _ => rfl
  | .view src _ rows _ mask => by
    cases mask
    · exact order0_ok src
    · exact List.Perm.refl _
  | .filt _ src _ _ => order0_ok src

/-- The hypotheses hold for a trained model for two classes, and the loaded model predicts the same for the training data, if its
attributes are not at the addresses of the new ones. -/
example : ∃ (E : SvcEnv Rat) (fit : OneVsAll) (copy : Dense) (m : MultiSvc Rat), E.Ok ∧
    OneVsAll.fit train0 (fun _ => 50) (fun _ l => l) (.dense tr0) = Res.ok fit ∧
    fit.classifiers = m.ova.models.map (fun q => q.predict valQ (fun i => BitVec.ofInt 64 i) id 4096 order0) ∧
    m.ova = ⟨fit.filters, svcs, fit.classValues, copy⟩ ∧ m.Kept true id E ∧
    ∃ ar m', saveMultiFile G0 true OvaFilter.attrs E m = Res.ok ar ∧
      loadMultiFile G0 id E none (fun i j => 2000 + 10 * i + j) (fun _ => 60) (fun _ l => l) ar = Res.ok m' ∧
      m'.params = m.params ∧ m'.weights = m.weights ∧ m.ova.Restored m.ova.SameAt m'.ova ∧
      ((∀ a ∈ tr0.allAttributes, a ∉ m'.ova.fitOn.allAttributes) →
        (m'.ova.model fun q => q.predict valQ (fun i => BitVec.ofInt 64 i) id 4096 order0).predict (fun u => some (valQ u)) 4096 id
          (fun _ l => l) (.dense tr0) = fit.predict (fun u => some (valQ u)) 4096 id (fun _ l => l) (.dense tr0)) := by
  obtain ⟨text, parse, hc⟩ := codec_exists
  have hok : (⟨numQ, valQ, fun _ => true, text, parse, id⟩ : SvcEnv Rat).Ok := hc
  have hfit : ∃ fit, OneVsAll.fit train0 (fun _ => 50) (fun _ l => l) (.dense tr0) = Res.ok fit ∧
      fit.classifiers = svcs.map fun q => q.predict valQ (fun i => BitVec.ofInt 64 i) id 4096 order0 := by
    have hcl : (Grid.dense tr0).allClassAttributes = [aC] := by decide +kernel
    have hhi : ovaHighest ["a", "b"] ["a", "b"] 0#64 = Res.ok 1#64 := by decide +kernel
    unfold OneVsAll.fit
    rw [hcl]
    simp only [aC]
    rw [hhi]
    exact ⟨_, rfl, rfl⟩
  obtain ⟨fit, f1, f2⟩ := hfit
  have hcl : (Grid.dense tr0).allClassAttributes = [aC] := by decide +kernel
  obtain ⟨copy, s1, s2, _, h2⟩ := C103_trained (M := SvcModel Rat) true id rfl train0 (fun _ => 50) (fun _ l => l) (.dense tr0) 2 kept0
    aC "c" ["a", "b"] hcl rfl (by decide) (by decide) fit f1 4096
  have hk : (⟨some params0, some [("a", 1), ("b", 2)], ⟨fit.filters, svcs, fit.classValues, copy⟩⟩ : MultiSvc Rat).Kept true id
      ⟨numQ, valQ, fun _ => true, text, parse, id⟩ := by
    refine ⟨⟨params0, rfl, params0_kept _ rfl rfl rfl⟩, ?_, h2 svcs (by rw [f2, List.length_map]), ?_⟩
    · intro l hl
      rw [← Option.some.inj hl]
      refine ⟨by decide, ?_⟩
      intro p hp
      simp only [List.mem_cons, List.not_mem_nil, or_false] at hp
      rcases hp with rfl | rfl
      · exact ⟨by show valQ (numQ 1) = 1; decide +kernel, rfl⟩
      · exact ⟨by show valQ (numQ 2) = 2; decide +kernel, rfl⟩
    · intro q hq
      simp only [svcs, List.mem_cons, List.not_mem_nil, or_false] at hq
      rcases hq with rfl | rfl
      · exact ⟨1, _, ⟨rfl, ⟨"L2R_L2LOSS_SVC_DUAL", by decide, by decide⟩, rfl, by
          intro p hp; rw [← Option.some.inj hp]; exact params0_kept _ rfl rfl rfl, rfl⟩, fun _ _ => rfl⟩
      · exact ⟨1, _, ⟨rfl, ⟨"L2R_L2LOSS_SVC_DUAL", by decide, by decide⟩, rfl, by
          intro p hp; rw [← Option.some.inj hp]; exact params0_kept _ rfl rfl rfl, rfl⟩, fun _ _ => rfl⟩
  obtain ⟨ar, m', r1, r2, r3, r4, r5⟩ := C103_multi_partial G0 hG0 true id OvaFilter.attrs (fun _ => List.Perm.refl _) _ hok (fun i j => 2000 + 10 * i + j)
    (fun _ => 60) (fun _ l => l) _ hk
  refine ⟨_, fit, copy, _, hok, f1, f2, rfl, hk, ar, m', r1, r2, r3, r4, r5, fun hnew => ?_⟩
  have D := denseOK0
  exact C103_predicts_same_partial _ valQ _ id hG0.1 4096 order0 order0 order0_ok order0_ok train0 (fun _ => 50) (fun _ l => l) _ _
    (fun _ l => List.Perm.refl l) (fun _ l => List.Perm.refl l) (.dense tr0) D.1 aC "c" ["a", "b"] hcl (by decide +kernel) rfl (by decide)
    (by decide) fit f1 ⟨fit.filters, svcs, fit.classValues, copy⟩ rfl rfl f2 (by
      intro q hq solver lm hlm
      simp only [svcs, List.mem_cons, List.not_mem_nil, or_false] at hq
      rcases hq with rfl | rfl <;> obtain ⟨_, rfl⟩ := hlm <;> exact ⟨rfl, by decide⟩)
    m'.ova r5 (.dense tr0) 2 D.presents D.typed D.1 aC hcl (by decide +kernel) rfl (.inl ⟨rfl, hcl, by
      have ha : (Grid.dense tr0).allAttributes = [aX, aC] := by decide +kernel
      intro a h pr
      rw [ha] at h
      simp only [List.mem_cons, List.not_mem_nil, or_false] at h
      rcases h with rfl | rfl
      · exact fun e => absurd (AttrBody.float.inj e).1 (by decide)
      · exact AttrBody.noConfusion⟩) hnew

/-! A one-vs-all model whose class attribute got another value after the training. -/

private def aG : Attr := ⟨2, .cat "c" ["a", "b", "z"]⟩
private def grown (n : Nat) : Dense :=
  match run 4096 [.add aX, .add aG, .addClass aG, .extend n] with
  | .ok st => st.d
  | _ => Dense.new
private def ovaG : SavedOva Unit := ⟨[⟨[(aX, aX), (aG, ⟨50, .float "c" 2⟩)], aG, 0#64⟩, ⟨[(aX, aX), (aG, ⟨51, .float "c" 2⟩)], aG, 1#64⟩],
  [(), ()], ["a", "b"], grown 0⟩
private def predU (_ : Unit) (g : Grid) : Res Grid := (generatePredictionVector 4096 g).map Grid.dense
private def loadedG : Res (LoadedOva Unit) :=
  (saveOvaFile G0 true OvaFilter.attrs (fun _ w _ => Res.ok w) ovaG).bind fun ar =>
    loadOvaFile G0 id (fun _ => Res.ok ()) (fun _ _ _ => Res.ok ()) (fun i j => 2000 + 10 * i + j) (fun _ => 60) (fun _ l => l) ar

/-- Training makes a classifier for each class value. If the class attribute gets another value later (reading more data does that), the
model works as before, and can be saved and loaded; but the loaded model has a highest class value beyond its classifiers, and every
prediction panics. -/
theorem C103_grown :
    (((⟨ovaG.filters, ovaG.models.map predU, 1#64, ovaG.classValues⟩ : OneVsAll).predict (K := Rat) (fun u => some (valQ u)) 4096 id
      (fun _ l => l) (.dense (grown 2))).map fun _ => true) = Res.ok true ∧
    (loadedG.bind fun m => (((m.model predU).predict (K := Rat) (fun u => some (valQ u)) 4096 id (fun _ l => l) (.dense (grown 2))).map
      fun _ => true)) = Res.panic ∧
    (loadedG.map fun m => (m.maxVal, m.filters.length, m.models.length)) = Res.ok (2#64, 2, 2) := by
  refine ⟨?_, ?_, ?_⟩ <;> decide +kernel

end Examples

end Golearn
