import Verif.Spec.Load
import Verif.Proofs.Save
import Verif.Model.SaveSvc
import Verif.Model.SaveNB
import Verif.Model.SaveKnn

/-! # C126: loading files with unexpected content -/

namespace Golearn

theorem jsonStringField_calm (j : Json) (k : String) : jsonStringField j k ≠ Res.panic := by
  unfold jsonStringField
  split <;> simp

theorem bind_calm {α β : Type} {r : Res α} {f : α → Res β} (h : r ≠ Res.panic) (hf : ∀ a, r = Res.ok a → f a ≠ Res.panic) :
    r.bind f ≠ Res.panic := by
  cases r with
  | ok a => exact hf a rfl
  | err => simp [Res.bind]
  | panic => exact absurd rfl h

theorem map_calm {α β : Type} {r : Res α} {f : α → β} (h : r ≠ Res.panic) : r.map f ≠ Res.panic := by
  cases r with
  | ok a => simp [Res.map]
  | err => simp [Res.map]
  | panic => exact absurd rfl h

theorem mapRes_calm {α β : Type} {f : α → Res β} (l : List α) (h : ∀ a ∈ l, f a ≠ Res.panic) : mapRes f l ≠ Res.panic := by
  induction l with
  | nil => simp [mapRes]
  | cons a l ih =>
    rw [mapRes]
    exact bind_calm (h a (by simp)) fun b _ => map_calm (ih fun x hx => h x (by simp [hx]))

theorem jsonStrings_panic (l : List Json) : jsonStrings l = Res.panic ↔ ¬ ∀ x ∈ l, ∃ s, x = .str s := by
  induction l with
  | nil => simp [jsonStrings]
  | cons x l ih =>
    cases x with
    | str s =>
      rw [jsonStrings]
      constructor
      · intro h H
        refine map_calm ?_ h
        rw [ne_eq, ih]
        exact fun h' => h' fun x hx => H x (by simp [hx])
      · intro h
        have : jsonStrings l = Res.panic := ih.2 fun H => h fun x hx => by
          rcases List.mem_cons.1 hx with rfl | hx
          · exact ⟨s, rfl⟩
          · exact H x hx
        rw [this]; rfl
    | _ => simp [jsonStrings]

theorem jsonStringField_ok {j : Json} {k s : String} (h : jsonStringField j k = Res.ok s) (hs : s ≠ "") : j.field k = some (.str s) := by
  unfold jsonStringField at h
  split at h
  · exact absurd (Res.ok.inj h).symm hs
  · exact absurd (Res.ok.inj h).symm hs
  · next e => rw [e, Res.ok.inj h]
  · cases h

/-- Reading an attribute from any JSON document whatever: if no details are of the wrong kind, the result is an attribute or an
error. -/
theorem C126_attribute_partial (viaFloat : Int → Int) (j : Json) (h : j.AttrDetailsOk) : deserializeAttr viaFloat j ≠ Res.panic := by
  unfold deserializeAttr
  split
  · next l =>
    refine bind_calm (jsonStringField_calm _ _) fun ty hty => bind_calm (jsonStringField_calm _ _) fun name _ => ?_
    split
    · simp
    split
    · next e =>
      subst e
      split
      · simp
      · next a ha =>
        split
        · simp
        · simp
        · next p hn1 hn2 hp =>
          rcases h.1 (jsonStringField_ok hty (by decide)) a p ha hp with ⟨n, rfl⟩ | ⟨u, rfl⟩
          · exact absurd rfl (hn1 n)
          · exact absurd rfl (hn2 u)
        · simp
    split
    · next e =>
      subst e
      have h2 := h.2 (jsonStringField_ok hty (by decide))
      split
      · simp
      · next a ha =>
        obtain ⟨v, hv, l', rfl, hl⟩ := h2 _ ha (Or.inr ⟨a, rfl⟩)
        rw [hv]
        refine map_calm fun hp => ?_
        exact (jsonStrings_panic l').1 hp hl
      · next ha =>
        obtain ⟨v, hv, _⟩ := h2 _ ha (Or.inl rfl)
        cases hv
      · simp
    · simp
  · simp
  · simp

/-- Otherwise, if the document has a name, it panics. -/
theorem C126_attribute_panics (viaFloat : Int → Int) (j : Json) (nm : String) (hn : j.field "name" = some (.str nm))
    (h : ¬ j.AttrDetailsOk) : deserializeAttr viaFloat j = Res.panic := by
  have hname : jsonStringField j "name" = Res.ok nm := by unfold jsonStringField; rw [hn]
  cases j with
  | obj l =>
    rw [Json.AttrDetailsOk, not_and_or] at h
    rcases h with h | h
    · push_neg at h
      obtain ⟨hty, d, p, hd, hp, hnum⟩ := h
      have hty' : jsonStringField (.obj l) "type" = Res.ok "float" := by unfold jsonStringField; rw [hty]
      unfold deserializeAttr
      simp only [hty', hname, Res.bind_ok, hd, hp, if_neg (show ¬ "float" = "binary" by decide), if_true]
      cases p with
      | num n => exact absurd (Or.inl ⟨n, rfl⟩) hnum
      | flt u => exact absurd (Or.inr ⟨u, rfl⟩) hnum
      | _ => rfl
    · push_neg at h
      obtain ⟨hty, d, hd, hk, hv⟩ := h
      have hty' : jsonStringField (.obj l) "type" = Res.ok "categorical" := by unfold jsonStringField; rw [hty]
      unfold deserializeAttr
      simp only [hty', hname, Res.bind_ok, hd, if_neg (show ¬ "categorical" = "binary" by decide),
        if_neg (show ¬ "categorical" = "float" by decide), if_true]
      rcases hk with rfl | ⟨a, rfl⟩
      · rfl
      · simp only
        cases hf : (Json.obj a).field "values" with
        | none => rfl
        | some v =>
          cases v with
          | arr l' =>
            have := hv _ hf
            simp only
            rw [(jsonStrings_panic l').2 fun H => this ⟨l', rfl, H⟩]
            rfl
          | _ => rfl
  | _ => cases hn

theorem splitValOf_calm {L : LoadEnv} {o : Option Json} (h : ∀ v, o = some v → v.IsNumber) : splitValOf L o ≠ Res.panic := by
  cases o with
  | none => simp [splitValOf]
  | some v => rcases h v rfl with ⟨n, rfl⟩ | ⟨u, rfl⟩ <;> simp [splitValOf]

theorem ruleOfJson_calm {L : LoadEnv} {ptr : Nat} {o : Option Json} (h : ∀ r, o = some r → r.RuleOk) : ruleOfJson L ptr o ≠ Res.panic := by
  unfold ruleOfJson
  split
  · simp
  · simp
  · next l =>
    obtain ⟨h1, h2⟩ := h _ rfl
    refine bind_calm (splitValOf_calm h1) fun v _ => ?_
    split
    · simp
    · split <;> simp
    · next a _ ha => exact map_calm (C126_attribute_partial _ a (h2 a ha))
  · simp

theorem distOfJson_calm (o : Option Json) : distOfJson o ≠ Res.panic := by
  unfold distOfJson
  split
  · simp
  · simp
  · refine mapRes_calm _ fun p _ => ?_
    unfold countOfJson
    split
    · split <;> simp
    · simp
  · simp

theorem nodeOf_below {j m n : Json} (h : j.NodeOf m) (hn : m.NodeOf n) : j.NodeOf n := by
  induction hn with
  | root => exact h
  | child _ hc hk ih => exact .child ih hc hk

theorem treeOfJson_calm (L : LoadEnv) (fuel : Nat) : ∀ (path : List String) (j : Json), j.depth < fuel → j.TreeOk →
    treeOfJson L fuel path j ≠ Res.panic := by
  induction fuel with
  | zero => intro _ _ h; omega
  | succ fuel ih =>
    intro path j hd h
    cases j with
    | obj l =>
      rw [treeOfJson]
      refine bind_calm (jsonStringField_calm _ _) fun c _ => bind_calm (distOfJson_calm _) fun d _ =>
        bind_calm (ruleOfJson_calm fun r hr => h _ r .root hr) fun r _ => ?_
      split
      · simp
      · simp
      · next ch hch =>
        refine bind_calm (mapRes_calm _ fun p hp => map_calm (ih _ _ ?_ ?_)) fun ts _ => ?_
        · obtain ⟨q, hq, e⟩ := Option.map_eq_some_iff.1 hch
          have h1 := depth_fields (List.mem_of_find?_eq_some hq)
          have h2 := depth_fields hp
          rw [e] at h1
          rw [Json.depth] at h1 hd
          omega
        · exact fun n r hn hr => h n r (nodeOf_below (.child .root hch hp) hn) hr
        · unfold nodeOf
          split <;> simp
      · simp
    | _ => simp [treeOfJson]

theorem getNamedFile_calm (ar : Archive) (k : String) : getNamedFile ar k ≠ Res.panic := by
  induction ar with
  | nil => simp [getNamedFile]
  | cons p ar ih =>
    rw [getNamedFile]
    split
    · simp
    · exact ih

/-- Loading a tree from any file whatever: if the rules in its document of a tree and the document of its class attribute, should
it have them, are of the right kind, the result is a tree or an error. Missing from the full claim: files where they are not. -/
theorem C126_tree_partial (L : LoadEnv) (ar : Archive) (ht : ∀ j, getNamedFile ar "tree" = Res.ok (.json j) → j.TreeOk)
    (ha : ∀ j, getNamedFile ar "treeClassAttr" = Res.ok (.json j) → j.AttrDetailsOk) : loadTreeFile L ar ≠ Res.panic := by
  unfold loadTreeFile
  refine bind_calm ?_ fun ar' h => ?_
  · unfold readStub
    refine bind_calm (getNamedFile_calm _ _) fun p _ => ?_
    split
    · simp
    · split
      · simp
      · refine bind_calm ?_ fun m _ => ?_
        · unfold readMetadataAt
          refine bind_calm (getNamedFile_calm _ _) fun p _ => ?_
          split <;> simp
        · split <;> simp
  · have e : ar' = ar := by
      unfold readStub at h
      obtain ⟨p, _, h⟩ := Res.bind_eq_ok.1 h
      split at h
      · cases h
      · split at h
        · cases h
        · obtain ⟨m, _, h⟩ := Res.bind_eq_ok.1 h
          split at h
          · exact (Res.ok.inj h).symm
          · cases h
    subst e
    unfold loadTree
    refine bind_calm (getNamedFile_calm _ _) fun p hp => ?_
    split
    · simp
    · next j =>
      refine bind_calm (treeOfJson_calm L _ _ _ (Nat.lt_succ_self _) (ht j hp)) fun t _ => map_calm ?_
      unfold getAttributeForKey
      refine bind_calm (getNamedFile_calm _ _) fun q hq => ?_
      split
      · simp
      · exact C126_attribute_partial _ _ (ha _ hq)

/-- The attributes an ensemble selected are of the right kind: where the document is a map of lists of encoded documents, each of them is a
readable attribute. -/
def SelectedOk (l : List (String × Json)) : Prop :=
  ∀ p ∈ l, ∀ js, p.2 = Json.arr js → ∀ j, Json.base64 j ∈ js → j.AttrDetailsOk

/-- Loading a bagged model or a random forest does not panic because of its map of selected attributes, whatever that is, if the attributes in
it are of the right kind and its other parts do not panic. -/
theorem C126_bag_partial {μ : Type} (G : GridEnv) (viaFloat : Int → Int) (load : Nat → Archive → String → Res μ) (count : Nat) (ar : Archive)
    (pre : String) (hf : getU64ForKey ar (tarPrefix pre "NUM_RANDOM_FEATURES") ≠ Res.panic)
    (hl : ∀ i, i < count → load i ar (bagKey pre i) ≠ Res.panic)
    (hi : getInstancesForKey G viaFloat ar (tarPrefix pre "REFERENCE_INSTANCES") ≠ Res.panic)
    (hs : ∀ l, getNamedFile ar (tarPrefix pre "SELECTED_ATTRIBUTES") = Res.ok (.json (.obj l)) → SelectedOk l) :
    loadBag G viaFloat load count ar pre ≠ Res.panic := by
  unfold loadBag
  refine bind_calm hf fun features _ => bind_calm (mapRes_calm _ fun i h => hl i (List.mem_range.1 h)) fun ms _ => bind_calm hi fun fitOn _ =>
    bind_calm (getNamedFile_calm _ _) fun p hp => ?_
  split
  · next l =>
    refine map_calm (mapRes_calm _ fun q hq => ?_)
    unfold selectedOfJson
    split
    · next k js hk hjs =>
      refine map_calm (mapRes_calm _ fun j hj => ?_)
      unfold selectedAttrOfJson
      split
      · next d =>
        refine bind_calm (C126_attribute_partial viaFloat d (hs l hp q hq js hjs d hj)) fun b _ => ?_
        induction fitOn.allAttributes with
        | nil => simp [replaceAttr]
        | cons a as ih =>
          rw [replaceAttr]
          split
          · simp
          · exact ih
      · simp
    · simp
    · simp
  · simp
  · simp

/-- A map whose keys are not numbers, or whose values are not lists, is an error. -/
theorem C126_selected {μ : Type} (G : GridEnv) (viaFloat : Int → Int) (load : Nat → Archive → String → Res μ) (count : Nat) (ar : Archive)
    (pre : String) (features : U64) (ms : List μ) (fitOn : Dense)
    (hf : getU64ForKey ar (tarPrefix pre "NUM_RANDOM_FEATURES") = Res.ok features)
    (hl : mapRes (fun i => load i ar (bagKey pre i)) (List.range count) = Res.ok ms)
    (hi : getInstancesForKey G viaFloat ar (tarPrefix pre "REFERENCE_INSTANCES") = Res.ok fitOn) (l : List (String × Json))
    (hg : getNamedFile ar (tarPrefix pre "SELECTED_ATTRIBUTES") = Res.ok (.json (.obj l))) (hs : SelectedOk l)
    (hbad : ∃ p ∈ l, (∃ c ∈ p.1.toList, c.isDigit = false) ∨ (p.2 ≠ .null ∧ ∀ js, p.2 ≠ .arr js)) :
    loadBag G viaFloat load count ar pre = Res.err := by
  have hcalm := C126_bag_partial G viaFloat load count ar pre (by rw [hf]; simp)
    (fun i hi' h => by
      have := (mapRes_eq_ok _ _ _).1 hl
      rw [List.forall₂_iff_get] at this
      have h2 := this.2 i (by simpa using hi') (by rw [← this.1]; simpa using hi')
      simp only [List.get_eq_getElem, List.getElem_range, h] at h2
      cases h2)
    (by rw [hi]; simp) (fun l' h => by rw [hg] at h; cases h; exact hs)
  cases hr : loadBag G viaFloat load count ar pre with
  | err => rfl
  | panic => exact absurd hr hcalm
  | ok b =>
    exfalso
    simp only [loadBag, hf, hl, hi, hg, Res.bind_ok, Res.map_eq_ok] at hr
    obtain ⟨sel, hsel, _⟩ := hr
    obtain ⟨p, hp, hb⟩ := hbad
    obtain ⟨i, hi', rfl⟩ := List.getElem_of_mem hp
    have := (mapRes_eq_ok _ _ _).1 hsel
    rw [List.forall₂_iff_get] at this
    have h2 := this.2 i hi' (by rw [← this.1]; exact hi')
    simp only [List.get_eq_getElem] at h2
    unfold selectedOfJson at h2
    rcases hb with ⟨c, hc, hd⟩ | ⟨hb1, hb2⟩
    · have hk : natOfKey l[i].1 = none := by
        unfold natOfKey
        rw [if_neg]
        intro hx
        rw [Bool.and_eq_true, List.all_eq_true] at hx
        rw [hx.1 c hc] at hd
        cases hd
      rw [hk] at h2
      cases h2
    · split at h2
      · next h => exact hb2 _ h
      · next h => exact hb1 h
      · cases h2

/-- A list of attributes that is not a list is an error. -/
theorem C126_attribute_list (viaFloat : Int → Int) (j : Json) (hn : j ≠ .null) (ha : ∀ l, j ≠ .arr l) :
    deserializeAttrs viaFloat j = Res.err := by
  cases j with
  | null => exact absurd rfl hn
  | arr l => exact absurd rfl (ha l)
  | _ => rfl

/-- A naive Bayes file whose class counts or probabilities are not a map is an error, if its other parts can be read. -/
theorem C126_naive_bayes {K : Type} (G : GridEnv) (viaFloat : Int → Int) (val : U64 → K) (ar : Archive) (pre : String) (fitOn : Dense)
    (raw : List AttrBody) (attrs : List Attr) (features rows : U64) (ji jc : Json)
    (h1 : getInstancesForKey G viaFloat ar (tarPrefix pre "INSTANCE_STRUCTURE") = Res.ok fitOn)
    (h2 : getAttributesForKey viaFloat ar (tarPrefix pre "TRAINING_ATTRIBUTES") = Res.ok raw)
    (h3 : replaceAttrs raw fitOn.allAttributes = Res.ok attrs)
    (h4 : getU64ForKey ar (tarPrefix pre "NUM_FEATURES") = Res.ok features)
    (h5 : getU64ForKey ar (tarPrefix pre "NUM_TRAINING_INSTANCES") = Res.ok rows)
    (h6 : getNamedFile ar (tarPrefix pre "CLASS_INSTANCES") = Res.ok (.json ji))
    (h7 : getNamedFile ar (tarPrefix pre "COND_MAP") = Res.ok (.json jc))
    (hbad : (ji ≠ .null ∧ ∀ l, ji ≠ .obj l) ∨ (jc ≠ .null ∧ ∀ l, jc ≠ .obj l)) :
    loadNB G viaFloat val ar pre = Res.err := by
  simp only [loadNB, h1, h2, h3, h4, h5, getJsonForKey, h6, h7, Res.bind_ok]
  cases hd : distOfJson (some ji) with
  | panic => exact absurd hd (distOfJson_calm _)
  | err => rfl
  | ok inst =>
    rw [Res.bind_ok]
    rcases hbad with ⟨hn, ho⟩ | ⟨hn, ho⟩
    · exfalso
      cases ji with
      | null => exact hn rfl
      | obj l => exact ho l rfl
      | _ => cases hd
    · cases jc with
      | null => exact absurd rfl hn
      | obj l => exact absurd rfl (ho l)
      | _ => rfl

/-- What the parameters of a nearest neighbours classifier have to be. -/
def KnnParamsOk (param : String → Option Json) : Prop :=
  (∃ s, param "distance_func" = some (.str s)) ∧ (∃ s, param "algorithm" = some (.str s)) ∧ (∃ b, param "weighted" = some (.bool b)) ∧
    (∃ b, param "allow_optimizations" = some (.bool b)) ∧ ∃ n, param "neighbours" = some (.num n)

/-- A nearest neighbours file with a proper heading panics when a parameter is missing or of another kind; with proper parameters only the
training data could make it panic. -/
theorem C126_knn_panics (G : GridEnv) (viaFloat : Int → Int) (ar : Archive) (pre : String) (j : Json)
    (hm : readMetadataAt ar pre = Res.ok j) (hc : jsonStringField j "classifier" = Res.ok "KNN")
    (hv : jsonStringField j "ClassifierVersion" = Res.ok "1.0") :
    (¬ KnnParamsOk (fun k => (j.field "classifier_metadata").bind fun p => p.field k) → loadKnn G viaFloat ar pre = Res.panic) ∧
    (KnnParamsOk (fun k => (j.field "classifier_metadata").bind fun p => p.field k) →
      (loadKnn G viaFloat ar pre = Res.panic ↔ getInstancesForKey G viaFloat ar (tarPrefix pre "TrainingInstances") = Res.panic)) := by
  simp only [loadKnn, hm, hc, hv, Res.bind_ok, ne_eq, not_true_eq_false, if_false]
  have hs : ∀ o, (∃ s, o = some (Json.str s) ∧ assertString o = Res.ok s) ∨ ((∀ s, o ≠ some (Json.str s)) ∧ assertString o = Res.panic) := by
    intro o
    rcases o with _ | j
    · right; exact ⟨by simp, rfl⟩
    · cases j <;> first | (left; exact ⟨_, rfl, rfl⟩) | (right; exact ⟨by simp, rfl⟩)
  have hb : ∀ o, (∃ s, o = some (Json.bool s) ∧ assertBool o = Res.ok s) ∨ ((∀ s, o ≠ some (Json.bool s)) ∧ assertBool o = Res.panic) := by
    intro o
    rcases o with _ | j
    · right; exact ⟨by simp, rfl⟩
    · cases j <;> first | (left; exact ⟨_, rfl, rfl⟩) | (right; exact ⟨by simp, rfl⟩)
  have hi : ∀ o, (∃ n m, o = some (Json.num n) ∧ assertInt viaFloat o = Res.ok m) ∨
      ((∀ n, o ≠ some (Json.num n)) ∧ assertInt viaFloat o = Res.panic) := by
    intro o
    rcases o with _ | j
    · right; exact ⟨by simp, rfl⟩
    · cases j <;> first | (left; exact ⟨_, _, rfl, rfl⟩) | (right; exact ⟨by simp, rfl⟩)
  unfold KnnParamsOk
  rcases hs ((j.field "classifier_metadata").bind fun p => p.field "distance_func") with ⟨s1, e1, r1⟩ | ⟨n1, r1⟩
  · rcases hs ((j.field "classifier_metadata").bind fun p => p.field "algorithm") with ⟨s2, e2, r2⟩ | ⟨n2, r2⟩
    · rcases hb ((j.field "classifier_metadata").bind fun p => p.field "weighted") with ⟨s3, e3, r3⟩ | ⟨n3, r3⟩
      · rcases hb ((j.field "classifier_metadata").bind fun p => p.field "allow_optimizations") with ⟨s4, e4, r4⟩ | ⟨n4, r4⟩
        · rcases hi ((j.field "classifier_metadata").bind fun p => p.field "neighbours") with ⟨s5, m5, e5, r5⟩ | ⟨n5, r5⟩
          · simp only [r1, r2, r3, r4, r5, Res.bind_ok]
            refine ⟨fun h => absurd ⟨⟨_, e1⟩, ⟨_, e2⟩, ⟨_, e3⟩, ⟨_, e4⟩, ⟨_, e5⟩⟩ h, fun _ => ?_⟩
            cases getInstancesForKey G viaFloat ar (tarPrefix pre "TrainingInstances") <;> simp [Res.map]
          · exact ⟨fun _ => by simp only [r1, r2, r3, r4, r5, Res.bind_ok]; rfl, fun ⟨_, _, _, _, n, h⟩ => absurd h (n5 n)⟩
        · exact ⟨fun _ => by simp only [r1, r2, r3, r4, Res.bind_ok]; rfl, fun ⟨_, _, _, ⟨n, h⟩, _⟩ => absurd h (n4 n)⟩
      · exact ⟨fun _ => by simp only [r1, r2, r3, Res.bind_ok]; rfl, fun ⟨_, _, ⟨n, h⟩, _⟩ => absurd h (n3 n)⟩
    · exact ⟨fun _ => by simp only [r1, r2, Res.bind_ok]; rfl, fun ⟨_, ⟨n, h⟩, _⟩ => absurd h (n2 n)⟩
  · exact ⟨fun _ => by simp only [r1]; rfl, fun ⟨⟨n, h⟩, _⟩ => absurd h (n1 n)⟩

/-- A rule whose threshold is given but is not a number panics. -/
theorem C126_threshold_panics (L : LoadEnv) (ptr : Nat) (l : List (String × Json)) (v : Json)
    (hv : (Json.obj l).field "split_val" = some v) (hn : ¬ v.IsNumber) : ruleOfJson L ptr (some (.obj l)) = Res.panic := by
  rw [ruleOfJson, hv]
  cases v with
  | num n => exact absurd (Or.inl ⟨n, rfl⟩) hn
  | flt u => exact absurd (Or.inr ⟨u, rfl⟩) hn
  | _ => rfl

/-- Loading a one-vs-all model whose structure and filters can be read, but whose class values are anything but a list of strings (and
null values): an error. -/
theorem C126_class_values {μ : Type} (G : GridEnv) (viaFloat : Int → Int) (mk : String → Res Unit)
    (load : String → Archive → String → Res μ) (fresh : Nat → Nat → Nat) (freshF : Attr → Nat) (ordF : Nat → List FAttr → List FAttr)
    (ar : Archive) (pre : String) (d : Dense) (fitted : OneVsAll) (copy : Dense × List Spec × List Spec) (count : U64) (filters : List OvaFilter) (j : Json)
    (h1 : getInstancesForKey G viaFloat ar (tarPrefix pre "INSTANCE_STRUCTURE") = Res.ok d)
    (h2 : OneVsAll.fit (fun s _ => (mk s).map fun _ _ => Res.panic) freshF ordF (.dense d) = Res.ok fitted)
    (h3 : copyStructure G.pg (.dense d) (G.cls (.dense d)) = Res.ok copy)
    (h4 : getU64ForKey ar (tarPrefix pre "FILTER_COUNT") = Res.ok count)
    (h5 : mapRes (fun i => loadOvaFilter viaFloat (fresh i) copy.1 ar (ovaFilterKey pre i)) (List.range count.toNat) = Res.ok filters)
    (h6 : getNamedFile ar (tarPrefix pre "CLASS_VALUES") = Res.ok (.json j)) (hn : j ≠ .null)
    (hj : ¬ ∃ l : List Json, j = .arr l ∧ ∀ x ∈ l, x = .null ∨ ∃ s, x = .str s) :
    loadOva G viaFloat mk load fresh freshF ordF ar pre = Res.err := by
  have h7 : getJsonForKey ar (tarPrefix pre "CLASS_VALUES") = Res.ok j := by unfold getJsonForKey; rw [h6]; rfl
  have h8 : stringsOfJson j = Res.err := by
    cases j with
    | null => exact absurd rfl hn
    | arr l =>
      rw [stringsOfJson]
      have : ¬ ∀ x ∈ l, x = .null ∨ ∃ s, x = .str s := fun H => hj ⟨l, rfl, H⟩
      clear hj h6 h7 hn
      induction l with
      | nil => exact absurd (fun x hx => by cases hx) this
      | cons x l ih =>
        rw [mapRes]
        have hx : (∀ y ∈ l, y = .null ∨ ∃ s, y = .str s) → ¬ (x = .null ∨ ∃ s, x = .str s) := by
          intro H hx
          refine this fun y hy => ?_
          rcases List.mem_cons.1 hy with rfl | hy
          · exact hx
          · exact H y hy
        by_cases hl : ∀ y ∈ l, y = .null ∨ ∃ s, y = .str s
        · have := hx hl
          cases x with
          | null => exact absurd (Or.inl rfl) this
          | str s => exact absurd (Or.inr ⟨s, rfl⟩) this
          | _ => rfl
        · rw [ih hl]
          cases x <;> rfl
    | _ => rfl
  unfold loadOva
  simp only [h1, h2, h3, h4, h5, h7, h8, Res.bind_ok]
  rfl

/-- The full claim: loading a file never panics. -/
def C126_full : Prop := ∀ L ar, loadTreeFile L ar ≠ Res.panic

private def fileOf (tree cls : Json) : Archive :=
  classifierStub (metadataJson "ID3" "1.0" .null) ++ [("tree", .json tree), ("treeClassAttr", .json cls)]
private def env0 : LoadEnv := ⟨id, fun _ => 0#64, fun _ => 7⟩
private def nodeWith (val : Json) : Json :=
  .obj [("class_string", .str "a"), ("decision_tree_rule", .obj [("split_attribute", .str "unknown"), ("split_val", val)])]
private def clsDoc (vals : Json) : Json :=
  .obj [("type", .str "categorical"), ("name", .str "c"), ("attr", .obj [("values", vals)])]

/-- A threshold that is null crashes the program, and so does a class attribute whose values are null. -/
theorem C126_refuted : ¬ C126_full ∧
    loadTreeFile env0 (fileOf (nodeWith (.num 0)) (clsDoc .null)) = Res.panic := by
  have hp : ∀ r : Res (Tree × AttrBody), (r.map fun p => p.1.cls) = Res.panic → r = Res.panic := by
    intro r h
    cases r with
    | panic => rfl
    | _ => cases h
  exact ⟨fun H => H env0 (fileOf (nodeWith .null) (clsDoc (.arr [.str "a"]))) (hp _ (by decide +kernel)), hp _ (by decide +kernel)⟩

/-- The conditions of `C126_tree_partial` are met by a file with a tree, and by one where the attribute of the rule is a word: the
first loads, the second is an error. -/
example : ((loadTreeFile env0 (fileOf (nodeWith (.num 0)) (clsDoc (.arr [.str "a"])))).map fun p => p.1.cls) = Res.ok "a" ∧
    ((loadTreeFile env0 (fileOf (.obj [("decision_tree_rule", .obj [("split_attribute", .str "width")])])
      (clsDoc (.arr [.str "a"])))).map fun p => p.1.cls) = Res.err := by decide +kernel

/-- They hold for the second. -/
example : (Json.obj [("decision_tree_rule", .obj [("split_attribute", .str "width")])]).TreeOk ∧
    (clsDoc (.arr [.str "a"])).AttrDetailsOk := by
  refine ⟨?_, ?_, ?_⟩
  · intro n r hn hr
    have : n = Json.obj [("decision_tree_rule", .obj [("split_attribute", .str "width")])] := by
      clear hr
      induction hn with
      | root => rfl
      | child _ hc _ ih =>
        rw [ih] at hc
        cases hc
    subst this
    cases hr
    refine ⟨fun v hv => (by cases hv), fun a ha => ?_⟩
    cases ha
    exact ⟨fun h => (by cases h), fun h => (by cases h)⟩
  · intro h
    exact absurd h (by simp [clsDoc, Json.field])
  · intro _ d hd _
    cases hd
    exact ⟨_, rfl, _, rfl, fun x hx => ⟨"a", by simpa using hx⟩⟩

section Bag
private def aX : Attr := ⟨0, .float "x" 2⟩
private def aC : Attr := ⟨1, .cat "c" ["a", "b"]⟩
private def opsS : List Op := [.add aX, .add aC, .addClass aC]
private def dS : Dense :=
  match run 4096 opsS with
  | .ok st => st.d
  | _ => Dense.new
private def G0 : GridEnv := ⟨id, Grid.allClassAttributes, fun g => attrDifferenceRefs g.allAttributes g.allClassAttributes, 4096,
  fun i => 1000 + i, fun _ w => w⟩
/-- The file of an ensemble without members whose map of selected attributes has been replaced. -/
private def bagFile (sel : Json) : Res Archive :=
  (saveBagFile G0 true (fun (_ : Unit) w _ => Res.ok w) 2 [] dS [(0, [aX, aC])]).map fun ar =>
    ar.map fun p => if p.1 = "SELECTED_ATTRIBUTES" then (p.1, .json sel) else p

/-- The conditions of `C126_knn_panics` are met: a heading without parameters, and one with them. -/
example : ∃ j, readMetadataAt (classifierStub (metadataJson "KNN" "1.0" .null)) "" = Res.ok j ∧
    jsonStringField j "classifier" = Res.ok "KNN" ∧ jsonStringField j "ClassifierVersion" = Res.ok "1.0" ∧
    ¬ KnnParamsOk (fun k => (j.field "classifier_metadata").bind fun p => p.field k) := by
  refine ⟨_, rfl, by decide +kernel, by decide +kernel, ?_⟩
  rintro ⟨⟨s, h⟩, _⟩
  have : ((metadataJson "KNN" "1.0" .null).field "classifier_metadata").bind (fun p => p.field "distance_func") = none := by
    simp [metadataJson, Json.field]
  exact absurd (this.symm.trans h) (by simp)

/-- The file of a naive Bayes classifier whose map of probabilities has been replaced. -/
private def nbFile (cond : Json) : Res Archive :=
  (saveNBFile G0 true (fun _ : Nat => 0#64) (fun _ => true) ⟨[("a", [1])], [("a", 2)], 2, 1, [aX]⟩ dS).map fun ar =>
    ar.map fun p => if p.1 = "COND_MAP" then (p.1, .json cond) else p

/-- The conditions of `C126_naive_bayes` are met by this file: everything else in it can be read. With a map it loads, with a number it does
not. -/
example : ((nbFile (.num 3)).bind fun ar => (getInstancesForKey G0 id ar (tarPrefix "" "INSTANCE_STRUCTURE")).bind fun d =>
      (getAttributesForKey id ar (tarPrefix "" "TRAINING_ATTRIBUTES")).bind fun raw => (replaceAttrs raw d.allAttributes).bind fun as =>
      (getU64ForKey ar (tarPrefix "" "NUM_FEATURES")).bind fun n => (getU64ForKey ar (tarPrefix "" "NUM_TRAINING_INSTANCES")).map fun m =>
        (as.length, n, m)) = Res.ok (1, 1, 2) ∧
    ((nbFile (.num 3)).bind fun ar => (loadNBFile G0 id (fun _ => 0) ar).map fun p : NB Nat × Dense => p.1.rows) = Res.err ∧
    ((nbFile (.obj [])).bind fun ar => (loadNBFile G0 id (fun _ => 0) ar).map fun p : NB Nat × Dense => p.1.rows) = Res.ok 2 := by
  refine ⟨?_, ?_, ?_⟩ <;> decide +kernel

/-- The conditions of `C126_bag_partial` and `C126_selected` are met by the file of an ensemble whose map has the key `x`: the other parts load,
and the ensemble does not. With the key `7` it loads. -/
example : ((bagFile (.obj [("x", .arr [])])).bind fun ar => (getU64ForKey ar (tarPrefix "" "NUM_RANDOM_FEATURES")).bind fun n =>
      (getInstancesForKey G0 id ar (tarPrefix "" "REFERENCE_INSTANCES")).map fun d => (n, d.allAttributes.length)) = Res.ok (2, 2) ∧
    ((bagFile (.obj [("x", .arr [])])).bind fun ar =>
      (loadBag G0 id (fun _ _ _ => Res.ok ()) 0 ar "").map fun b => b.selected.length) = Res.err ∧
    ((bagFile (.obj [("7", .arr [])])).bind fun ar =>
      (loadBag G0 id (fun _ _ _ => Res.ok ()) 0 ar "").map fun b => b.selected.length) = Res.ok 1 ∧
    (∃ p ∈ [("x", Json.arr [])], ∃ c ∈ p.1.toList, c.isDigit = false) ∧ SelectedOk [("x", .arr [])] := by
  refine ⟨by decide +kernel, by decide +kernel, by decide +kernel, by decide +kernel, ?_⟩
  intro p hp js h j hj
  simp only [List.mem_singleton] at hp
  subst hp
  cases h
  cases hj
end Bag

end Golearn
