import Verif.Spec.Formats
import Verif.Proofs.SaveBag
import Verif.Proofs.SaveSvc
import Verif.Proofs.SaveNB

/-! # Which entries the files of classifiers have -/

namespace Golearn

/-- A name that begins with one of `T`. -/
def Covered (T : List String) (s : String) : Prop := ∃ t ∈ T, t.toList <+: s.toList

theorem covered_append {T : List String} {s : String} (h : Covered T s) (x : String) : Covered T (s ++ x) := by
  obtain ⟨t, ht, hp⟩ := h
  refine ⟨t, ht, ?_⟩
  rw [String.toList_append]
  exact hp.trans (List.prefix_append _ _)

theorem covered_tar {T : List String} {s : String} (h : Covered T s) (x : String) : Covered T (tarPrefix s x) ∨ s = "" := by
  unfold tarPrefix
  split
  · exact .inr ‹_›
  · exact .inl (covered_append (covered_append h _) _)

/-- `w'` has the entries of `w`, and others with names that begin with one of `T`. -/
def Adds (T : List String) (w w' : Writer) : Prop :=
  ∃ es : Archive, w'.entries = w.entries ++ es ∧ ∀ e ∈ es, Covered T e.1

theorem Adds.refl (T : List String) (w : Writer) : Adds T w w := ⟨[], by simp, by simp⟩

theorem Adds.trans {T : List String} {a b c : Writer} (h : Adds T a b) (h' : Adds T b c) : Adds T a c := by
  obtain ⟨es, h1, h2⟩ := h
  obtain ⟨fs, h3, h4⟩ := h'
  refine ⟨es ++ fs, by rw [h3, h1, List.append_assoc], ?_⟩
  intro e he
  rcases List.mem_append.1 he with h | h
  · exact h2 e h
  · exact h4 e h

theorem adds_write {T : List String} {w w' : Writer} {key : String} {p : Payload} (hk : Covered T key)
    (h : w.write key p = Res.ok w') : Adds T w w' := by
  unfold Writer.write at h
  split at h
  · cases h
  · cases h
    exact ⟨[(key, p)], rfl, by simpa using hk⟩

theorem adds_close {T : List String} {w w' : Writer} (h : w.close = Res.ok w') : Adds T w w' := by
  unfold Writer.close at h
  split at h
  · cases h
  · cases h
    exact ⟨[], by simp, by simp⟩

theorem covered_serialize {T : List String} {srt : List Spec → List Spec} {nilVals : Bool} {cls nrm : List Attr} {order : List Nat}
    {g : Grid} {key : String} {es : Archive} (hk : Covered T key) (h : serializeInstances srt nilVals cls nrm order g key = Res.ok es) :
    ∀ e ∈ es, Covered T e.1 := by
  unfold serializeInstances at h
  split at h
  · cases h
  · obtain ⟨specs, -, h⟩ := Res.bind_eq_ok.1 h
    obtain ⟨data, -, rfl⟩ := Res.map_eq_ok.1 h
    intro e he
    simp only [List.mem_cons, List.not_mem_nil, or_false] at he
    rcases he with rfl | rfl | rfl | rfl | rfl <;> exact covered_append hk _

theorem adds_structure {T : List String} {w w' : Writer} {G : GridEnv} {nilVals : Bool} {key : String} {d : Dense} (hk : Covered T key)
    (h : w.structure G nilVals key d = Res.ok w') : Adds T w w' := by
  unfold Writer.structure at h
  split at h
  · cases h
  · obtain ⟨es, he, rfl⟩ := Res.map_eq_ok.1 h
    exact ⟨es, rfl, covered_serialize hk he⟩

theorem adds_attributes {T : List String} {w w' : Writer} {nilVals : Bool} {key : String} {as : List AttrBody} (hn : key ≠ "")
    (hk : Covered T key) (h : w.attributes nilVals key as = Res.ok w') : Adds T w w' := by
  unfold Writer.attributes at h
  split at h
  · cases h
  · cases h
    refine ⟨writeAttributesForKey nilVals [] key as, by simp only; rw [writeAttributes_append], ?_⟩
    intro e he
    obtain ⟨s, hs⟩ := writeAttributes_names _ _ _ e he
    rw [hs, tarPrefix_of_ne hn]
    exact covered_append (covered_append hk _) _

theorem adds_each {M : Type} {T : List String} {save : M → Writer → String → Res Writer} {key : Nat → String}
    (hs : ∀ m w i w', save m w (key i) = Res.ok w' → Adds T w w') (ms : List M) (i : Nat) {w w' : Writer}
    (h : saveEach save key ms i w = Res.ok w') : Adds T w w' := by
  induction ms generalizing i w with
  | nil => cases h; exact Adds.refl _ _
  | cons m ms ih =>
    obtain ⟨w1, h1, h2⟩ := Res.bind_eq_ok.1 h
    exact (hs _ _ _ _ h1).trans (ih _ h2)

theorem covered_trans {T : List String} {s t : String} (h : Covered T s) (hp : s.toList <+: t.toList) : Covered T t := by
  obtain ⟨u, hu, hs⟩ := h
  exact ⟨u, hu, hs.trans hp⟩

theorem KeepsPrefix.adds {M : Type} {save : M → Writer → String → Res Writer} (hs : KeepsPrefix save) {T : List String} {m : M}
    {w w' : Writer} {pre : String} (hp : Covered T pre) (h : save m w pre = Res.ok w') : Adds T w w' := by
  obtain ⟨es, h1, h2⟩ := hs _ _ _ _ h
  exact ⟨es, h1, fun e he => covered_trans hp (h2 e he)⟩

theorem covered_self (s : String) : Covered [s] s := ⟨s, by simp, List.prefix_refl _⟩

theorem covered_pre (pre s : String) : Covered [pre] (tarPrefix pre s) := by
  unfold tarPrefix
  split
  · rename_i h
    exact ⟨pre, by simp, by simp [h]⟩
  · exact covered_append (covered_append (covered_self _) _) _

theorem Adds.keeps {pre : String} {w w' : Writer} (h : Adds [pre] w w') :
    ∃ es : Archive, w'.entries = w.entries ++ es ∧ ∀ e ∈ es, pre.toList <+: e.1.toList := by
  obtain ⟨es, h1, h2⟩ := h
  refine ⟨es, h1, fun e he => ?_⟩
  obtain ⟨t, ht, hp⟩ := h2 e he
  rw [List.mem_singleton] at ht
  exact ht ▸ hp

/-! ## The methods `SaveWithPrefix` -/

theorem saveTree_adds {S : SaveEnv} {info : List String → LeafInfo} {t : Tree} {cls : AttrBody} {w w' : Writer} {pre : String}
    {T : List String} (hT : Covered T (tarPrefix pre "tree")) (h : saveTree S info t cls w pre = Res.ok w') : Adds T w w' := by
  obtain ⟨j, -, h⟩ := Res.bind_eq_ok.1 h
  obtain ⟨w1, h1, h⟩ := Res.bind_eq_ok.1 h
  refine (adds_write hT h1).trans (adds_write ?_ h)
  have : tarPrefix pre "treeClassAttr" = tarPrefix pre "tree" ++ "ClassAttr" := tarPrefix_append pre "tree" "ClassAttr"
  rw [this]
  exact covered_append hT _

theorem saveTree_keeps (S : SaveEnv) : KeepsPrefix (fun t : SavedTree => saveTree S t.info t.tree t.cls) :=
  fun _ _ _ _ h => (saveTree_adds (covered_pre _ _) h).keeps

/-- The names of the entries of a bagged model begin with these. -/
def bagNames : List String := ["NUM_RANDOM_FEATURES", "NUM_CLASSIFIERS", "CLASSIFIERS/", "REFERENCE_INSTANCES", "SELECTED_ATTRIBUTES"]

theorem saveBag_adds {M : Type} {G : GridEnv} {nilVals : Bool} {save : M → Writer → String → Res Writer} {features : U64}
    {models : List M} {fitOn : Dense} {sel : GoMap Nat (List Attr)} {w w' : Writer} {pre : String} {T : List String}
    (hs : KeepsPrefix save) (hT : ∀ t ∈ bagNames, Covered T (tarPrefix pre t))
    (h : saveBag G nilVals save features models fitOn sel w pre = Res.ok w') : Adds T w w' := by
  simp only [bagNames, List.mem_cons, List.not_mem_nil, or_false, forall_eq_or_imp, forall_eq] at hT
  obtain ⟨t1, t2, t3, t4, t5⟩ := hT
  obtain ⟨w1, h1, h⟩ := Res.bind_eq_ok.1 h
  obtain ⟨w2, h2, h⟩ := Res.bind_eq_ok.1 h
  obtain ⟨w3, h3, h⟩ := Res.bind_eq_ok.1 h
  obtain ⟨w4, h4, h⟩ := Res.bind_eq_ok.1 h
  refine (adds_write t1 h1).trans ((adds_write t2 h2).trans ((adds_each ?_ _ _ h3).trans ((adds_structure t4 h4).trans (adds_write t5 h))))
  intro m w i w' hm
  refine hs.adds ?_ hm
  rw [bagKey_eq, tarPrefix_append, tarPrefix_append]
  exact covered_append (covered_append t3 _) _

/-- The names of the entries of a one-vs-all model begin with these. -/
def ovaNames : List String := ["INSTANCE_STRUCTURE", "CLASS_VALUES", "FILTER_COUNT", "FILTER/", "CLASSIFIERS/"]

theorem saveOvaPair_adds {nilVals : Bool} {p : Attr × Attr} {w w' : Writer} {key : String} {T : List String} (hk : Covered T key)
    (hn : key ≠ "") (h : saveOvaPair nilVals p w key = Res.ok w') : Adds T w w' := by
  obtain ⟨w1, h1, h⟩ := Res.bind_eq_ok.1 h
  have hc : ∀ s, Covered T (tarPrefix key s) := fun s => (covered_tar hk s).resolve_right hn
  exact (adds_write (hc _) h1).trans (adds_write (hc _) h)

theorem saveOvaFilter_adds {nilVals : Bool} {ord : OvaFilter → GoMap Attr Attr} {f : OvaFilter} {w w' : Writer} {key : String}
    {T : List String} (hk : Covered T key) (hn : key ≠ "") (h : saveOvaFilter nilVals ord f w key = Res.ok w') : Adds T w w' := by
  have hc : ∀ s, Covered T (tarPrefix key s) := fun s => (covered_tar hk s).resolve_right hn
  obtain ⟨w1, h1, h⟩ := Res.bind_eq_ok.1 h
  obtain ⟨w2, h2, h⟩ := Res.bind_eq_ok.1 h
  obtain ⟨w3, h3, h⟩ := Res.bind_eq_ok.1 h
  refine (adds_write (hc _) h1).trans ((adds_each ?_ _ _ h2).trans ((adds_write (hc _) h3).trans (adds_write (hc _) h)))
  intro m w i w' hm
  exact saveOvaPair_adds (hc _) (tarPrefix_ne_empty _ (repr_ne_empty i)) hm

theorem ovaKey_append (pre name : String) (hn : name ≠ "") (i : Nat) :
    tarPrefix pre (tarPrefix name (Nat.repr i)) = tarPrefix pre (name ++ "/") ++ Nat.repr i := by
  rw [tarPrefix_of_ne hn, tarPrefix_append]

theorem saveOva_adds {M : Type} {G : GridEnv} {nilVals : Bool} {ord : OvaFilter → GoMap Attr Attr}
    {save : M → Writer → String → Res Writer} {m : SavedOva M} {w w' : Writer} {pre : String} {T : List String}
    (hs : KeepsPrefix save) (hT : ∀ t ∈ ovaNames, Covered T (tarPrefix pre t)) (h : saveOva G nilVals ord save m w pre = Res.ok w') :
    Adds T w w' := by
  simp only [ovaNames, List.mem_cons, List.not_mem_nil, or_false, forall_eq_or_imp, forall_eq] at hT
  obtain ⟨t1, t2, t3, t4, t5⟩ := hT
  obtain ⟨w1, h1, h⟩ := Res.bind_eq_ok.1 h
  obtain ⟨w2, h2, h⟩ := Res.bind_eq_ok.1 h
  obtain ⟨w3, h3, h⟩ := Res.bind_eq_ok.1 h
  obtain ⟨w4, h4, h⟩ := Res.bind_eq_ok.1 h
  obtain ⟨w5, h5, h⟩ := Res.bind_eq_ok.1 h
  refine (adds_structure t1 h1).trans ((adds_write t2 h2).trans ((adds_write t3 h3).trans ((adds_each ?_ _ _ h4).trans
    ((adds_each ?_ _ _ h5).trans (adds_close h)))))
  · intro f w i w' hf
    refine saveOvaFilter_adds ?_ (tarPrefix_ne_empty _ (tarPrefix_ne_empty _ (repr_ne_empty i))) hf
    show Covered T (tarPrefix pre (tarPrefix "FILTER" (Nat.repr i)))
    rw [ovaKey_append _ _ (by decide)]
    exact covered_append t4 _
  · intro f w i w' hf
    refine hs.adds ?_ hf
    show Covered T (tarPrefix pre (tarPrefix "CLASSIFIERS" (Nat.repr i)))
    rw [ovaKey_append _ _ (by decide)]
    exact covered_append t5 _

section
variable {K : Type} [Field K] [LinearOrder K]

theorem saveSvc_adds {E : SvcEnv K} {m : SvcModel K} {w w' : Writer} {pre : String} {T : List String}
    (h1 : Covered T (tarPrefix pre "PARAMETERS")) (h2 : Covered T (tarPrefix pre "MODEL")) (h : saveSvc E m w pre = Res.ok w') :
    Adds T w w' := by
  obtain ⟨j, -, h⟩ := Res.bind_eq_ok.1 h
  obtain ⟨ts, -, h⟩ := Res.bind_eq_ok.1 h
  obtain ⟨w1, hw, rfl⟩ := Res.map_eq_ok.1 h
  refine (adds_write h1 hw).trans ?_
  split
  · exact adds_write h2 ‹_›
  · exact Adds.refl _ _

theorem saveSvc_keeps (E : SvcEnv K) : KeepsPrefix (saveSvc E) :=
  fun _ _ _ _ h => (saveSvc_adds (covered_pre _ _) (covered_pre _ _) h).keeps

theorem saveMulti_adds {G : GridEnv} {nilVals : Bool} {ord : OvaFilter → GoMap Attr Attr} {E : SvcEnv K} {m : MultiSvc K} {w w' : Writer}
    (h : saveMulti G nilVals ord E m w "" = Res.ok w') : Adds ["/"] w w' := by
  obtain ⟨jp, -, h⟩ := Res.bind_eq_ok.1 h
  obtain ⟨w1, h1, h⟩ := Res.bind_eq_ok.1 h
  obtain ⟨jw, -, h⟩ := Res.bind_eq_ok.1 h
  obtain ⟨w2, h2, h⟩ := Res.bind_eq_ok.1 h
  have hc : ∀ s : String, Covered ["/"] ("/" ++ s) := fun s => covered_append (covered_self _) _
  refine (adds_write (hc "params") h1).trans ((adds_write (hc "weights") h2).trans (saveOva_adds (saveSvc_keeps E) ?_ h))
  intro t _
  rw [tarPrefix_of_ne (by decide)]
  exact covered_append (covered_append (hc "one-vs-all") _) _
end

/-- The names of the entries of a naive Bayes classifier begin with these. -/
def nbNames : List String :=
  ["INSTANCE_STRUCTURE", "TRAINING_ATTRIBUTES", "NUM_FEATURES", "NUM_TRAINING_INSTANCES", "CLASS_INSTANCES", "COND_MAP"]

theorem saveNB_adds {K : Type} {G : GridEnv} {nilVals : Bool} {num : K → U64} {fin : U64 → Bool} {nb : NB K} {fitOn : Dense} {w w' : Writer}
    {pre : String} {T : List String} (hT : ∀ t ∈ nbNames, Covered T (tarPrefix pre t))
    (h : saveNB G nilVals num fin nb fitOn w pre = Res.ok w') : Adds T w w' := by
  simp only [nbNames, List.mem_cons, List.not_mem_nil, or_false, forall_eq_or_imp, forall_eq] at hT
  obtain ⟨t1, t2, t3, t4, t5, t6⟩ := hT
  obtain ⟨w1, h1, h⟩ := Res.bind_eq_ok.1 h
  obtain ⟨w2, h2, h⟩ := Res.bind_eq_ok.1 h
  obtain ⟨w3, h3, h⟩ := Res.bind_eq_ok.1 h
  obtain ⟨w4, h4, h⟩ := Res.bind_eq_ok.1 h
  obtain ⟨w5, h5, h⟩ := Res.bind_eq_ok.1 h
  obtain ⟨j, -, h⟩ := Res.bind_eq_ok.1 h
  exact (adds_structure t1 h1).trans ((adds_attributes (tarPrefix_ne_empty _ (by decide)) t2 h2).trans ((adds_write t3 h3).trans
    ((adds_write t4 h4).trans ((adds_write t5 h5).trans (adds_write t6 h)))))

theorem saveKnn_adds {G : GridEnv} {nilVals : Bool} {order : List Nat} {m : KnnModel} {w w' : Writer} {pre : String} {T : List String}
    (hT : Covered T (tarPrefix pre "TrainingInstances")) (h : saveKnn G nilVals order m w pre = Res.ok w') : Adds T w w' := by
  unfold saveKnn at h
  split at h
  · cases h
  · obtain ⟨es, he, h⟩ := Res.bind_eq_ok.1 h
    exact Adds.trans (b := { w with entries := w.entries ++ es }) ⟨es, rfl, covered_serialize hT he⟩ (adds_close h)

/-! ## Files -/

/-- The name in the metadata of the files of a kind of classifier. -/
def Kind.fileName : Kind → String
  | .id3 => "ID3"
  | .bagged => "BaggedModel"
  | .svc => "LinearSVC"
  | .oneVsAll => "OneVsAllModel"
  | .multiSvc => "MultiLinearSVC"
  | _ => "KNN"

/-- What the names of the entries of a file begin with. -/
def Kind.names : Kind → List String
  | .knn => ["TrainingInstances"]
  | .bayes => nbNames
  | .id3 | .randomTree => ["tree"]
  | .bagged => bagNames
  | .forest => ["model/"]
  | .svc => ["PARAMETERS", "MODEL"]
  | .oneVsAll => ovaNames
  | .multiSvc => ["/"]

theorem adds_file {T : List String} {md : Json} {r : Res Writer} {ar : Archive} (h : r.map Writer.entries = Res.ok ar)
    (ha : ∀ w', r = Res.ok w' → Adds T (newWriter md) w') : ∃ es, ar = classifierStub md ++ es ∧ ∀ e ∈ es, Covered T e.1 := by
  obtain ⟨w', hw, rfl⟩ := Res.map_eq_ok.1 h
  obtain ⟨es, h1, h2⟩ := ha w' hw
  exact ⟨es, h1, h2⟩

theorem covered_mem {T : List String} {t : String} (h : t ∈ T) : Covered T (tarPrefix "" t) := ⟨t, h, List.prefix_refl _⟩

/-- The layout of a saved file. -/
theorem savedBy_layout {k : Kind} {ar : Archive} (h : SavedBy k ar) :
    ∃ version params es, ar = classifierStub (metadataJson k.fileName version params) ++ es ∧ (∀ e ∈ es, Covered k.names e.1) ∧
      (k ∈ [Kind.bayes, .randomTree, .forest] → version = "1.0" ∧ params = Json.null) := by
  cases h with
  | knn h => exact ⟨_, _, (adds_file h fun w' hw => saveKnn_adds (covered_mem (by decide)) hw).imp fun es h => ⟨h.1, h.2, fun hk => absurd hk (by decide)⟩⟩
  | bayes h => exact ⟨_, _, (adds_file h fun w' hw => saveNB_adds (fun t ht => covered_mem ht) hw).imp fun es h => ⟨h.1, h.2, fun _ => ⟨rfl, rfl⟩⟩⟩
  | id3 h => exact ⟨_, _, (adds_file h fun w' hw => saveTree_adds (covered_mem (by decide)) hw).imp fun es h => ⟨h.1, h.2, fun hk => absurd hk (by decide)⟩⟩
  | randomTree h => exact ⟨_, _, (adds_file h fun w' hw => saveTree_adds (covered_mem (by decide)) hw).imp fun es h => ⟨h.1, h.2, fun _ => ⟨rfl, rfl⟩⟩⟩
  | bagged hs h => exact ⟨_, _, (adds_file h fun w' hw => saveBag_adds hs (fun t ht => covered_mem ht) hw).imp fun es h => ⟨h.1, h.2, fun hk => absurd hk (by decide)⟩⟩
  | @forest _ S _ _ _ _ _ h =>
    refine ⟨_, _, (adds_file h fun w' hw => saveBag_adds (T := ["model/"]) (saveTree_keeps S) (fun t ht => ?_) hw).imp
      fun es h => ⟨h.1, h.2, fun _ => ⟨rfl, rfl⟩⟩⟩
    rw [tarPrefix_of_ne (by decide)]
    exact covered_append (covered_self "model/") _
  | svc h =>
    obtain ⟨j, hj, h⟩ := Res.bind_eq_ok.1 h
    unfold svcMetadata at hj
    split at hj
    · cases hj
      exact ⟨_, _, (adds_file h fun w' hw => saveSvc_adds (covered_mem (by decide)) (covered_mem (by decide)) hw).imp fun es h => ⟨h.1, h.2, fun hk => absurd hk (by decide)⟩⟩
    · cases hj
  | oneVsAll hs h => exact ⟨_, _, (adds_file h fun w' hw => saveOva_adds hs (fun t ht => covered_mem ht) hw).imp fun es h => ⟨h.1, h.2, fun hk => absurd hk (by decide)⟩⟩
  | multiSvc h => exact ⟨_, _, (adds_file h fun w' hw => saveMulti_adds hw).imp fun es h => ⟨h.1, h.2, fun hk => absurd hk (by decide)⟩⟩

theorem absent {ar : Archive} {k : String} (h : ∀ e ∈ ar, e.1 ≠ k) : getNamedFile ar k = Res.err := by
  induction ar with
  | nil => rfl
  | cons p ar ih =>
    rw [getNamedFile, if_neg (h p (by simp))]
    exact ih fun e he => h e (by simp [he])

/-- A file has no entry with a name that does not begin as it should. -/
theorem layout_absent {md : Json} {es : Archive} {T : List String} (h : ∀ e ∈ es, Covered T e.1) {k : String}
    (h1 : (k ≠ "CLS_MANIFEST" ∧ k ≠ "METADATA") ∧ ∀ t ∈ T, ¬ t.toList <+: k.toList) : getNamedFile (classifierStub md ++ es) k = Res.err := by
  apply absent
  intro e he hek
  rcases List.mem_append.1 he with he | he
  · simp only [classifierStub, List.mem_cons, List.not_mem_nil, or_false] at he
    rcases he with rfl | rfl
    · exact h1.1.1 hek.symm
    · exact h1.1.2 hek.symm
  · obtain ⟨t, ht, hp⟩ := h e he
    exact h1.2 t ht (hek ▸ hp)

end Golearn
