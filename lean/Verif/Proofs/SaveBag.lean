import Verif.Spec.SaveBag
import Verif.Proofs.SaveGrid

/-! # Saved ensembles -/

namespace Golearn

/-! ## Names of entries -/

theorem tarPrefix_append (pre a b : String) : tarPrefix pre (a ++ b) = tarPrefix pre a ++ b := by
  unfold tarPrefix
  split
  · rfl
  · simp only [String.append_assoc]

theorem bagKey_eq (pre : String) (i : Nat) : bagKey pre i = tarPrefix pre ("CLASSIFIERS/" ++ Nat.repr i ++ "/") := by
  rw [bagKey, ← tarPrefix_append]
  congr 1

theorem bagKey_ne (pre : String) (i : Nat) : bagKey pre i ≠ "" := by
  unfold bagKey
  intro h
  rw [String.ext_iff] at h
  simp at h

/-- The name of an entry of classifier `i`. -/
theorem bagKey_entry (pre : String) (i : Nat) (s : String) :
    tarPrefix (bagKey pre i) s = tarPrefix pre ("CLASSIFIERS/" ++ Nat.repr i ++ "//" ++ s) := by
  conv_lhs => unfold tarPrefix
  rw [if_neg (bagKey_ne pre i), bagKey_eq, ← tarPrefix_append, ← tarPrefix_append]
  congr 1
  rw [String.ext_iff]
  simp

theorem bagKey_entries_ne (pre : String) {i j : Nat} (h : i ≠ j) (s t : String) :
    tarPrefix (bagKey pre i) s ≠ tarPrefix (bagKey pre j) t := by
  rw [bagKey_entry, bagKey_entry]
  intro e
  have e := tarPrefix_inj _ _ _ e
  rw [String.ext_iff] at e
  simp only [String.toList_append, List.append_assoc, List.append_cancel_left_eq] at e
  exact h (repr_inj (String.ext_iff.2 (slash_split (x := '/' :: s.toList) (y := '/' :: t.toList)
    (repr_no_slash i) (repr_no_slash j) e)))

/-- The first characters tell the other entries apart. -/
theorem tag_ne (pre : String) {x y : String} {n : Nat} (h : x.toList.take n ≠ y.toList.take n) :
    tarPrefix pre x ≠ tarPrefix pre y := by
  intro e
  exact h (by rw [tarPrefix_inj _ _ _ e])

theorem tag_append (x y : String) (n : Nat) (h : n ≤ x.toList.length) : (x ++ y).toList.take n = x.toList.take n := by
  rw [String.toList_append, List.take_append_of_le_length h]

/-! ## The classifiers -/

theorem saveEach_eq {M : Type} (save : M → Writer → String → Res Writer) (key : Nat → String) (E : Nat → Archive)
    (ms : List M) (i : Nat) (h : ∀ j m, ms[j]? = some m → ∀ w : Writer, w.closed = false →
      save m w (key (i + j)) = Res.ok ⟨w.entries ++ E (i + j), false⟩) (w : Writer) (hw : w.closed = false) :
    saveEach save key ms i w = Res.ok ⟨w.entries ++ (List.range ms.length).flatMap (fun j => E (i + j)), false⟩ := by
  induction ms generalizing i w with
  | nil =>
    obtain ⟨es, c⟩ := w
    cases hw
    simp [saveEach]
  | cons m ms ih =>
    have h0 := h 0 m rfl w hw
    rw [Nat.add_zero] at h0
    rw [saveEach, h0, Res.bind_ok, ih (i + 1) (by
      intro j m' hj w' hw'
      have := h (j + 1) m' (by simpa using hj) w' hw'
      rw [show i + 1 + j = i + (j + 1) by omega]
      exact this) _ rfl]
    simp only [List.length_cons, List.range_succ_eq_map, List.flatMap_cons, List.flatMap_map, List.append_assoc, Nat.add_zero]
    congr 5
    funext j
    rw [show i + 1 + j = i + j.succ by omega]

theorem agrees_flatMap {ι : Type} {ar : Archive} (E : ι → Archive) {l : List ι} (hl : l.Nodup)
    (hd : ∀ i j, i ≠ j → ∀ p ∈ E i, ∀ q ∈ E j, p.1 ≠ q.1) (h : Agrees ar (l.flatMap E)) : ∀ i ∈ l, Agrees ar (E i) := by
  induction l with
  | nil => simp
  | cons a as ih =>
    rw [List.flatMap_cons] at h
    intro i hi
    rcases List.mem_cons.1 hi with rfl | hi
    · exact agrees_append_left h
    · refine ih (List.nodup_cons.1 hl).2 (agrees_append_right h ?_) i hi
      intro p hp q hq
      obtain ⟨b, hb, hq⟩ := List.mem_flatMap.1 hq
      exact hd a b (by rintro rfl; exact (List.nodup_cons.1 hl).1 hb) p hp q hq

/-! ## The selected attributes -/

theorem selected_roundtrip (nilVals : Bool) (viaFloat : Int → Int) (fitOn d : Dense) (hd : (Grid.dense d).distinct)
    (hs : SameStructure (.dense fitOn) (.dense d)) (hk : ∀ a ∈ fitOn.allAttributes, AttrKept nilVals viaFloat a.body)
    (sel : GoMap Nat (List Attr)) (hsel : ∀ p ∈ sel, ∀ a ∈ p.2, a ∈ fitOn.allAttributes) :
    ∃ sel', mapRes (selectedOfJson viaFloat d)
        (sel.map fun p => (Nat.repr p.1, Json.arr (p.2.map fun a => .base64 (attrToJson nilVals a.body)))) = Res.ok sel' ∧
      SameSelected sel sel' ∧ ∀ p ∈ sel', ∀ a ∈ p.2, a ∈ d.allAttributes := by
  have one : ∀ as : List Attr, (∀ a ∈ as, a ∈ fitOn.allAttributes) →
      ∃ as', mapRes (selectedAttrOfJson viaFloat d) (as.map fun a => .base64 (attrToJson nilVals a.body)) = Res.ok as' ∧
        as'.map Attr.body = as.map Attr.body ∧ ∀ a ∈ as', a ∈ d.allAttributes := by
    intro as
    induction as with
    | nil => intro _; exact ⟨[], rfl, rfl, by simp⟩
    | cons a as ih =>
      intro h
      obtain ⟨as', h1, h2, h3⟩ := ih fun b hb => h b (by simp [hb])
      obtain ⟨a', ha', hb'⟩ := List.mem_map.1 (hs.1.symm.subset (List.mem_map_of_mem (h a (by simp))))
      have : selectedAttrOfJson viaFloat d (.base64 (attrToJson nilVals a.body)) = Res.ok a' := by
        rw [selectedAttrOfJson, attrKept_roundtrip (hk a (h a (by simp))), Res.bind_ok]
        exact replaceAttr_spec hd ha' hb'
      refine ⟨a' :: as', by simp [mapRes, this, h1], by simp [hb', h2], ?_⟩
      intro x hx
      rcases List.mem_cons.1 hx with rfl | hx
      · exact ha'
      · exact h3 x hx
  induction sel with
  | nil => exact ⟨[], rfl, rfl, by simp⟩
  | cons p ps ih =>
    obtain ⟨ps', h1, h2, h3⟩ := ih fun q hq => hsel q (by simp [hq])
    obtain ⟨as', g1, g2, g3⟩ := one p.2 (hsel p (by simp))
    refine ⟨(p.1, as') :: ps', ?_, ?_, ?_⟩
    · simp only [List.map_cons, mapRes, selectedOfJson, natOfKey_repr, g1, Res.map_ok, Res.bind_ok, h1]
    · simp only [SameSelected, List.map_cons, g2] at h2 ⊢
      rw [h2]
    · intro q hq
      rcases List.mem_cons.1 hq with rfl | hq
      · exact g3
      · exact h3 q hq

/-! ## The whole model -/

/-- How the names of the entries of a bagged model start. -/
def bagTags : List (List Char) := ["NUM_R".toList, "NUM_C".toList, "CLASS".toList, "REFER".toList, "SELEC".toList]

/-- Everything about saving a bagged model and loading as many classifiers of it as wanted. -/
theorem bag_entries {M μ : Type} (G : GridEnv) (hG : G.Ok) (nilVals : Bool) (viaFloat : Int → Int)
    (save : M → Writer → String → Res Writer) (load : Nat → Archive → String → Res μ) (good : Nat → μ → Prop)
    (features : U64) (models : List M)
    (hm : ∀ i m, models[i]? = some m → Restores (save m) (load i) (good i) false)
    (fitOn : Dense) (sel : GoMap Nat (List Attr)) (hb : BagKept nilVals viaFloat fitOn sel) (pre : String) :
    ∃ es : Archive, (∀ e ∈ es, (∃ s, e.1 = tarPrefix pre s ∧ s.toList.take 5 ∈ bagTags) ∧
        ∀ i, models.length ≤ i → ∀ s, e.1 ≠ tarPrefix (bagKey pre i) s) ∧
      (∀ w : Writer, w.closed = false →
        saveBag G nilVals save features models fitOn sel w pre = Res.ok ⟨w.entries ++ es, false⟩) ∧
      ∀ ar, Agrees ar es → ∀ count, count ≤ models.length → ∃ b, loadBag G viaFloat load count ar pre = Res.ok b ∧
        b.features = features ∧ b.models.length = count ∧ (∀ i m, b.models[i]? = some m → good i m) ∧
        SameStructure (.dense fitOn) (.dense b.fitOn) ∧ (Grid.dense b.fitOn).Presents 0 ∧ SameSelected sel b.selected ∧
        ∀ p ∈ b.selected, ∀ a ∈ p.2, a ∈ b.fitOn.allAttributes := by
  have key : ∀ i, ∃ E : Archive, (∀ e ∈ E, ∃ s, e.1 = tarPrefix (bagKey pre i) s) ∧
      ∀ m, models[i]? = some m → (∀ w : Writer, w.closed = false → save m w (bagKey pre i) = Res.ok ⟨w.entries ++ E, false⟩) ∧
        ∀ ar, Agrees ar E → ∃ x, load i ar (bagKey pre i) = Res.ok x ∧ good i x := by
    intro i
    cases h : models[i]? with
    | none => exact ⟨[], by simp, by simp⟩
    | some m =>
      obtain ⟨E, h1, h2, h3⟩ := hm i m h (bagKey pre i)
      refine ⟨E, h1, ?_⟩
      intro m' hm'
      simp only [Option.some.injEq] at hm'
      subst hm'
      exact ⟨h2, h3⟩
  choose E hE1 hE2 using key
  obtain ⟨gs, g1, g2, d, g3, g4, g5, _, g6, _⟩ := grid_entries G hG nilVals viaFloat (.dense fitOn) 0 hb.grid []
    (by simp [Grid.RowOrder, hb.rows]) (Or.inl rfl) (tarPrefix pre "REFERENCE_INSTANCES")
  obtain ⟨sel', s1, s2, s3⟩ := selected_roundtrip nilVals viaFloat fitOn d g5 g6 hb.grid.kept sel hb.selected
  obtain ⟨C, hC⟩ : ∃ C, C = (List.range models.length).flatMap E := ⟨_, rfl⟩
  have hCn : ∀ e ∈ C, ∃ i, i < models.length ∧ ∃ s, e.1 = tarPrefix (bagKey pre i) s := by
    intro e he
    rw [hC] at he
    obtain ⟨i, hi, he⟩ := List.mem_flatMap.1 he
    exact ⟨i, List.mem_range.1 hi, hE1 i e he⟩
  have hgn : ∀ e ∈ gs, ∃ s, e.1 = tarPrefix pre ("REFERENCE_INSTANCES" ++ s) := by
    intro e he
    obtain ⟨s, _, hs⟩ := g2 e he
    exact ⟨s, by rw [hs, tarPrefix_append]⟩
  have tagC : ∀ (i : Nat) (s : String), ∃ x, tarPrefix (bagKey pre i) s = tarPrefix pre ("CLASSIFIERS/" ++ x) := by
    intro i s
    refine ⟨Nat.repr i ++ "//" ++ s, ?_⟩
    rw [bagKey_entry, String.append_assoc, String.append_assoc, String.append_assoc]
  have nC : ∀ (x : String) (i : Nat) (s : String), x.toList.take 5 ≠ "CLASS".toList →
      tarPrefix pre x ≠ tarPrefix (bagKey pre i) s := by
    intro x i s hx
    obtain ⟨y, hy⟩ := tagC i s
    rw [hy]
    apply tag_ne pre (n := 5)
    rw [tag_append _ _ _ (by decide)]
    exact hx
  have nR : ∀ (x s : String), x.toList.take 5 ≠ "REFER".toList →
      tarPrefix pre x ≠ tarPrefix pre ("REFERENCE_INSTANCES" ++ s) := by
    intro x s hx
    apply tag_ne pre (n := 5)
    rw [tag_append _ _ _ (by decide)]
    exact hx
  have nCR : ∀ (i : Nat) (s t : String), tarPrefix (bagKey pre i) s ≠ tarPrefix pre ("REFERENCE_INSTANCES" ++ t) := by
    intro i s t
    obtain ⟨y, hy⟩ := tagC i s
    rw [hy]
    apply nR
    rw [tag_append _ _ _ (by decide)]
    decide
  refine ⟨[(tarPrefix pre "NUM_RANDOM_FEATURES", .bytes (packU64 features)),
      (tarPrefix pre "NUM_CLASSIFIERS", .bytes (packU64 (BitVec.ofNat 64 models.length)))] ++
    (C ++ (gs ++ [(tarPrefix pre "SELECTED_ATTRIBUTES", .json (selectedToJson nilVals sel))])), ?_, ?_, ?_⟩
  · intro e he
    simp only [List.mem_append, List.mem_cons, List.not_mem_nil, or_false] at he
    rcases he with (rfl | rfl) | he | he | rfl
    · exact ⟨⟨_, rfl, by decide⟩, fun i _ s => nC _ i s (by decide)⟩
    · exact ⟨⟨_, rfl, by decide⟩, fun i _ s => nC _ i s (by decide)⟩
    · obtain ⟨i, hi, s, hs⟩ := hCn e he
      rw [hs]
      refine ⟨⟨_, bagKey_entry pre i s, ?_⟩, fun j hj t => bagKey_entries_ne pre (by omega) s t⟩
      rw [String.append_assoc, String.append_assoc, tag_append _ _ _ (by decide)]
      decide
    · obtain ⟨s, hs⟩ := hgn e he
      rw [hs]
      refine ⟨⟨_, rfl, ?_⟩, fun i _ t => (nCR i t s).symm⟩
      rw [tag_append _ _ _ (by decide)]
      decide
    · exact ⟨⟨_, rfl, by decide⟩, fun i _ s => nC _ i s (by decide)⟩
  · intro w hw
    obtain ⟨we, wc⟩ := w
    cases hw
    have hsave := fun w hw => saveEach_eq save (bagKey pre) E models 0
      (by
        intro j m hj w hw
        rw [Nat.zero_add]
        exact (hE2 j m hj).1 w hw) w hw
    simp only [saveBag, Writer.write, writeForKey, Bool.false_eq_true, if_false, Res.bind_ok]
    rw [hsave _ rfl, Res.bind_ok, structure_eq G nilVals fitOn _ gs g1 _ rfl, Res.bind_ok]
    simp [hC]
  · intro ar ha count hcount
    have a1 := agrees_append_left ha
    have a2 := agrees_append_right ha (by
      intro p hp q hq
      simp only [List.mem_cons, List.not_mem_nil, or_false] at hp
      simp only [List.mem_append, List.mem_cons, List.not_mem_nil, or_false] at hq
      rcases hq with hq | hq | rfl
      · obtain ⟨i, _, s, hs⟩ := hCn q hq
        rw [hs]
        rcases hp with rfl | rfl <;> exact nC _ i s (by decide)
      · obtain ⟨s, hs⟩ := hgn q hq
        rw [hs]
        rcases hp with rfl | rfl <;> exact nR _ s (by decide)
      · rcases hp with rfl | rfl <;> exact tag_ne pre (n := 5) (by decide))
    have a3 := agrees_append_left a2
    have a4 := agrees_append_right a2 (by
      intro p hp q hq
      obtain ⟨i, _, s, hs⟩ := hCn p hp
      rw [hs]
      simp only [List.mem_append, List.mem_cons, List.not_mem_nil, or_false] at hq
      rcases hq with hq | rfl
      · obtain ⟨t, ht⟩ := hgn q hq
        rw [ht]
        exact nCR i s t
      · exact (nC _ i s (by decide)).symm)
    have a5 := agrees_append_left a4
    have a6 := agrees_append_right a4 (by
      intro p hp q hq
      obtain ⟨s, hs⟩ := hgn p hp
      simp only [List.mem_cons, List.not_mem_nil, or_false] at hq
      subst hq
      rw [hs]
      exact (nR _ s (by decide)).symm)
    have f1 : getNamedFile ar (tarPrefix pre "NUM_RANDOM_FEATURES") = Res.ok (.bytes (packU64 features)) :=
      getNamedFile_eq_of_mem a1 (by simp [getNamedFile])
    have f2 : getNamedFile ar (tarPrefix pre "SELECTED_ATTRIBUTES") = Res.ok (.json (selectedToJson nilVals sel)) :=
      getNamedFile_eq_of_mem a6 (by simp [getNamedFile])
    rw [hC] at a3
    have a7 := agrees_flatMap E List.nodup_range
      (by
        intro i j hij p hp q hq
        obtain ⟨s, hs⟩ := hE1 i p hp
        obtain ⟨t, ht⟩ := hE1 j q hq
        rw [hs, ht]
        exact bagKey_entries_ne pre hij s t) a3
    have hl : ∃ ms, mapRes (fun i => load i ar (bagKey pre i)) (List.range count) = Res.ok ms ∧ ms.length = count ∧
        ∀ i m, ms[i]? = some m → good i m := by
      induction count with
      | zero => exact ⟨[], rfl, rfl, by simp⟩
      | succ k ih =>
        obtain ⟨ms, q1, q2, q3⟩ := ih (by omega)
        obtain ⟨x, x1, x2⟩ := (hE2 k models[k] (by simp [show k < models.length by omega])).2 ar
          (a7 k (List.mem_range.2 (by omega)))
        refine ⟨ms ++ [x], ?_, by simp [q2], ?_⟩
        · rw [List.range_succ]
          rw [mapRes_eq_ok] at q1 ⊢
          exact List.rel_append q1 (List.Forall₂.cons x1 List.Forall₂.nil)
        · intro i m hi
          by_cases h : i < ms.length
          · rw [List.getElem?_append_left h] at hi
            exact q3 i m hi
          · rw [List.getElem?_append_right (by omega)] at hi
            have : i - ms.length = 0 := by
              by_contra hne
              rw [List.getElem?_eq_none (by simp; omega)] at hi
              cases hi
            rw [this] at hi
            simp only [List.getElem?_cons_zero, Option.some.injEq] at hi
            subst hi
            rw [show i = k by omega]
            exact x2
    obtain ⟨ms, q1, q2, q3⟩ := hl
    refine ⟨⟨features, ms, d, sel'⟩, ?_, rfl, q2, q3, g6, g4, s2, s3⟩
    have f3 : getU64ForKey ar (tarPrefix pre "NUM_RANDOM_FEATURES") = Res.ok features := by
      rw [getU64ForKey, f1, Res.bind_ok]
      exact C01_unpack_pack features
    rw [loadBag, f3, Res.bind_ok, q1, Res.bind_ok, g3 ar a5, Res.bind_ok, f2, Res.bind_ok]
    simp only [selectedToJson, s1, Res.map_ok]

/-! ## Predictions -/

theorem resolve_body {g : Grid} (hu : g.Unfiltered) (srt : List Spec → List Spec) {as as' : List Attr}
    (h : as'.map Attr.body = as.map Attr.body) : g.resolve srt as' = g.resolve srt as := by
  unfold Grid.resolve Grid.resolveUnsorted
  congr 1
  induction as generalizing as' with
  | nil =>
    cases as' with
    | nil => rfl
    | cons => simp at h
  | cons a as ih =>
    cases as' with
    | nil => simp at h
    | cons a' as' =>
      simp only [List.map_cons, List.cons.injEq] at h
      simp only [mapRes, getAttribute_body h.1 g hu, ih h.2]

theorem selected_get {sel sel' : GoMap Nat (List Attr)} (h : SameSelected sel sel') (i : Nat) :
    ((sel'.get? i).getD []).map Attr.body = ((sel.get? i).getD []).map Attr.body := by
  unfold SameSelected at h
  induction sel generalizing sel' with
  | nil =>
    cases sel' with
    | nil => rfl
    | cons => simp at h
  | cons p ps ih =>
    cases sel' with
    | nil => simp at h
    | cons p' ps' =>
      simp only [List.map_cons, List.cons.injEq, Prod.mk.injEq] at h
      obtain ⟨⟨h1, h2⟩, h3⟩ := h
      obtain ⟨k, v⟩ := p
      obtain ⟨k', v'⟩ := p'
      dsimp only at h1 h2
      subst h1
      have := ih h3
      simp only [GoMap.get?]
      by_cases hk : k' = i
      · rw [if_pos hk, if_pos hk]; simpa using h2
      · rw [if_neg hk, if_neg hk]; exact this

theorem forest_pipeline (e : Nat → PredEnv) (trees trees' : List Tree) (sel sel' : GoMap Nat (List Attr))
    (ht : List.Forall₂ Tree.Same trees trees') (hs : SameSelected sel sel') (fo : FloatOps) (srt : List Spec → List Spec)
    (cpus : Nat) (ord : Nat → Grid → List Nat) (g : Grid) (hu : g.Unfiltered) :
    (forestOf e trees' sel').pipeline fo srt cpus ord g = (forestOf e trees sel).pipeline fo srt cpus ord g := by
  have hlen := ht.length_eq
  unfold Bagged.pipeline
  congr 1
  · simp [forestOf, hlen]
  · funext i
    unfold Bagged.predictModel
    have hpi : (forestOf e trees' sel').predictionInstances srt i g = (forestOf e trees sel).predictionInstances srt i g := by
      unfold Bagged.predictionInstances
      show (g.resolve srt ((sel'.get? i).getD [])).map _ = (g.resolve srt ((sel.get? i).getD [])).map _
      rw [resolve_body hu srt (selected_get hs i)]
    rw [hpi]
    simp only [forestOf, List.getElem?_mapIdx]
    by_cases hi : i < trees.length
    · have hi' : i < trees'.length := by omega
      rw [List.getElem?_eq_getElem hi, List.getElem?_eq_getElem hi']
      simp only [Option.map_some]
      cases hl : (Bagged.predictionInstances ⟨trees.mapIdx fun i t g => (treePredict (e i) t g).map Grid.dense, sel⟩ srt i g) with
      | ok l =>
        have hul : l.Unfiltered := by
          obtain ⟨sp, _, rfl⟩ := Res.map_eq_ok.1 hl
          exact hu
        have := same_predict (e i) l hul trees[i] trees'[i] (ht.get hi hi')
        simp only [Res.orPanic, this]
      | err => simp [Res.orPanic]
      | panic => simp [Res.orPanic]
    · rw [List.getElem?_eq_none (by omega), List.getElem?_eq_none (by omega)]

end Golearn
