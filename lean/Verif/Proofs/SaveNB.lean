import Verif.Spec.SaveNB
import Verif.Proofs.SaveBag

/-! # Saved naive Bayes classifiers -/

namespace Golearn

theorem getAttributes_agrees (nilVals : Bool) (viaFloat : Int → Int) (key : String) (attrs : List AttrBody)
    (hl : attrs.length < 2 ^ 64) (hk : ∀ b ∈ attrs, AttrKept nilVals viaFloat b) (ar : Archive)
    (h : Agrees ar (writeAttributesForKey nilVals [] key attrs)) : getAttributesForKey viaFloat ar key = Res.ok attrs := by
  have e := C32_attributes_for_key_partial nilVals viaFloat [] key attrs [] hl (by simp)
    (fun b hb n => (hk b hb).1 n) (fun n k hb => (hk _ hb).2 n k rfl)
  rw [List.append_nil] at e
  unfold writeAttributesForKey at e h
  rw [writeAttributes_go, writeU64ForKey, writeForKey, List.nil_append] at e h
  have h0 : getNamedFile ar (tarPrefix key "ATTR_COUNT") = Res.ok (.bytes (packU64 (BitVec.ofNat 64 attrs.length))) :=
    getNamedFile_eq_of_mem h (by simp [getNamedFile])
  unfold getAttributesForKey getU64ForKey
  rw [h0, Res.bind_ok]
  simp only
  rw [C01_unpack_pack, Res.bind_ok]
  have hn : (BitVec.ofNat 64 attrs.length).toNat = attrs.length := by
    rw [BitVec.toNat_ofNat, Nat.mod_eq_of_lt hl]
  rw [hn, mapRes_eq_ok, List.forall₂_iff_get]
  refine ⟨by simp, ?_⟩
  intro i h1 h2
  simp only [List.get_eq_getElem, List.getElem_range]
  have hi : i < attrs.length := h2
  unfold getAttributeForKey
  have h1 := getNamedFile_mapIdx nilVals key attrs 0 i hi
  rw [Nat.zero_add] at h1
  have h3 : getNamedFile ar (tarPrefix key (Nat.repr i)) = Res.ok (.json (attrToJson nilVals attrs[i])) := by
    refine getNamedFile_eq_of_mem h ?_
    rw [List.singleton_append, getNamedFile, if_neg]
    · exact h1
    · intro e
      exact repr_ne_count i (tarPrefix_inj _ _ _ e).symm
  rw [h3, Res.bind_ok]
  exact attrKept_roundtrip (hk _ (List.getElem_mem _))

theorem writeAttributes_append (nilVals : Bool) (ar : Archive) (key : String) (attrs : List AttrBody) :
    writeAttributesForKey nilVals ar key attrs = ar ++ writeAttributesForKey nilVals [] key attrs := by
  simp only [writeAttributesForKey, writeAttributes_go, writeU64ForKey, writeForKey, List.nil_append, List.append_assoc]

theorem writeAttributes_names (nilVals : Bool) (key : String) (attrs : List AttrBody) :
    ∀ e ∈ writeAttributesForKey nilVals [] key attrs, ∃ s, e.1 = tarPrefix key s := by
  intro e he
  rw [writeAttributesForKey, writeAttributes_go, writeU64ForKey, writeForKey, List.nil_append] at he
  rcases List.mem_append.1 he with he | he
  · simp only [List.mem_cons, List.not_mem_nil, or_false] at he
    exact ⟨_, by rw [he]⟩
  · obtain ⟨i, hi, rfl⟩ := List.mem_mapIdx.1 he
    exact ⟨_, rfl⟩

theorem tarPrefix_of_ne {key : String} (h : key ≠ "") (s : String) : tarPrefix key s = key ++ "/" ++ s := if_neg h

theorem replaceAttrs_spec {fitOn d : Dense} (hd : (Grid.dense d).distinct) (hs : SameStructure (.dense fitOn) (.dense d))
    (as : List Attr) (h : ∀ a ∈ as, a ∈ fitOn.allAttributes) :
    ∃ as', replaceAttrs (as.map Attr.body) d.allAttributes = Res.ok as' ∧ as'.map Attr.body = as.map Attr.body ∧
      ∀ a ∈ as', a ∈ d.allAttributes := by
  induction as with
  | nil => exact ⟨[], rfl, rfl, by simp⟩
  | cons a as ih =>
    obtain ⟨as', h1, h2, h3⟩ := ih fun b hb => h b (by simp [hb])
    obtain ⟨a', ha', hb'⟩ := List.mem_map.1 (hs.1.symm.subset (List.mem_map_of_mem (h a (by simp))))
    have : replaceAttr a.body d.allAttributes = Res.ok a' := replaceAttr_spec hd ha' hb'
    unfold replaceAttrs at h1 ⊢
    refine ⟨a' :: as', by simp only [List.map_cons, mapRes, this, Res.bind_ok, h1, Res.map_ok], by simp [hb', h2], ?_⟩
    intro x hx
    rcases List.mem_cons.1 hx with rfl | hx
    · exact ha'
    · exact h3 x hx

theorem cond_roundtrip {K : Type} {num : K → U64} {val : U64 → K} {fin : U64 → Bool} (m : GoMap String (List K))
    (h : ∀ p ∈ m, ∀ x ∈ p.2, val (num x) = x ∧ fin (num x) = true) :
    ∃ j, condToJson num fin m = Res.ok j ∧ condOfJson val j = Res.ok m := by
  refine ⟨_, if_pos ?_, ?_⟩
  · simp only [List.all_eq_true]
    exact fun p hp x hx => (h p hp x hx).2
  · have one : ∀ l : List K, (∀ x ∈ l, val (num x) = x) → mapRes (floatOfJson val) (l.map fun x => Json.flt (num x)) = Res.ok l := by
      intro l
      induction l with
      | nil => intro _; rfl
      | cons x xs ih =>
        intro h
        simp only [List.map_cons, mapRes, floatOfJson, Res.bind_ok, ih fun y hy => h y (by simp [hy]), h x (by simp)]
    unfold condOfJson
    induction m with
    | nil => rfl
    | cons p ps ih =>
      have := ih fun q hq => h q (by simp [hq])
      simp only [List.map_cons, mapRes, condEntryOfJson, one p.2 fun x hx => (h p (by simp) x hx).1, Res.map_ok, Res.bind_ok]
      rw [show mapRes (condEntryOfJson val) _ = _ from this, Res.bind_ok]

/-- Everything about saving a classifier and loading it. -/
theorem nb_entries {K : Type} (G : GridEnv) (hG : G.Ok) (nilVals : Bool) (viaFloat : Int → Int) (num : K → U64) (val : U64 → K)
    (fin : U64 → Bool) (nb : NB K) (fitOn : Dense) (hk : nb.Kept nilVals viaFloat num val fin fitOn) (pre : String) :
    ∃ es : Archive, (∀ e ∈ es, ∃ s, e.1 = tarPrefix pre s ∧
        s.toList.take 5 ∈ ["INSTA".toList, "TRAIN".toList, "NUM_F".toList, "NUM_T".toList, "CLASS".toList, "COND_".toList]) ∧
      (∀ w : Writer, w.closed = false → saveNB G nilVals num fin nb fitOn w pre = Res.ok ⟨w.entries ++ es, false⟩) ∧
      ∀ ar, Agrees ar es → ∃ r, loadNB G viaFloat val ar pre = Res.ok r ∧ nb.Same r.1 ∧
        SameStructure (.dense fitOn) (.dense r.2) ∧ (Grid.dense r.2).Presents 0 ∧ ∀ a ∈ r.1.attrs, a ∈ r.2.allAttributes := by
  obtain ⟨gs, g1, g2, d, g3, g4, g5, _, g6, _⟩ := grid_entries G hG nilVals viaFloat (.dense fitOn) 0 hk.grid []
    (by simp [Grid.RowOrder, hk.empty]) (Or.inl rfl) (tarPrefix pre "INSTANCE_STRUCTURE")
  obtain ⟨as', r1, r2, r3⟩ := replaceAttrs_spec g5 g6 nb.attrs hk.attrs
  obtain ⟨jc, c1, c2⟩ := cond_roundtrip nb.condProb hk.probs
  obtain ⟨A, hA⟩ : ∃ A, A = writeAttributesForKey nilVals [] (tarPrefix pre "TRAINING_ATTRIBUTES") (nb.attrs.map Attr.body) := ⟨_, rfl⟩
  have hgn : ∀ e ∈ gs, ∃ s, e.1 = tarPrefix pre ("INSTANCE_STRUCTURE" ++ s) := by
    intro e he
    obtain ⟨s, _, hs⟩ := g2 e he
    exact ⟨s, by rw [hs, tarPrefix_append]⟩
  have hAn : ∀ e ∈ A, ∃ s, e.1 = tarPrefix pre ("TRAINING_ATTRIBUTES" ++ s) := by
    intro e he
    rw [hA] at he
    obtain ⟨s, hs⟩ := writeAttributes_names _ _ _ e he
    have hne : tarPrefix pre "TRAINING_ATTRIBUTES" ≠ "" := by
      unfold tarPrefix
      split
      · decide
      · intro h
        rw [String.ext_iff] at h
        simp at h
    refine ⟨"/" ++ s, ?_⟩
    rw [hs, tarPrefix_append]
    rw [tarPrefix_of_ne hne, String.append_assoc]
  have nI : ∀ (x s : String), x.toList.take 5 ≠ "INSTA".toList → tarPrefix pre x ≠ tarPrefix pre ("INSTANCE_STRUCTURE" ++ s) := by
    intro x s hx
    apply tag_ne pre (n := 5)
    rw [tag_append _ _ _ (by decide)]
    exact hx
  have nT : ∀ (x s : String), x.toList.take 5 ≠ "TRAIN".toList → tarPrefix pre x ≠ tarPrefix pre ("TRAINING_ATTRIBUTES" ++ s) := by
    intro x s hx
    apply tag_ne pre (n := 5)
    rw [tag_append _ _ _ (by decide)]
    exact hx
  obtain ⟨rest, hrest⟩ : ∃ rest : Archive, rest =
      [(tarPrefix pre "NUM_FEATURES", .bytes (packU64 (BitVec.ofNat 64 nb.features))),
        (tarPrefix pre "NUM_TRAINING_INSTANCES", .bytes (packU64 (BitVec.ofNat 64 nb.rows))),
        (tarPrefix pre "CLASS_INSTANCES", .json (distToJson nb.inst)), (tarPrefix pre "COND_MAP", .json jc)] := ⟨_, rfl⟩
  have hrn : ∀ e ∈ rest, ∃ s, e.1 = tarPrefix pre s ∧
      s.toList.take 5 ∈ ["NUM_F".toList, "NUM_T".toList, "CLASS".toList, "COND_".toList] := by
    intro e he
    rw [hrest] at he
    simp only [List.mem_cons, List.not_mem_nil, or_false] at he
    rcases he with rfl | rfl | rfl | rfl <;> exact ⟨_, rfl, by decide⟩
  refine ⟨gs ++ (A ++ rest), ?_, ?_, ?_⟩
  · intro e he
    rcases List.mem_append.1 he with he | he
    · obtain ⟨s, hs⟩ := hgn e he
      refine ⟨_, hs, ?_⟩
      rw [tag_append _ _ _ (by decide)]
      decide
    · rcases List.mem_append.1 he with he | he
      · obtain ⟨s, hs⟩ := hAn e he
        refine ⟨_, hs, ?_⟩
        rw [tag_append _ _ _ (by decide)]
        decide
      · obtain ⟨s, hs, ht⟩ := hrn e he
        exact ⟨s, hs, List.mem_cons_of_mem _ (List.mem_cons_of_mem _ ht)⟩
  · intro w hw
    obtain ⟨we, wc⟩ := w
    cases hw
    unfold saveNB
    rw [structure_eq G nilVals fitOn _ gs g1 _ rfl, Res.bind_ok]
    simp only [Writer.attributes, Writer.write, writeForKey, Bool.false_eq_true, if_false, Res.bind_ok, c1]
    rw [writeAttributes_append, ← hA]
    simp [hrest]
  · intro ar ha
    have a1 := agrees_append_left ha
    have a2 := agrees_append_right ha (by
      intro p hp q hq
      obtain ⟨s, hs⟩ := hgn p hp
      rw [hs]
      rcases List.mem_append.1 hq with hq | hq
      · obtain ⟨t, ht⟩ := hAn q hq
        rw [ht]
        refine (nI _ s ?_).symm
        rw [tag_append _ _ _ (by decide)]
        decide
      · obtain ⟨t, ht, hm⟩ := hrn q hq
        rw [ht]
        refine (nI _ s ?_).symm
        intro e
        rw [e] at hm
        exact absurd hm (by decide))
    have a3 := agrees_append_left a2
    have a4 := agrees_append_right a2 (by
      intro p hp q hq
      obtain ⟨s, hs⟩ := hAn p hp
      rw [hs]
      obtain ⟨t, ht, hm⟩ := hrn q hq
      rw [ht]
      refine (nT _ s ?_).symm
      intro e
      rw [e] at hm
      exact absurd hm (by decide))
    have n1 : tarPrefix pre "NUM_FEATURES" ≠ tarPrefix pre "NUM_TRAINING_INSTANCES" := tag_ne pre (n := 5) (by decide)
    have n2 : tarPrefix pre "NUM_FEATURES" ≠ tarPrefix pre "CLASS_INSTANCES" := tag_ne pre (n := 5) (by decide)
    have n3 : tarPrefix pre "NUM_FEATURES" ≠ tarPrefix pre "COND_MAP" := tag_ne pre (n := 5) (by decide)
    have n4 : tarPrefix pre "NUM_TRAINING_INSTANCES" ≠ tarPrefix pre "CLASS_INSTANCES" := tag_ne pre (n := 5) (by decide)
    have n5 : tarPrefix pre "NUM_TRAINING_INSTANCES" ≠ tarPrefix pre "COND_MAP" := tag_ne pre (n := 5) (by decide)
    have n6 : tarPrefix pre "CLASS_INSTANCES" ≠ tarPrefix pre "COND_MAP" := tag_ne pre (n := 5) (by decide)
    rw [hrest] at a4
    have f1 : getU64ForKey ar (tarPrefix pre "NUM_FEATURES") = Res.ok (BitVec.ofNat 64 nb.features) := by
      rw [getU64ForKey, getNamedFile_eq_of_mem a4 (by rw [getNamedFile, if_pos rfl]), Res.bind_ok]
      exact C01_unpack_pack _
    have f2 : getU64ForKey ar (tarPrefix pre "NUM_TRAINING_INSTANCES") = Res.ok (BitVec.ofNat 64 nb.rows) := by
      rw [getU64ForKey, getNamedFile_eq_of_mem a4 (by rw [getNamedFile, if_neg n1, getNamedFile, if_pos rfl]), Res.bind_ok]
      exact C01_unpack_pack _
    have f3 : getJsonForKey ar (tarPrefix pre "CLASS_INSTANCES") = Res.ok (distToJson nb.inst) := by
      rw [getJsonForKey, getNamedFile_eq_of_mem a4 (by
        rw [getNamedFile, if_neg n2, getNamedFile, if_neg n4, getNamedFile, if_pos rfl]), Res.bind_ok]
    have f4 : getJsonForKey ar (tarPrefix pre "COND_MAP") = Res.ok jc := by
      rw [getJsonForKey, getNamedFile_eq_of_mem a4 (by
        rw [getNamedFile, if_neg n3, getNamedFile, if_neg n5, getNamedFile, if_neg n6, getNamedFile, if_pos rfl]), Res.bind_ok]
    have f5 : getAttributesForKey viaFloat ar (tarPrefix pre "TRAINING_ATTRIBUTES") = Res.ok (nb.attrs.map Attr.body) := by
      refine getAttributes_agrees nilVals viaFloat _ _ (by simpa using hk.few) ?_ ar (hA ▸ a3)
      intro b hb
      obtain ⟨a, ha, rfl⟩ := List.mem_map.1 hb
      exact hk.grid.kept a (hk.attrs a ha)
    refine ⟨(⟨nb.condProb, nb.inst, nb.rows, nb.features, as'⟩, d), ?_, ⟨rfl, rfl, rfl, rfl, r2⟩, g6, g4, r3⟩
    unfold loadNB
    rw [g3 ar a1, Res.bind_ok, f5, Res.bind_ok, r1, Res.bind_ok, f1, Res.bind_ok, f2, Res.bind_ok, f3, Res.bind_ok, dist_roundtrip,
      Res.bind_ok, f4, Res.bind_ok, c2, Res.map_ok, BitVec.toNat_ofNat, BitVec.toNat_ofNat, Nat.mod_eq_of_lt hk.rows,
      Nat.mod_eq_of_lt hk.features]

end Golearn
