import Verif.Spec.SaveGrid
import Verif.Proofs.Save

/-! # Grids inside saved models -/

namespace Golearn

/-- The last parts of the names of the entries of a grid. -/
def gridKeys : List String := ["MANIFEST", "DIMS", "CATTRS", "ATTRS", "DATA"]

theorem deserialize_congr (pg : Nat) (fresh : Nat → Nat) (viaFloat : Int → Int) (srt : List Spec → List Spec)
    (chunk : Nat → Nat → Nat) (ar ar' : Archive) (key : String)
    (h : ∀ s ∈ gridKeys, getNamedFile ar (key ++ s) = getNamedFile ar' (key ++ s)) :
    deserializeInstances pg fresh viaFloat srt chunk ar key = deserializeInstances pg fresh viaFloat srt chunk ar' key := by
  have h1 := h "MANIFEST" (by simp [gridKeys])
  have h2 := h "DIMS" (by simp [gridKeys])
  have h3 := h "CATTRS" (by simp [gridKeys])
  have h4 := h "ATTRS" (by simp [gridKeys])
  have h5 := h "DATA" (by simp [gridKeys])
  unfold deserializeInstances
  rw [h1, h2, h3, h4, h5]

theorem serialize_entries {srt : List Spec → List Spec} {nilVals : Bool} {cls nrm : List Attr} {order : List Nat} {g : Grid}
    {key : String} {es : Archive} (h : serializeInstances srt nilVals cls nrm order g key = Res.ok es) :
    (∀ e ∈ es, ∃ s ∈ gridKeys, e.1 = key ++ s) ∧ (∀ s ∈ gridKeys, ∃ e ∈ es, e.1 = key ++ s) ∧
      getNamedFile es (key ++ "DIMS") =
        Res.ok (.bytes (packU64 (BitVec.ofNat 64 g.size.1) ++ packU64 (BitVec.ofNat 64 g.size.2))) := by
  unfold serializeInstances at h
  split at h
  · cases h
  · obtain ⟨specs, _, h⟩ := Res.bind_eq_ok.1 h
    obtain ⟨data, _, rfl⟩ := Res.map_eq_ok.1 h
    refine ⟨?_, ?_, ?_⟩
    · intro e he
      simp only [List.mem_cons, List.not_mem_nil, or_false] at he
      rcases he with rfl | rfl | rfl | rfl | rfl <;> exact ⟨_, by simp [gridKeys], rfl⟩
    · intro s hs
      simp only [gridKeys, List.mem_cons, List.not_mem_nil, or_false] at hs
      rcases hs with rfl | rfl | rfl | rfl | rfl <;> simp
    · have : key ++ "MANIFEST" ≠ key ++ "DIMS" := by
        intro e
        rw [String.ext_iff] at e
        simp at e
      simp [getNamedFile, this]

theorem deserialize_chunk (pg : Nat) (fresh : Nat → Nat) (viaFloat : Int → Int) (srt : List Spec → List Spec)
    (chunk chunk' : Nat → Nat → Nat) (ar : Archive) (key : String) (m : U64)
    (h : getNamedFile ar (key ++ "DIMS") = Res.ok (.bytes (packU64 m ++ packU64 0#64))) :
    deserializeInstances pg fresh viaFloat srt chunk ar key = deserializeInstances pg fresh viaFloat srt chunk' ar key := by
  have hl : (packU64 m).length = 8 := rfl
  have h0 : unpackU64 ((packU64 m ++ packU64 0#64).drop 8) = Res.ok 0#64 := by
    rw [List.drop_left' hl]; rfl
  unfold deserializeInstances
  rw [h]
  simp only [Res.bind_ok, h0]
  rfl

/-- Writing a grid that is kept and reading it back. -/
theorem grid_entries (G : GridEnv) (hG : G.Ok) (nilVals : Bool) (viaFloat : Int → Int) (g : Grid) (n : Nat)
    (hg : GridKept nilVals viaFloat g n) (order : List Nat) (ho : g.RowOrder order)
    (hread : n = 0 ∨ ReadsSuffice G.chunk g) (key : String) :
    ∃ es, serializeInstances G.srt nilVals (G.cls g) (G.nrm g) order g key = Res.ok es ∧
      (∀ e ∈ es, ∃ s ∈ gridKeys, e.1 = key ++ s) ∧
      ∃ d, (∀ ar, Agrees ar es → getInstancesForKey G viaFloat ar key = Res.ok d) ∧
        (Grid.dense d).Presents n ∧ (Grid.dense d).distinct ∧ (Grid.dense d).typed n ∧ SameStructure g (.dense d) ∧
        ∀ a ∈ g.allAttributes, ∀ a' ∈ d.allAttributes, a'.body = a.body →
          ∀ i (h : i < order.length), (Grid.dense d).cell a' i = g.cell a order[i] := by
  have main : ∀ chunk, ReadsSuffice chunk g → ∃ es d,
      serializeInstances G.srt nilVals (G.cls g) (G.nrm g) order g key = Res.ok es ∧
      deserializeInstances G.pg G.fresh viaFloat G.srt chunk es key = Res.ok d ∧
        (Grid.dense d).Presents n ∧ (Grid.dense d).distinct ∧ (Grid.dense d).typed n ∧ SameStructure g (.dense d) ∧
        ∀ a ∈ g.allAttributes, ∀ a' ∈ d.allAttributes, a'.body = a.body →
          ∀ i (h : i < order.length), (Grid.dense d).cell a' i = g.cell a order[i] := by
    intro chunk hc
    obtain ⟨es, d, h1, h2, h3, h4, h5, h6, h8, h7⟩ := C31_roundtrip_partial G.pg G.fresh viaFloat G.srt hG.sort chunk nilVals g n
      hg.presents hg.distinct hg.typed hg.width hg.short hg.few hg.classes hg.classNodup
      (fun a ha s => (hg.kept a ha).1 s) (fun a ha s k => (hg.kept a ha).2 s k) (G.cls g) (G.nrm g) (hG.cls g) (hG.nrm g)
      order ho hc key [] [] (by simp)
    refine ⟨es, d, h1, by simpa using h2, h3, h4, h5, ⟨h6, h8, ?_⟩, ?_⟩
    · exact fun a ha a' ha' e => (h7 a ha a' ha' e).1
    · exact fun a ha a' ha' e => (h7 a ha a' ha' e).2
  have fin : ∃ es d, serializeInstances G.srt nilVals (G.cls g) (G.nrm g) order g key = Res.ok es ∧
      deserializeInstances G.pg G.fresh viaFloat G.srt G.chunk es key = Res.ok d ∧
        (Grid.dense d).Presents n ∧ (Grid.dense d).distinct ∧ (Grid.dense d).typed n ∧ SameStructure g (.dense d) ∧
        ∀ a ∈ g.allAttributes, ∀ a' ∈ d.allAttributes, a'.body = a.body →
          ∀ i (h : i < order.length), (Grid.dense d).cell a' i = g.cell a order[i] := by
    rcases hread with rfl | h
    · obtain ⟨es, d, h1, h2, h3⟩ := main (fun _ w => w) (Or.inl fun _ _ => Nat.le_refl _)
      refine ⟨es, d, h1, ?_, h3⟩
      rw [← h2]
      apply deserialize_chunk (m := BitVec.ofNat 64 g.size.1)
      rw [(serialize_entries h1).2.2, hg.presents.rows]
    · exact main _ h
  obtain ⟨es, d, h1, h2, h3, h4, h5, h6, h7⟩ := fin
  refine ⟨es, h1, (serialize_entries h1).1, d, ?_, h3, h4, h5, h6, h7⟩
  intro ar ha
  rw [getInstancesForKey, deserialize_congr _ _ _ _ _ ar es, h2]
  intro s hs
  obtain ⟨e, he, hk⟩ := (serialize_entries h1).2.1 s hs
  rw [← hk, ha e he]

theorem structure_eq (G : GridEnv) (nilVals : Bool) (d : Dense) (key : String) (es : Archive)
    (h : serializeInstances G.srt nilVals (G.cls (.dense d)) (G.nrm (.dense d)) [] (.dense d) key = Res.ok es) (w : Writer)
    (hw : w.closed = false) : w.structure G nilVals key d = Res.ok ⟨w.entries ++ es, false⟩ := by
  simp [Writer.structure, hw, h]

/-! ## Attributes of the grid that was read -/

theorem replaceAttr_spec {b : AttrBody} {as : List Attr} (hd : as.Pairwise fun a b => a.equals b = false) {a : Attr} (ha : a ∈ as)
    (hb : a.body = b) : replaceAttr b as = Res.ok a := by
  induction as with
  | nil => cases ha
  | cons c cs ih =>
    rw [List.pairwise_cons] at hd
    rw [replaceAttr]
    have hcb : c.equals ⟨0, b⟩ = c.equals a := by rw [equals_body, equals_body c a, hb]
    rw [hcb]
    rcases List.mem_cons.1 ha with rfl | h
    · rw [C28_equals_refl]; rfl
    · rw [hd.1 a h]
      exact ih hd.2 h

theorem natOfKey_repr (n : Nat) : natOfKey (Nat.repr n) = some n := by
  have h1 : (Nat.repr n).toList.all Char.isDigit = true := by
    rw [Nat.toList_repr, List.all_eq_true]
    intro c hc
    exact Nat.isDigit_of_mem_toDigits (by decide) (by decide) hc
  have h2 : (Nat.repr n).toList ≠ [] := by
    rw [Nat.toList_repr]
    exact Nat.toDigits_ne_nil
  have h3 : (Nat.repr n).toList.isEmpty = false := by simpa using h2
  have h4 : Nat.ofDigitChars 10 (Nat.repr n).toList 0 = n := by
    rw [Nat.toList_repr]; simp
  unfold natOfKey
  rw [h1, h3, h4]
  rfl

theorem repr_no_slash (n : Nat) : '/' ∉ (Nat.repr n).toList := by
  rw [Nat.toList_repr]
  intro h
  have := Nat.isDigit_of_mem_toDigits (by decide) (by decide) h
  exact absurd this (by decide)

theorem slash_split {a b x y : List Char} (ha : '/' ∉ a) (hb : '/' ∉ b) (h : a ++ '/' :: x = b ++ '/' :: y) : a = b := by
  induction a generalizing b with
  | nil =>
    cases b with
    | nil => rfl
    | cons c cs =>
      simp only [List.nil_append, List.cons_append, List.cons.injEq] at h
      exact absurd h.1 (by rintro rfl; simp at hb)
  | cons c cs ih =>
    cases b with
    | nil =>
      simp only [List.nil_append, List.cons_append, List.cons.injEq] at h
      exact absurd h.1 (by rintro rfl; simp at ha)
    | cons e es =>
      simp only [List.cons_append, List.cons.injEq] at h
      rw [h.1, ih (by simp at ha; exact ha.2) (by simp at hb; exact hb.2) h.2]

end Golearn
