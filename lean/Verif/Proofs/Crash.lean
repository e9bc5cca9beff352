import Verif.Spec.Crash
import Verif.Model.SaveSvc
import Verif.Model.SaveNB
import Verif.Model.SaveKnn
import Verif.Proofs.Save

/-! # Reading files whose writing was interrupted -/

namespace Golearn

theorem same_refl {α : Type} (x : Res α) : SameOrError x x := Or.inr rfl

theorem same_bind {α β : Type} {x y : Res α} {f g : α → Res β} (h : SameOrError x y) (hf : ∀ a, SameOrError (f a) (g a)) :
    SameOrError (x.bind f) (y.bind g) := by
  rcases h with rfl | rfl
  · exact Or.inl rfl
  · cases x with
    | ok a => exact hf a
    | err => exact Or.inl rfl
    | panic => exact Or.inr rfl

theorem same_map {α β : Type} {x y : Res α} (f : α → β) (h : SameOrError x y) : SameOrError (x.map f) (y.map f) :=
  same_bind h fun a => same_refl (Res.ok (f a))

theorem same_mapRes {α β : Type} {f g : α → Res β} (l : List α) (h : ∀ a ∈ l, SameOrError (f a) (g a)) :
    SameOrError (mapRes f l) (mapRes g l) := by
  induction l with
  | nil => exact same_refl _
  | cons a l ih =>
    exact same_bind (h a (by simp)) fun b => same_bind (ih fun x hx => h x (by simp [hx])) fun bs => same_refl _

theorem same_named {cut full : Archive} (h : CutShort cut full) (key : String) :
    SameOrError (getNamedFile cut key) (getNamedFile full key) := by
  obtain ⟨lost, rfl⟩ := h
  induction cut with
  | nil => exact Or.inl rfl
  | cons e cut ih =>
    simp only [List.cons_append, getNamedFile]
    split
    · exact same_refl _
    · exact ih

theorem same_u64 {cut full : Archive} (h : CutShort cut full) (key : String) :
    SameOrError (getU64ForKey cut key) (getU64ForKey full key) :=
  same_bind (same_named h key) fun _ => same_refl _

theorem same_attr {cut full : Archive} (h : CutShort cut full) (viaFloat : Int → Int) (key : String) :
    SameOrError (getAttributeForKey viaFloat cut key) (getAttributeForKey viaFloat full key) :=
  same_bind (same_named h key) fun _ => same_refl _

theorem same_attrs {cut full : Archive} (h : CutShort cut full) (viaFloat : Int → Int) (key : String) :
    SameOrError (getAttributesForKey viaFloat cut key) (getAttributesForKey viaFloat full key) :=
  same_bind (same_u64 h _) fun _ => same_mapRes _ fun _ _ => same_attr h _ _

theorem same_json {cut full : Archive} (h : CutShort cut full) (key : String) :
    SameOrError (getJsonForKey cut key) (getJsonForKey full key) :=
  same_bind (same_named h key) fun _ => same_refl _

theorem same_metadata {cut full : Archive} (h : CutShort cut full) (pre : String) :
    SameOrError (readMetadataAt cut pre) (readMetadataAt full pre) :=
  same_bind (same_named h _) fun _ => same_refl _

/-- Reading the cells from the first part of the data. -/
theorem same_cells (chunk : Nat → Nat → Nat) (cells : List (Spec × Nat)) : ∀ (d : Dense) (off : Nat) (part rest : Bytes),
    SameOrError (readCells chunk d cells off part) (readCells chunk d cells off (part ++ rest)) := by
  induction cells with
  | nil => intro d off part rest; exact same_refl _
  | cons c cells ih =>
    intro d off part rest
    obtain ⟨s, i⟩ := c
    rw [readCells, readCells]
    refine same_bind (same_refl _) fun r => ?_
    simp only [List.length_append]
    by_cases h1 : min (min (chunk off r.length) r.length) part.length = r.length
    · have h2 : min (min (chunk off r.length) r.length) (part.length + rest.length) = r.length := by omega
      have h3 : r.length ≤ part.length := by omega
      rw [h1, h2, if_neg (by simp), if_neg (by simp), List.take_append_of_le_length h3, List.drop_append_of_le_length h3]
      refine same_bind (same_refl _) fun d' => ?_
      by_cases h4 : ((part.drop r.length).isEmpty && !cells.isEmpty) = true
      · rw [if_pos h4]; exact Or.inl rfl
      · rw [if_neg h4, if_neg]
        · exact ih d' _ _ _
        · intro h5
          apply h4
          simp only [Bool.and_eq_true, List.isEmpty_iff, List.append_eq_nil_iff] at h5 ⊢
          exact ⟨h5.1.1, h5.2⟩
    · rw [if_pos h1]; exact Or.inl rfl

/-- Reading a table from two files, of which the first has less. -/
theorem same_table (pg : Nat) (fresh : Nat → Nat) (viaFloat : Int → Int) (srt : List Spec → List Spec)
    (chunk : Nat → Nat → Nat) (cut full : Archive) (pre : String)
    (h : ∀ s, s ≠ "DATA" → SameOrError (getNamedFile cut (pre ++ s)) (getNamedFile full (pre ++ s)))
    (hd : SameOrError (getNamedFile cut (pre ++ "DATA")) (getNamedFile full (pre ++ "DATA")) ∨
      ∃ part rest, getNamedFile cut (pre ++ "DATA") = Res.ok (.bytes part) ∧
        getNamedFile full (pre ++ "DATA") = Res.ok (.bytes (part ++ rest))) :
    SameOrError (deserializeInstances pg fresh viaFloat srt chunk cut pre) (deserializeInstances pg fresh viaFloat srt chunk full pre) := by
  unfold deserializeInstances
  refine same_bind (h _ (by decide)) fun m => ?_
  cases m with
  | json _ => exact same_refl _
  | bytes mb =>
    dsimp only
    split
    · exact same_refl _
    refine same_bind (h _ (by decide)) fun dims => ?_
    cases dims with
    | json _ => exact same_refl _
    | bytes db =>
      dsimp only
      split
      · exact same_refl _
      refine same_bind (same_refl _) fun attrCount => same_bind (same_refl _) fun rowCount => same_bind (h _ (by decide)) fun cj => ?_
      cases cj with
      | bytes _ => exact same_refl _
      | json cj =>
        refine same_bind (same_refl _) fun cbodies => same_bind (h _ (by decide)) fun nj => ?_
        cases nj with
        | bytes _ => exact same_refl _
        | json nj =>
          refine same_bind (same_refl _) fun nbodies => same_bind (same_refl _) fun d1 => same_bind (same_refl _) fun d2 => ?_
          split
          · exact same_refl _
          rcases hd with hd | ⟨part, rest, e1, e2⟩
          · exact same_bind hd fun data => same_refl _
          · rw [e1, e2]
            simp only [Res.bind_ok]
            exact same_bind (same_refl _) fun specs => same_cells _ _ _ _ _ _

theorem same_instances {cut full : Archive} (h : CutShort cut full) (G : GridEnv) (viaFloat : Int → Int) (key : String) :
    SameOrError (getInstancesForKey G viaFloat cut key) (getInstancesForKey G viaFloat full key) :=
  same_table _ _ _ _ _ _ _ _ (fun _ _ => same_named h _) (Or.inl (same_named h _))

/-- A part of a file that loads the same or not at all, read after the head of the file. -/
theorem same_stub {α : Type} {cut full : Archive} (h : CutShort cut full) (load : Archive → Res α)
    (hl : SameOrError (load cut) (load full)) : SameOrError ((readStub cut).bind load) ((readStub full).bind load) := by
  unfold readStub
  have h1 := same_named h "CLS_MANIFEST"
  rcases h1 with h1 | h1
  · rw [h1]; exact Or.inl rfl
  · rw [h1]
    cases getNamedFile full "CLS_MANIFEST" with
    | err => exact Or.inl rfl
    | panic => exact Or.inr rfl
    | ok p =>
      cases p with
      | json _ => exact same_refl _
      | bytes b =>
        simp only [Res.bind_ok]
        split
        · exact same_refl _
        · have h2 := same_metadata h ""
          rcases h2 with h2 | h2
          · rw [h2]; exact Or.inl rfl
          · rw [h2]
            cases readMetadataAt full "" with
            | err => exact Or.inl rfl
            | panic => exact Or.inr rfl
            | ok m =>
              simp only [Res.bind_ok]
              split
              · exact hl
              · exact same_refl _

theorem same_tree {cut full : Archive} (h : CutShort cut full) (L : LoadEnv) (pre : String) :
    SameOrError (loadTree L cut pre) (loadTree L full pre) := by
  refine same_bind (same_named h _) fun p => ?_
  cases p with
  | bytes _ => exact same_refl _
  | json j => exact same_bind (same_refl _) fun t => same_map _ (same_attr h _ _)

theorem same_knn {cut full : Archive} (h : CutShort cut full) (G : GridEnv) (viaFloat : Int → Int) (pre : String) :
    SameOrError (loadKnn G viaFloat cut pre) (loadKnn G viaFloat full pre) := by
  refine same_bind (same_metadata h _) fun j => same_bind (same_refl _) fun name => same_bind (same_refl _) fun version => ?_
  split
  · exact same_refl _
  split
  · exact same_refl _
  exact same_bind (same_refl _) fun _ => same_bind (same_refl _) fun _ => same_bind (same_refl _) fun _ =>
    same_bind (same_refl _) fun _ => same_bind (same_refl _) fun _ => same_map _ (same_instances h _ _ _)

theorem same_bag {μ : Type} {cut full : Archive} (h : CutShort cut full) (G : GridEnv) (viaFloat : Int → Int)
    (load : Nat → Archive → String → Res μ) (hl : ∀ i pre, SameOrError (load i cut pre) (load i full pre)) (count : Nat) (pre : String) :
    SameOrError (loadBag G viaFloat load count cut pre) (loadBag G viaFloat load count full pre) :=
  same_bind (same_u64 h _) fun _ => same_bind (same_mapRes _ fun i _ => hl i _) fun _ => same_bind (same_instances h _ _ _) fun _ =>
    same_bind (same_named h _) fun _ => same_refl _

section
variable {K : Type}

theorem same_nb {cut full : Archive} (h : CutShort cut full) (G : GridEnv) (viaFloat : Int → Int) (val : U64 → K) (pre : String) :
    SameOrError (loadNB G viaFloat val cut pre) (loadNB G viaFloat val full pre) :=
  same_bind (same_instances h _ _ _) fun _ => same_bind (same_attrs h _ _) fun _ => same_bind (same_refl _) fun _ =>
    same_bind (same_u64 h _) fun _ => same_bind (same_u64 h _) fun _ => same_bind (same_json h _) fun _ => same_bind (same_refl _) fun _ =>
      same_bind (same_json h _) fun _ => same_refl _
end

section
variable {K : Type} [Field K] [LinearOrder K]

theorem same_svc {cut full : Archive} (h : CutShort cut full) (E : SvcEnv K) (pre : String) :
    SameOrError (loadSvc E cut pre) (loadSvc E full pre) :=
  same_bind (same_json h _) fun _ => same_bind (same_refl _) fun _ => same_bind (same_named h _) fun _ => same_refl _
end

theorem same_ovaFilter {cut full : Archive} (h : CutShort cut full) (viaFloat : Int → Int) (fresh : Nat → Nat) (fitOn : Dense) (key : String) :
    SameOrError (loadOvaFilter viaFloat fresh fitOn cut key) (loadOvaFilter viaFloat fresh fitOn full key) :=
  same_bind (same_u64 h _) fun _ => same_bind (same_mapRes _ fun _ _ => same_bind (same_attr h _ _) fun _ => same_bind (same_attr h _ _) fun _ =>
    same_refl _) fun _ => same_bind (same_attr h _ _) fun _ => same_bind (same_refl _) fun _ => same_map _ (same_u64 h _)

theorem same_ova {μ : Type} {cut full : Archive} (h : CutShort cut full) (G : GridEnv) (viaFloat : Int → Int) (mk : String → Res Unit)
    (load : String → Archive → String → Res μ) (hl : ∀ s pre, SameOrError (load s cut pre) (load s full pre)) (fresh : Nat → Nat → Nat)
    (freshF : Attr → Nat) (ordF : Nat → List FAttr → List FAttr) (pre : String) :
    SameOrError (loadOva G viaFloat mk load fresh freshF ordF cut pre) (loadOva G viaFloat mk load fresh freshF ordF full pre) :=
  same_bind (same_instances h _ _ _) fun _ => same_bind (same_refl _) fun _ => same_bind (same_refl _) fun _ =>
    same_bind (same_u64 h _) fun _ => same_bind (same_mapRes _ fun _ _ => same_ovaFilter h _ _ _ _) fun _ =>
      same_bind (same_json h _) fun _ => same_bind (same_refl _) fun _ => same_map _ (same_mapRes _ fun p _ => hl p.1 _)

section
variable {K : Type} [Field K] [LinearOrder K]

theorem same_multi {cut full : Archive} (h : CutShort cut full) (G : GridEnv) (viaFloat : Int → Int) (E : SvcEnv K)
    (old : Option (GoMap String K)) (fresh : Nat → Nat → Nat) (freshF : Attr → Nat) (ordF : Nat → List FAttr → List FAttr) (pre : String) :
    SameOrError (loadMulti G viaFloat E old fresh freshF ordF cut pre) (loadMulti G viaFloat E old fresh freshF ordF full pre) :=
  same_bind (same_json h _) fun _ => same_bind (same_refl _) fun _ => same_bind (same_json h _) fun _ => same_bind (same_refl _) fun _ =>
    same_map _ (same_ova h _ _ _ _ (fun _ _ => same_bind (same_refl _) fun _ => same_svc h _ _) _ _ _ _)
end

end Golearn
