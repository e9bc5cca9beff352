import Verif.Props.C151
import Verif.Props.C148
import Verif.Props.C69
import Verif.Props.C35
import Verif.Props.C12
import Verif.Props.C14
import Verif.Proofs.Schema
import Verif.Spec.Reorder

/-! # Lemmas: the same rows in another order -/

namespace Golearn

section
variable {g g' : Grid} {n : Nat} {σ : Nat → Nat}

theorem Reordered.lt (R : Reordered g g' n σ) {r : Nat} (hr : r < n) : σ r < n :=
  List.mem_range.1 (R.rows.subset (List.mem_map_of_mem (List.mem_range.2 hr)))

theorem Reordered.onto (R : Reordered g g' n σ) {q : Nat} (hq : q < n) : ∃ r, r < n ∧ σ r = q := by
  obtain ⟨r, hr, h⟩ := List.mem_map.1 (R.rows.symm.subset (List.mem_range.2 hq))
  exact ⟨r, List.mem_range.1 hr, h⟩

theorem Reordered.typed (R : Reordered g g' n σ) (T : g.typed n) : g'.typed n := by
  intro a ha r hr
  rw [R.attrs] at ha
  rw [R.cells a ha r hr]
  exact T a ha _ (R.lt hr)

theorem Reordered.readsAs (R : Reordered g g' n σ) {fo : FloatOps} {a : Attr} (ha : a ∈ g.allAttributes) {lab : Nat → String}
    (h : ReadsAs fo g a n lab) : ReadsAs fo g' a n fun r => lab (σ r) := by
  intro r hr
  rw [R.cells a ha r hr]
  exact h _ (R.lt hr)

theorem Reordered.label (R : Reordered g g' n σ) {fo : FloatOps} {a : Attr} (ha : a ∈ g.allAttributes) {lab lab' : Nat → String}
    (h : ReadsAs fo g a n lab) (h' : ReadsAs fo g' a n lab') {r : Nat} (hr : r < n) : lab' r = lab (σ r) :=
  Res.ok.inj ((h' r hr).symm.trans (R.readsAs ha h r hr))

theorem Reordered.treeData (R : Reordered g g' n σ) {fo : FloatOps} {lab : Nat → String} {cls : Attr}
    (D : TreeData fo g n lab cls) : TreeData fo g' n (fun r => lab (σ r)) cls where
  rows := R.table
  distinct := by unfold Grid.distinct; rw [R.attrs]; exact D.distinct
  typed := R.typed D.typed
  readable := by
    intro a ha r hr
    rw [R.attrs] at ha
    rw [R.cells a ha r hr]
    exact D.readable a ha _ (R.lt hr)
  nonempty := D.nonempty
  width := by rw [R.width, R.attrs]; exact D.width
  wide := by rw [R.attrs]; exact D.wide
  classAttr := by rw [R.classes]; exact D.classAttr
  classIn := by rw [R.attrs]; exact D.classIn
  label := R.readsAs D.classIn D.label

theorem Reordered.branch (R : Reordered g g' n σ) {fo : FloatOps} {r : Rule} (ha : r.attr ∈ g.allAttributes) {i : Nat} (hi : i < n) :
    g'.branch fo r i = g.branch fo r (σ i) := by
  unfold Grid.branch
  rw [R.cells _ ha i hi]

theorem Reordered.countRows (R : Reordered g g' n σ) {p p' : Nat → Bool} (h : ∀ r, r < n → p' r = p (σ r)) :
    countRows n p' = countRows n p := by
  unfold Golearn.countRows
  rw [← (R.rows.filter p).length_eq, List.filter_map, List.length_map]
  congr 1
  apply List.filter_congr
  intro r hr
  exact h r (List.mem_range.1 hr)

theorem Reordered.nonClass (R : Reordered g g' n σ) : g'.nonClass = g.nonClass := by
  unfold Grid.nonClass
  rw [R.attrs, R.classes]

theorem nonClass_mem {a : Attr} (h : a ∈ g.nonClass) : a ∈ g.allAttributes := (List.mem_filter.1 h).1

theorem Reordered.hasFeature (R : Reordered g g' n σ) {a : Attr} (ha : a ∈ g.nonClass) {r : Nat} (hr : r < n) :
    g'.hasFeature a r = g.hasFeature a (σ r) := by
  unfold Grid.hasFeature
  rw [R.cells a (nonClass_mem ha) r hr]

theorem Reordered.binaryData (R : Reordered g g' n σ) {fo : FloatOps} {k : Nat → String} (D : BinaryData fo g n k) :
    BinaryData fo g' n fun r => k (σ r) where
  table := R.table
  binary := by rw [R.nonClass]; exact D.binary
  bytes := by
    intro a ha r hr
    rw [R.nonClass] at ha
    rw [R.cells a (nonClass_mem ha) r hr]
    exact D.bytes a ha _ (R.lt hr)
  cls := by
    obtain ⟨c, h1, h2, h3⟩ := D.cls
    exact ⟨c, by rw [R.classes]; exact h1, by rw [R.attrs]; exact h2, R.readsAs h2 h3⟩

theorem Reordered.docsIn (R : Reordered g g' n σ) (k : Nat → String) (c : String) :
    docsIn n (fun r => k (σ r)) c = docsIn n k c := R.countRows fun _ _ => rfl

theorem Reordered.docsWith (R : Reordered g g' n σ) (k : Nat → String) (c : String) {a : Attr} (ha : a ∈ g.nonClass) :
    docsWith g' n (fun r => k (σ r)) c a = docsWith g n k c a := R.countRows fun r hr => by rw [R.hasFeature ha hr]

theorem Reordered.classHasFeature (R : Reordered g g' n σ) {k : Nat → String} {c : String} (h : ClassHasFeature g n k c) :
    ClassHasFeature g' n (fun r => k (σ r)) c := by
  obtain ⟨q, hq, hc, a, ha, hf⟩ := h
  obtain ⟨r, hr, rfl⟩ := R.onto hq
  exact ⟨r, hr, hc, a, by rw [R.nonClass]; exact ha, by rw [R.hasFeature ha hr]; exact hf⟩

theorem Reordered.smoothed {K : Type} [Field K] [LinearOrder K] (R : Reordered g g' n σ) (k : Nat → String) (c : String) {a : Attr}
    (ha : a ∈ g.nonClass) : (smoothed g' n (fun r => k (σ r)) c a : K) = smoothed g n k c a := by
  unfold Golearn.smoothed
  rw [R.docsWith k c ha, R.docsIn]

theorem Reordered.posterior {K : Type} [Field K] [LinearOrder K] (R : Reordered g g' n σ) (k : Nat → String) (what : Grid) (r : Nat)
    (c : String) : (posterior g' n (fun r => k (σ r)) what r c : K) = posterior g n k what r c := by
  unfold Golearn.posterior
  rw [R.docsIn, R.nonClass]
  congr 2
  apply List.map_congr_left
  intro a ha
  unfold likelihood
  rw [R.docsWith k c ha, R.docsIn, R.smoothed k c ha]

/-- The columns found for the attributes of other data are the same ones. -/
theorem Reordered.foundCell (R : Reordered g g' n σ) (hd : g.distinct) {as : List Attr} (hf : g.Finds as) (hf' : g'.Finds as)
    {a : Attr} (ha : a ∈ as) {r : Nat} (hr : r < n) : g'.cell a r = g.cell a (σ r) := by
  obtain ⟨b, b1, b2, b3⟩ := hf a ha
  obtain ⟨b', c1, c2, c3⟩ := hf' a ha
  rw [R.attrs] at c1
  have hbb : b'.equals b = true := by rw [equals_congr b2]; exact c2
  have : b' = b := by
    by_contra hne
    have sym : ∀ x ∈ g.allAttributes, ∀ y ∈ g.allAttributes, x ≠ y → x.equals y = false := by
      intro x hx y hy hxy
      have : Std.Symm fun x y : Attr => x.equals y = false := ⟨fun _ _ h => equals_false_symm h⟩
      exact List.Pairwise.forall (R := fun x y : Attr => x.equals y = false) hd hx hy hxy
    rw [sym _ c1 _ b1 hne] at hbb
    cases hbb
  subst this
  have e : g.cell a (σ r) = g.cell b' (σ r) := by unfold Grid.cell; rw [b3]
  have e' : g'.cell a r = g'.cell b' r := by unfold Grid.cell; rw [c3]
  rw [e, e', R.cells b' b1 r hr]

theorem Reordered.point {K : Type} [Zero K] (R : Reordered g g' n σ) (hd : g.distinct) {as : List Attr} (hf : g.Finds as)
    (hf' : g'.Finds as) {fs : List Attr} (hs : ∀ a ∈ fs, a ∈ as) (val : U64 → K) {r : Nat} (hr : r < n) :
    g'.point val fs r = g.point val fs (σ r) := by
  unfold Grid.point Grid.number
  apply List.map_congr_left
  intro a ha
  rw [R.foundCell hd hf hf' (hs a ha) hr]

/-- The rows with numbers `σ r` in `S`. -/
theorem Reordered.chosen (R : Reordered g g' n σ) {S : List Nat} (hn : S.Nodup) (hS : ∀ i ∈ S, i < n) :
    (((List.range n).filter fun r => decide (σ r ∈ S)).map σ).Perm S := by
  have h : (((List.range n).map σ).filter fun i => decide (i ∈ S)).Perm S := by
    refine (R.rows.filter _).trans ?_
    refine (List.perm_ext_iff_of_nodup (List.nodup_range.filter _) hn).2 fun i => ?_
    simp only [List.mem_filter, List.mem_range, decide_eq_true_eq]
    exact ⟨fun h => h.2, fun h => ⟨hS i h, h⟩⟩
  rw [List.filter_map] at h
  exact h

end

end Golearn
