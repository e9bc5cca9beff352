import Verif.Proofs.SaveNB
import Verif.Proofs.ByContent
import Verif.Proofs.StructCopy
import Verif.Props.C68
import Verif.Proofs.Filtered
import Verif.Proofs.TreeExamples

/-! # C100: a naive Bayes classifier that is saved and loaded predicts the same -/

namespace Golearn

section
variable {K : Type}

/-- Saving a classifier at any prefix of any open file succeeds, and loading from any file that has its entries succeeds and restores
all its numbers, the attributes it uses and the attributes and class attributes of the grid it keeps. The file stays open, so that the
classifier can be part of an ensemble (see `C99_bagging_partial`). -/
theorem C100_restores_partial (G : GridEnv) (hG : G.Ok) (nilVals : Bool) (viaFloat : Int → Int) (num : K → U64) (val : U64 → K)
    (fin : U64 → Bool) (nb : NB K) (fitOn : Dense) (hk : nb.Kept nilVals viaFloat num val fin fitOn) :
    Restores (saveNB G nilVals num fin nb fitOn) (loadNB G viaFloat val)
      (fun r => nb.Same r.1 ∧ SameStructure (.dense fitOn) (.dense r.2) ∧ ∀ a ∈ r.1.attrs, a ∈ r.2.allAttributes) false := by
  intro pre
  obtain ⟨es, h1, h2, h3⟩ := nb_entries G hG nilVals viaFloat num val fin nb fitOn hk pre
  refine ⟨es, fun e he => ?_, h2, fun ar ha => ?_⟩
  · obtain ⟨s, hs, _⟩ := h1 e he
    exact ⟨s, hs⟩
  · obtain ⟨r, q1, q2, q3, _, q4⟩ := h3 ar ha
    exact ⟨r, q1, q2, q3, q4⟩

/-- The same for a whole file. -/
theorem C100_file_partial (G : GridEnv) (hG : G.Ok) (nilVals : Bool) (viaFloat : Int → Int) (num : K → U64) (val : U64 → K)
    (fin : U64 → Bool) (nb : NB K) (fitOn : Dense) (hk : nb.Kept nilVals viaFloat num val fin fitOn) :
    ∃ ar r, saveNBFile G nilVals num fin nb fitOn = Res.ok ar ∧ loadNBFile G viaFloat val ar = Res.ok r ∧ nb.Same r.1 ∧
      SameStructure (.dense fitOn) (.dense r.2) ∧ ∀ a ∈ r.1.attrs, a ∈ r.2.allAttributes := by
  obtain ⟨es, h1, h2, h3⟩ := nb_entries G hG nilVals viaFloat num val fin nb fitOn hk ""
  have hd : ∀ p ∈ classifierStub (metadataJson "KNN" "1.0" .null), ∀ q ∈ es, p.1 ≠ q.1 := by
    intro p hp q hq e
    obtain ⟨s, hs, ht⟩ := h1 q hq
    rw [hs] at e
    simp only [classifierStub, List.mem_cons, List.not_mem_nil, or_false] at hp
    have e' : p.1 = s := by rw [e, tarPrefix, if_pos rfl]
    rw [← e'] at ht
    rcases hp with rfl | rfl
    · exact absurd ht (by decide)
    · change (tarPrefix "" "METADATA").toList.take 5 ∈ _ at ht
      exact absurd ht (by decide)
  obtain ⟨r, q1, q2, q3, _, q4⟩ := h3 _ (agrees_self _ es hd)
  refine ⟨classifierStub (metadataJson "KNN" "1.0" .null) ++ es, r, ?_, ?_, q2, q3, q4⟩
  · rw [saveNBFile, h2 _ rfl, Res.map_ok]; rfl
  · rw [loadNBFile, readStub_eq, Res.bind_ok]
    exact q1

variable [Field K] [LinearOrder K]

/-- Two classifiers with the same numbers for attributes with the same contents predict the same for every grid that finds the
attributes by their contents: the same classes, the same error or the same panic. -/
theorem C100_predicts_same (log : K → K) (low : K) (fo : FloatOps) (parse : String → Option U64) (pg : Nat)
    (srt : List Spec → List Spec) (hs : Positional srt) (order : List Nat) (ordC : Nat → List String → List String) (nb nb' : NB K)
    (h : nb.Same nb') (what : Grid) (hw : what.ByContent (nb.attrs ++ nb'.attrs)) :
    nbPredict log low fo parse pg srt order ordC nb' what = nbPredict log low fo parse pg srt order ordC nb what := by
  have hone : ∀ o v, nbPredictOne log low o nb' v = nbPredictOne log low o nb v := by
    intro o v
    have hsc : ∀ c, nbScore log nb' v c = nbScore log nb v c := by
      intro c
      simp only [nbScore, h.inst, h.condProb, h.rows]
    have hb : ∀ cs best, nbBest log nb' v cs best = nbBest log nb v cs best := by
      intro cs
      induction cs with
      | nil => intro _; rfl
      | cons c cs ih => intro best; simp only [nbBest, hsc, ih]
    simp only [nbPredictOne, h.features, h.inst, hb]
  unfold nbPredict
  congr 1
  funext ret
  simp only [hone]
  rcases resolve_byContent what hs h.attrs hw with ⟨sp, sp', r1, r2, r3⟩ | ⟨r1, r2⟩
  · rw [r1, r2, Res.bind_ok, Res.bind_ok, mapOverRows_ok what r3]
  · rw [r2]

/-- Hence, with `C100_file_partial`: what is loaded predicts what was saved predicts, for every grid that is not filtered lazily, and
for every lazily filtered grid that converts the attributes the classifier uses. -/
theorem C100_roundtrip_partial (G : GridEnv) (hG : G.Ok) (nilVals : Bool) (viaFloat : Int → Int) (num : K → U64) (val : U64 → K)
    (fin : U64 → Bool) (nb : NB K) (fitOn : Dense) (hk : nb.Kept nilVals viaFloat num val fin fitOn) :
    ∃ ar r, saveNBFile G nilVals num fin nb fitOn = Res.ok ar ∧ loadNBFile G viaFloat val ar = Res.ok r ∧
      ∀ (log : K → K) (low : K) (fo : FloatOps) (parse : String → Option U64) (pg : Nat) (srt : List Spec → List Spec), Positional srt →
        ∀ (order : List Nat) (ordC : Nat → List String → List String) (what : Grid), what.ByContent (nb.attrs ++ r.1.attrs) →
          nbPredict log low fo parse pg srt order ordC r.1 what = nbPredict log low fo parse pg srt order ordC nb what := by
  obtain ⟨ar, r, h1, h2, h3, _⟩ := C100_file_partial G hG nilVals viaFloat num val fin nb fitOn hk
  exact ⟨ar, r, h1, h2, fun log low fo parse pg srt hs order ordC what hw =>
    C100_predicts_same log low fo parse pg srt hs order ordC nb r.1 h3 what hw⟩

/-- A classifier that has been trained on a table meets the requirements if the attributes of the table survive being written and the
conditional probabilities are finite numbers of `float64`. The grid it keeps is the structural copy of the table. -/
theorem C100_fitted (nilVals : Bool) (viaFloat : Int → Int) (num : K → U64) (val : U64 → K) (fin : U64 → Bool) (fo : FloatOps)
    (srt : List Spec → List Spec) (order : List Nat) (ordC : List String → List String) (old : GoMap String (List K)) (pg : Nat)
    (X : Grid) (hr : ∀ a ∈ X.allAttributes, ∃ s, X.getAttribute a = Res.ok s) (hd : X.distinct) (hn : X.size.2 < 2 ^ 64) (hl : X.allAttributes.length < 2 ^ 64)
    (hc : ∀ c ∈ X.allClassAttributes, c ∈ X.allAttributes) (hkept : ∀ a ∈ X.allAttributes, AttrKept nilVals viaFloat a.body)
    (nb : NB K) (hfit : nbFit fo srt order ordC old X = Res.ok nb)
    (hp : ∀ p ∈ nb.condProb, ∀ x ∈ p.2, val (num x) = x ∧ fin (num x) = true) (classes : List Attr)
    (hcl : classes.Perm X.allClassAttributes) :
    ∃ fitOn s1 s2, copyStructure pg X classes = Res.ok (fitOn, s1, s2) ∧ nb.Kept nilVals viaFloat num val fin fitOn := by
  obtain ⟨d, s1, s2, h1, D, h2, h3, h4, h5⟩ := structural_copy pg X hr hd classes fun c h => hc c (hcl.subset h)
  have hnb : nb.attrs = attrDifference X.allAttributes X.allClassAttributes ∧ nb.features = nb.attrs.length ∧ nb.rows = X.size.2 := by
    unfold nbFit at hfit
    simp only at hfit
    split at hfit
    · cases hfit
    · obtain ⟨sp, _, hfit⟩ := Res.bind_eq_ok.1 hfit
      split at hfit
      · cases hfit
      · obtain ⟨s, _, hfit⟩ := Res.bind_eq_ok.1 hfit
        obtain ⟨cp, _, rfl⟩ := Res.map_eq_ok.1 hfit
        exact ⟨rfl, rfl, rfl⟩
  have hsub : ∀ (l m : List Attr), (attrDifference l m).Sublist l := by
    intro l m
    induction l with
    | nil => exact List.Sublist.refl _
    | cons a as ih =>
      rw [attrDifference]
      split
      · exact ih.cons a
      · exact ih.cons₂ a
  have hle : nb.attrs.length < 2 ^ 64 := by
    rw [hnb.1]
    exact lt_of_le_of_lt (hsub _ _).length_le hl
  refine ⟨d, s1, s2, h1, ⟨⟨D.presents, D.1, D.typed, rfl, ?_, by decide, ?_, h5, ?_⟩, h2, ?_, hle, by rw [hnb.2.1]; exact hle, ?_, hp⟩⟩
  · show d.allAttributes.length < _
    rw [h3.length_eq]; exact hl
  · intro c hcc
    exact h3.symm.subset (hc c (hcl.subset ((h4 c).1 hcc)))
  · intro a ha
    exact hkept a (h3.subset ha)
  · intro a ha
    rw [hnb.1] at ha
    exact h3.symm.subset ((hsub _ _).subset ha)
  · rw [hnb.2.2]; exact hn
end

/-- Grids that are not filtered lazily find all attributes by their contents. -/
theorem C100_unfiltered : ∀ (g : Grid), g.Unfiltered → ∀ as, g.ByContent as
  | .dense _, _, _ => trivial
  | .view src none _ _ _, h, as => C100_unfiltered src h as
  | .view _ (some _) _ _ _, _, _ => trivial
  | .filt _ _ _ _, h, _ => h.elim

/-- Grids converted by a `BinaryConvertFilter` find those attributes by their contents that are not left unconverted. (The attributes of
a loaded classifier are new, so that they are not among the attributes of the source.) -/
theorem C100_converted (fresh : Nat → Nat) (conv : List Attr) (src : Grid) (as : List Attr)
    (h : ∀ a ∈ as, a ∉ src.allAttributes ∨ ∃ b ∈ (Conv.binary fresh conv).attrs, b.old = a) :
    (Grid.newFiltered src (Conv.binary fresh conv)).ByContent as := by
  obtain ⟨cls, e⟩ := newFiltered_shape src (Conv.binary fresh conv)
  rw [e]
  refine ⟨?_, ?_⟩
  · intro a ha
    rw [← Bool.not_eq_true, flag_unfiltered]
    rintro ⟨h1, h2⟩
    rcases h a ha with h | ⟨b, hb, rfl⟩
    · exact h h1
    · exact h2 b hb rfl
  · intro o a a' raw hb
    have : ∀ x : Attr, x.equals a = x.equals a' := by
      intro x
      simp only [Attr.equals, hb]
    simp only [Conv.binary, Conv.transformBinary, Conv.catBit, this]

section Examples
private def b1 : Attr := ⟨0, .bin "p"⟩
private def b2 : Attr := ⟨1, .cat "q" ["no", "yes"]⟩
private def cc : Attr := ⟨2, .cat "c" ["x", "y"]⟩
private def ops0 : List Op := [.add b1, .add b2, .add cc, .extend 3, .set 0 0 [1#8], .set 0 1 [1#8], .set 1 2 (packU64 1),
  .set 2 2 (packU64 1), .addClass cc]
private def d0 : Dense :=
  match run 4096 ops0 with
  | .ok st => st.d
  | _ => Dense.new
/-- All features converted. -/
private def X0 : Grid := Grid.newFiltered (.dense d0) (Conv.binary (fun i => 50 + i) [b1, b2])
/-- The binary feature left as it is. -/
private def X1 : Grid := Grid.newFiltered (.dense d0) (Conv.binary (fun i => 50 + i) [b2])
/-- Sixths as numbers. -/
private def val6 (u : U64) : Rat := (u.toNat : Rat) / 6
private def num6 (x : Rat) : U64 := BitVec.ofNat 64 (x * 6).num.toNat
private def G0 : GridEnv := ⟨id, Grid.allClassAttributes, fun g => attrDifferenceRefs g.allAttributes g.allClassAttributes, 4096,
  fun i => 1000 + i, fun _ w => w⟩
private def fit0 (X : Grid) : Res (NB Rat) := nbFit nbFloats id (List.range 3) id [] X
private def copy0 (X : Grid) : Res Dense := (copyStructure 4096 X X.allClassAttributes).map fun p => p.1
private def predict0 (nb : NB Rat) (X : Grid) : Res (List String) :=
  (nbPredict (fun x => x - 1) (-100) nbFloats (fun _ => none) 4096 id (List.range 3) (fun _ l => l) nb X).bind fun d =>
    mapRes (getClass nbFloats (.dense d)) [0, 1, 2]
private def loaded0 (X : Grid) : Res (NB Rat × Dense) :=
  (fit0 X).bind fun nb => (copy0 X).bind fun fitOn => (saveNBFile G0 true num6 (fun _ => true) nb fitOn).bind fun ar =>
    loadNBFile G0 id val6 ar

private theorem hG0 : G0.Ok :=
  ⟨⟨List.range, fun _ => List.Perm.refl _, fun l => (filterMap_range l).symm⟩, fun _ => List.Perm.refl _, fun _ => List.Perm.refl _⟩

/-- Training on the grid whose features are all converted gives a classifier that meets the requirements. -/
example : ∃ nb fitOn, fit0 X0 = Res.ok nb ∧ copy0 X0 = Res.ok fitOn ∧ nb.Kept true id num6 val6 (fun _ => true) fitOn := by
  have h0 : ((fit0 X0).map fun nb => nb.condProb) = Res.ok [("x", [1, 1 / 3]), ("y", [1 / 2, 1])] := by decide +kernel
  obtain ⟨nb, h1, h2⟩ := Res.map_eq_ok.1 h0
  have ha : X0.allAttributes = [b1, ⟨50, .bin "q"⟩, cc] := by decide +kernel
  obtain ⟨d, s1, s2, h3, h4⟩ := C100_fitted true id num6 val6 (fun _ => true) nbFloats id (List.range 3) id [] 4096 X0
    (by
      have h : (X0.allAttributes.all fun a => (X0.getAttribute a).isOk) = true := by decide +kernel
      intro a ha
      have := List.all_eq_true.1 h a ha
      cases hg : X0.getAttribute a with
      | ok s => exact ⟨s, rfl⟩
      | err => rw [hg] at this; cases this
      | panic => rw [hg] at this; cases this)
    (by unfold Grid.distinct; rw [ha]; decide +kernel) (by decide +kernel) (by rw [ha]; decide) (by decide +kernel)
    (by rw [ha]; simp [AttrKept, b1, cc]) nb h1 (by rw [h2]; decide +kernel) X0.allClassAttributes (List.Perm.refl _)
  exact ⟨nb, d, h1, by rw [copy0, h3]; rfl, h4⟩

/-- Before and after, for a grid whose features are all converted. -/
example : ((fit0 X0).bind fun nb => predict0 nb X0) = Res.ok ["x", "x", "y"] ∧
    ((loaded0 X0).bind fun r => predict0 r.1 X0) = Res.ok ["x", "x", "y"] ∧
    ((loaded0 X0).map fun r => r.1.attrs) = Res.ok [⟨1001, .bin "p"⟩, ⟨1002, .bin "q"⟩] ∧
    X0.ByContent [b1, ⟨50, .bin "q"⟩, ⟨1001, .bin "p"⟩, ⟨1002, .bin "q"⟩] := by
  refine ⟨?_, ?_, ?_, C100_converted _ _ _ _ ?_⟩ <;> decide +kernel

/-- The full property: a classifier that was trained, saved and loaded predicts what it predicted before. -/
def LoadedNBPredictsSame : Prop :=
  ∀ (G : GridEnv) (num : Rat → U64) (val : U64 → Rat) (fin : U64 → Bool) (fo : FloatOps) (parse : String → Option U64) (pg : Nat)
    (srt : List Spec → List Spec) (order : List Nat) (ordC : List String → List String) (log : Rat → Rat) (low : Rat) (X : Grid)
    (nb : NB Rat) (fitOn : Dense) (s1 s2 : List Spec) (ar : Archive) (r : NB Rat × Dense),
    G.Ok → Positional srt → X.RowOrder order → nbFit fo srt order ordC [] X = Res.ok nb →
    copyStructure pg X X.allClassAttributes = Res.ok (fitOn, s1, s2) →
    saveNBFile G true num fin nb fitOn = Res.ok ar → loadNBFile G id val ar = Res.ok r → (∀ p ∈ nb.condProb, ∀ x ∈ p.2, val (num x) = x) →
    nbPredict log low fo parse pg srt order (fun _ => ordC) r.1 X = nbPredict log low fo parse pg srt order (fun _ => ordC) nb X

/-- It is false of the code: when a lazily filtered grid leaves a feature as it is, it finds the feature by its address, and the loaded
classifier has another address for it, so that prediction panics. -/
theorem C100_filtered_fails : ¬ LoadedNBPredictsSame := by
  intro H
  have h1 : ((fit0 X1).bind fun nb => predict0 nb X1) = Res.ok ["x", "x", "y"] := by decide +kernel
  have h2 : ((loaded0 X1).map fun _ => true) = Res.ok true := by decide +kernel
  have h3 : ((loaded0 X1).bind fun r => predict0 r.1 X1) = Res.panic := by decide +kernel
  have h0 : ((fit0 X1).map fun nb => nb.condProb) = Res.ok [("x", [1, 1 / 3]), ("y", [1 / 2, 1])] := by decide +kernel
  obtain ⟨r, l1, _⟩ := Res.map_eq_ok.1 h2
  rw [l1, Res.bind_ok] at h3
  unfold loaded0 at l1
  obtain ⟨nb, f1, l1⟩ := Res.bind_eq_ok.1 l1
  obtain ⟨d, f2, l1⟩ := Res.bind_eq_ok.1 l1
  obtain ⟨ar, f3, f4⟩ := Res.bind_eq_ok.1 l1
  rw [f1, Res.bind_ok] at h1
  rw [f1, Res.map_ok, Res.ok.injEq] at h0
  obtain ⟨p, c1, c2⟩ := Res.map_eq_ok.1 f2
  have hord : X1.RowOrder (List.range 3) := by
    obtain ⟨cls, e⟩ := newFiltered_shape (.dense d0) (Conv.binary (fun i => 50 + i) [b2])
    rw [X1, e]
    show List.range 3 = List.range d0.maxRow
    decide +kernel
  have := H G0 num6 val6 (fun _ => true) nbFloats (fun _ => none) 4096 id (List.range 3) id (fun x => x - 1) (-100) X1 nb d p.2.1 p.2.2
    ar r hG0 hG0.sort hord f1 (by rw [c1, ← c2]) f3 f4 (by rw [h0]; decide +kernel)
  unfold predict0 at h1 h3
  change Res.bind (nbPredict (fun x => x - 1) (-100) nbFloats (fun _ => none) 4096 id (List.range 3) (fun _ => id) r.1 X1) _ = _ at h3
  rw [this] at h3
  rw [show (fun _ l => l : Nat → List String → List String) = fun _ => id from rfl, h3] at h1
  cases h1
end Examples

end Golearn
