import Verif.Proofs.KnnOpt
import Verif.Props.C44
import Mathlib.Analysis.Real.Sqrt

/-! # C46: the optimised Euclidean prediction -/

namespace Golearn

section
variable {R : Type} [CommRing R] [LinearOrder R]

/-- When the optimised path is taken, the vector it computes for a row holds, for every training row, the square of
the Euclidean distance over all the numeric columns, with the number of the training row. This is so for every order of
iteration over the attribute groups, and whatever the vector held before. -/
theorem C46_distances (fo : FloatOps) (val : U64 → R) (nT nW : Nat) (pr tr : Dense) (Dp : DenseOK nW pr) (Dt : DenseOK nT tr)
    (Np : pr.GroupsNamed) (Nt : tr.GroupsNamed) (lab : Nat → String) (p : Nat) (nm : String) (vs : List String)
    (D : KnnData fo (.dense tr) (.dense pr) nT nW lab ⟨p, .cat nm vs⟩)
    (hcls : ∀ ct ∈ tr.allClassAttributes, ct.equals ⟨p, .cat nm vs⟩ = true)
    (hfeat : ∃ a ∈ pr.allAttributes, a.isFloat = true) (names : List String)
    (hn : names.Perm (pr.agMap.map Prod.fst)) (hu : canUseOptimisations pr tr names = Res.ok true)
    (old : List (R × Nat)) (hold : old.length = nT) (row : Nat) (hrow : row < nW) :
    optDistances val tr pr row old (optGroups tr names) = (List.range nT).map fun i =>
      (sqDist ((Grid.dense pr).point val (pr.allAttributes.filter Attr.isFloat) row)
        ((Grid.dense tr).point val (pr.allAttributes.filter Attr.isFloat) i), i) := by
  obtain ⟨ct, ht, htin, hread⟩ := D.label
  have hlen := ((C26_check_compatible _ _ _).1 D.same).2.1
  have he := hcls ct (by
    have : tr.allClassAttributes = [ct] := ht
    rw [this]; exact List.mem_singleton_self _)
  obtain ⟨f0, p0⟩ := optGroups_features Np Nt hn hu hlen D.whatClass rfl ht he
  rw [optDistances_spec val Dp Dt hrow _ ?_ f0 old hold]
  · apply List.map_congr_left
    intro i _
    rw [← sqDiff_eq]
    congr 1
    exact (p0.map _).sum_eq
  · intro h
    obtain ⟨a, ha, hfa⟩ := hfeat
    have := p0.symm.subset (List.mem_filter.2 ⟨ha, hfa⟩)
    rw [h] at this
    cases this

end

/-- The Euclidean distance. -/
noncomputable def euclid (x y : List ℝ) : ℝ := Real.sqrt (sqDist x y)

/-- Rows nearest by the square of the Euclidean distance are nearest by the Euclidean distance. -/
theorem C46_same_ranking (data : List (List ℝ)) (x : List ℝ) (k : Nat) (out : List (Nat × ℝ))
    (h : Nearest data sqDist x k out) :
    Nearest data euclid x k (out.map fun p => (p.1, Real.sqrt p.2)) := by
  have hf : (out.map fun p => (p.1, Real.sqrt p.2)).map Prod.fst = out.map Prod.fst := by
    rw [List.map_map]; rfl
  refine ⟨by rw [List.length_map, h.length], by rw [hf]; exact h.distinct, ?_, ?_, ?_⟩
  · intro p hp
    obtain ⟨q, hq, rfl⟩ := List.mem_map.1 hp
    obtain ⟨h1, h2⟩ := h.real q hq
    exact ⟨h1, by unfold euclid; rw [h2]⟩
  · rw [List.pairwise_map]
    exact h.sorted.imp fun hle => Real.sqrt_le_sqrt hle
  · intro q hq hqo p hp
    obtain ⟨p0, hp0, rfl⟩ := List.mem_map.1 hp
    rw [hf] at hqo
    exact Real.sqrt_le_sqrt (h.nearest q hq hqo p0 hp0)

/-- Prediction on the optimised path: every row gets a label that is a majority among `k` training rows nearest by the
Euclidean distance over the numeric columns. The data is dense and was made by a history of calls, every attribute group
has an attribute, there are rows to predict and there is a numeric attribute. -/
theorem C46_predict (fo : FloatOps) (parse : String → Option U64) (pg : Nat) (val : U64 → ℝ)
    (srtD : List (ℝ × Nat) → List (ℝ × Nat)) (hs : ∀ l, (srtD l).Perm l ∧ (srtD l).Pairwise fun p q => p.1 ≤ q.1)
    (ord : Nat → List String → List String) (hord : ∀ r l, (ord r l).Perm l) (k nT nW : Nat) (hk0 : 0 < k) (hk : k ≤ nT)
    (hW : 0 < nW) (pr tr : Dense) (Dp : DenseOK nW pr) (Dt : DenseOK nT tr) (Np : pr.GroupsNamed) (Nt : tr.GroupsNamed)
    (lab : Nat → String) (p : Nat) (nm : String) (vs : List String)
    (D : KnnData fo (.dense tr) (.dense pr) nT nW lab ⟨p, .cat nm vs⟩)
    (hcls : ∀ ct ∈ tr.allClassAttributes, ct.equals ⟨p, .cat nm vs⟩ = true)
    (hgrp : ∀ g ∈ pr.ags, g.attrs ≠ []) (hfeat : ∃ a ∈ pr.allAttributes, a.isFloat = true)
    (names : Nat → List String) (hn : ∀ r, (names r).Perm (pr.agMap.map Prod.fst)) (names0 : List String)
    (hn0 : names0.Perm (pr.agMap.map Prod.fst)) (hu : canUseOptimisations pr tr names0 = Res.ok true)
    (hb : vs.length + nW ≤ 2 ^ 64) :
    ∃ d, optimisedPredict fo parse pg val srtD ord k tr pr names = Res.ok d ∧ d.maxRow = nW ∧
      ∀ r, r < nW → ∃ out c,
        Nearest ((List.range nT).map ((Grid.dense tr).point val (pr.allAttributes.filter Attr.isFloat))) euclid
          ((Grid.dense pr).point val (pr.allAttributes.filter Attr.isFloat) r) k out ∧
        Majority (out.map fun p => lab p.1) c ∧ getClass fo (.dense d) r = Res.ok c := by
  obtain ⟨d, h1, h2, h3⟩ := optimisedPredict_spec parse pg val hs hord hk0 hk hW Dp Dt Np Nt D hcls hgrp hfeat hn hn0 hu hb
  refine ⟨d, h1, h2, fun r hr => ?_⟩
  obtain ⟨out, c, n1, n2, n3⟩ := h3 r hr
  refine ⟨_, c, C46_same_ranking _ _ _ _ n1, ?_, n3⟩
  rw [List.map_map]
  exact n2

/-- The histories of calls of C02 give the layout facts that are needed. -/
theorem C46_layout (pg : Nat) (ops : List Op) (st : St) (hb : ∀ op ∈ ops, basicOp op = true)
    (hrun : run pg ops = Res.ok st) : st.d.GroupsNamed := groupsNamed_run hb hrun

section Examples
private def fo0 : FloatOps := ⟨fun _ _ => "", fun u v => v.toNat < u.toNat⟩
private def aX : Attr := ⟨0, .float "x" 2⟩
private def aY : Attr := ⟨4, .float "y" 2⟩
private def aC : Attr := ⟨1, .cat "c" ["a", "b"]⟩
private def aX' : Attr := ⟨2, .float "x" 2⟩
private def aY' : Attr := ⟨5, .float "y" 2⟩
private def aC' : Attr := ⟨3, .cat "c" ["a", "b"]⟩
private def opsT : List Op :=
  [.add aX, .add aY, .add aC, .addClass aC, .extend 3, .set 0 0 (packU64 1), .set 0 1 (packU64 12), .set 0 2 (packU64 14),
   .set 1 0 (packU64 3), .set 2 1 (packU64 1), .set 2 2 (packU64 1)]
private def opsW (n : Nat) : List Op :=
  [.add aX', .add aY', .add aC', .addClass aC', .extend n] ++
    (if n = 0 then [] else [.set 0 0 (packU64 2), .set 1 0 (packU64 3), .set 0 1 (packU64 13)])
private def srtD (l : List (Rat × Nat)) : List (Rat × Nat) := l.insertionSort fun p q => p.1 ≤ q.1
private def predict (k n : Nat) : Res Dense :=
  (run 4096 opsT).bind fun tr => (run 4096 (opsW n)).bind fun pr =>
    (canUseOptimisations pr.d tr.d (pr.d.agMap.map Prod.fst)).bind fun b => if b then
      optimisedPredict fo0 (fun _ => none) 4096 (fun u => (u.toNat : Rat)) srtD (fun _ => id) k tr.d pr.d
        (fun _ => pr.d.agMap.map Prod.fst) else Res.err

/-- Training rows (1, 3), (12, 0) and (14, 0) labelled a, b and b, rows (2, 3) and (13, 0) to predict: the optimised path
is taken, and one neighbour gives a and b. -/
example : ((predict 1 2).bind fun d => mapRes (getClass fo0 (.dense d)) [0, 1]) = Res.ok ["a", "b"] := by decide +kernel

set_option synthInstance.maxSize 1024 in
set_option synthInstance.maxHeartbeats 200000 in
/-- The data meets the hypotheses of `C46_predict`. -/
example : ∃ tr pr, run 4096 opsT = Res.ok tr ∧ run 4096 (opsW 2) = Res.ok pr ∧
    KnnData fo0 (.dense tr.d) (.dense pr.d) 3 2 (fun r => ["a", "b", "b"].getD r "") aC' ∧
    tr.d.GroupsNamed ∧ pr.d.GroupsNamed ∧ (∀ ct ∈ tr.d.allClassAttributes, ct.equals aC' = true) ∧
    (∀ g ∈ pr.d.ags, g.attrs ≠ []) ∧ (∃ a ∈ pr.d.allAttributes, a.isFloat = true) ∧
    canUseOptimisations pr.d tr.d (pr.d.agMap.map Prod.fst) = Res.ok true := by
  have h : ((run 4096 opsT).bind fun tr => (run 4096 (opsW 2)).map fun pr =>
      (checkCompatible (.dense pr.d) (.dense tr.d) == some pr.d.allAttributes, pr.d.allClassAttributes, tr.d.allClassAttributes,
        decide (aC' ∈ pr.d.allAttributes), decide (aC ∈ tr.d.allAttributes), decide (∀ g ∈ pr.d.ags, g.attrs ≠ []),
        decide (aX' ∈ pr.d.allAttributes), canUseOptimisations pr.d tr.d (pr.d.agMap.map Prod.fst))) =
      Res.ok (true, [aC'], [aC], true, true, true, true, Res.ok true) := by decide +kernel
  have hl : ((run 4096 opsT).map fun tr => (List.range 3).map fun r =>
      aC.getString fo0 ((Grid.dense tr.d).cell aC r)) = Res.ok [Res.ok "a", Res.ok "b", Res.ok "b"] := by decide +kernel
  obtain ⟨tr, htr, h⟩ := Res.bind_eq_ok.1 h
  obtain ⟨pr, hpr, h⟩ := Res.map_eq_ok.1 h
  simp only [Prod.mk.injEq, beq_iff_eq, decide_eq_true_eq] at h
  obtain ⟨h1, h2, h3, h4, h5, h6, h7, h8⟩ := h
  have Dt : DenseOK 3 tr.d := denseOK_run (ops := opsT) (by decide) htr (by decide)
  have Dp : DenseOK 2 pr.d := denseOK_run (ops := opsW 2) (by decide) hpr (by decide)
  rw [htr, Res.map_ok, Res.ok.injEq] at hl
  refine ⟨tr, pr, htr, hpr, knnData_dense Dt Dp h1 h2 h4 h3 h5 ?_, groupsNamed_run (ops := opsT) (by decide) htr,
    groupsNamed_run (ops := opsW 2) (by decide) hpr, ?_, h6, ⟨aX', h7, rfl⟩, h8⟩
  · intro r hr
    have := congrArg (fun l => l[r]?) hl
    interval_cases r <;> simpa using this
  · rw [h3]; decide

/-- The optimised path does not look at the `Weighted` setting: with three neighbours the row at (2, 3), next to the
only row labelled a, gets the label b, whose total weight is smaller even with distances rounded down. -/
theorem C46_ignores_weighted :
    ((predict 3 2).bind fun d => mapRes (getClass fo0 (.dense d)) [0, 1]) = Res.ok ["b", "b"] ∧
    ¬ Heaviest (R := Rat) (fun r => ["a", "b", "b"].getD r "") [(0, 1), (1, 10), (2, 12)] "b" := by
  refine ⟨by decide +kernel, ?_⟩
  rintro ⟨_, h⟩
  exact absurd (h "a") (by decide +kernel)

/-- With no rows to predict, the optimised path panics. -/
theorem C46_no_rows_panics : predict 1 0 = Res.panic := by decide +kernel
end Examples

end Golearn
