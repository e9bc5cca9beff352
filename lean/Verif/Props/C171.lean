import Verif.Props.C69

/-! # C171: naive Bayes judges each row on its own -/

namespace Golearn

section
variable {K : Type} [Field K] [LinearOrder K] [IsStrictOrderedRing K]

/-- Naive Bayes is trained once and used on two tables. A row `r` of the one and a row `r'` of the other which have the same features get
classes that are equally likely, whatever the other rows and columns, the places of the two rows and the orders of rows and classes in the
two runs. If one class is more likely than every other one, both rows get it. -/
theorem C171_rows {log : K → K} (L : Logarithm log) {fo : FloatOps} {g : Grid} {n : Nat} {k : Nat → String}
    (D : BinaryData fo g n k) (hn : 0 < n) (hne : g.nonClass ≠ []) (hall : ∀ r, r < n → ClassHasFeature g n k (k r))
    {srt : List Spec → List Spec} (hsrt : PositionSort srt) {order : List Nat} (ho : g.RowOrder order)
    {ordC : List String → List String} (hord : ∀ l, (ordC l).Perm l) (old : GoMap String (List K))
    {low : K} (hlow : low < ((g.nonClass.length + 1 : Nat) : K) * log (1 / ((n + 1 : Nat) : K)))
    {what what' : Grid} {m m' : Nat} (P : what.Presents m) (P' : what'.Presents m') (hf : what.Finds g.nonClass) (hf' : what'.Finds g.nonClass)
    (hbytes : ∀ a ∈ g.nonClass, ∀ r, r < m → ∃ b, what.cell a r = [b]) (hbytes' : ∀ a ∈ g.nonClass, ∀ r, r < m' → ∃ b, what'.cell a r = [b])
    {p p' : Nat} {nm nm' : String} {vs vs' : List String} (hc : what.allClassAttributes = [⟨p, .cat nm vs⟩])
    (hc' : what'.allClassAttributes = [⟨p', .cat nm' vs'⟩]) (hsz : vs.length + m ≤ 2 ^ 64) (hsz' : vs'.length + m' ≤ 2 ^ 64)
    {orderW orderW' : List Nat} (hoW : what.RowOrder orderW) (hoW' : what'.RowOrder orderW') {ordP ordP' : Nat → List String → List String}
    (hordP : ∀ r l, (ordP r l).Perm l) (hordP' : ∀ r l, (ordP' r l).Perm l) (parse : String → Option U64) (pg : Nat) :
    ∃ nb d d', nbFit fo srt order ordC old g = Res.ok nb ∧ nbPredict log low fo parse pg srt orderW ordP nb what = Res.ok d ∧
      nbPredict log low fo parse pg srt orderW' ordP' nb what' = Res.ok d' ∧
      ∀ r r', r < m → r' < m' → (∀ a ∈ g.nonClass, what'.hasFeature a r' = what.hasFeature a r) →
        ∃ s s', s < n ∧ s' < n ∧ getClass fo (.dense d) r = Res.ok (k s) ∧ getClass fo (.dense d') r' = Res.ok (k s') ∧
          posterior (K := K) g n k what r (k s') = posterior g n k what r (k s) ∧
          ∀ t, t < n → (∀ u, u < n → k u ≠ k t → posterior (K := K) g n k what r (k u) < posterior g n k what r (k t)) →
            k s = k t ∧ k s' = k t := by
  obtain ⟨nb, d, e1, e2, _, e4⟩ := C69_predict L D hn hne hall hsrt ho hord old hlow P hf hbytes hc hsz hoW hordP parse pg
  obtain ⟨nb', d', e1', e2', _, e4'⟩ := C69_predict L D hn hne hall hsrt ho hord old hlow P' hf' hbytes' hc' hsz' hoW' hordP' parse pg
  rw [e1] at e1'
  cases e1'
  refine ⟨nb, d, d', e1, e2, e2', fun r r' hr hr' hs => ?_⟩
  obtain ⟨s, s1, s2, s3⟩ := e4 r hr
  obtain ⟨s', s1', s2', s3'⟩ := e4' r' hr'
  have hp : ∀ c, posterior (K := K) g n k what' r' c = posterior g n k what r c := fun c => by
    unfold posterior
    rw [List.map_congr_left fun a ha => by rw [hs a ha]]
  simp only [hp] at s3'
  refine ⟨s, s', s1, s1', s2, s2', le_antisymm (s3 s' s1') (s3' s s1), fun t ht hb => ⟨?_, ?_⟩⟩
  · by_contra h
    exact absurd (s3 t ht) (not_le.2 (hb s s1 h))
  · by_contra h
    exact absurd (s3' t ht) (not_le.2 (hb s' s1' h))
end

namespace C171
def aP : Attr := ⟨0, .bin "p"⟩
def aQ : Attr := ⟨1, .bin "q"⟩
def aC : Attr := ⟨2, .cat "c" ["x", "y"]⟩
/-- Two rows with the first feature and the class x, and one with the second feature and the class y. -/
def opsT : List Op := [.add aP, .add aQ, .add aC, .extend 3, .set 0 0 [1#8], .set 0 1 [1#8], .set 1 2 [1#8], .set 2 2 (packU64 1), .addClass aC]
/-- A row with both features and a row with the first. -/
def opsW : List Op := [.add aP, .add aQ, .add aC, .extend 2, .set 0 0 [1#8], .set 0 1 [1#8], .set 1 0 [1#8], .addClass aC]
end C171

open C171 in
/-- The hypotheses hold for three rows, which are also the first table to predict, and a second table of two rows. The first row of the one
and the second row of the other have only the first feature, and both get the class x, with the classes looked through in different
orders. -/
theorem C171_witness : ∃ tr pr, run 4096 opsT = Res.ok tr ∧ run 4096 opsW = Res.ok pr ∧ ∃ nb d d',
    nbFit nbFloats id [0, 1, 2] id ([] : GoMap String (List ℝ)) (.dense tr.d) = Res.ok nb ∧
    nbPredict (Real.logb 2) (-9) nbFloats (fun _ => none) 4096 id [0, 1, 2] (fun _ => id) nb (.dense tr.d) = Res.ok d ∧
    nbPredict (Real.logb 2) (-9) nbFloats (fun _ => none) 4096 id [0, 1] (fun _ => List.reverse) nb (.dense pr.d) = Res.ok d' ∧
    getClass nbFloats (.dense d) 0 = Res.ok "x" ∧ getClass nbFloats (.dense d') 1 = Res.ok "x" := by
  obtain ⟨tr, htr, D, hfe, hcl, hall, e1, e2, e3, e4, e5, e6⟩ := nb_example
  replace htr : run 4096 opsT = Res.ok tr := htr
  have h : ((run 4096 opsT).bind fun tr => (run 4096 opsW).map fun pr =>
      [decide ((Grid.dense tr.d).hasFeature aP 0 = true), decide ((Grid.dense tr.d).hasFeature aQ 0 = false),
        decide ((Grid.dense pr.d).hasFeature aP 1 = true), decide ((Grid.dense pr.d).hasFeature aQ 1 = false),
        decide ((Grid.dense pr.d).nonClass = [aP, aQ]), decide (pr.d.allClassAttributes = [aC]), decide (pr.d.maxRow = 2),
        decide (tr.d.maxRow = 3),
        (List.range 2).all fun r => [aP, aQ].all fun a => decide ((Grid.dense pr.d).cell a r = [((Grid.dense pr.d).cell a r).headD 0#8])]) =
      Res.ok (List.replicate 9 true) := by decide +kernel
  rw [htr, Res.bind_ok] at h
  obtain ⟨pr, hpr, h⟩ := Res.map_eq_ok.1 h
  simp only [List.replicate, List.cons.injEq, decide_eq_true_eq, and_true] at h
  obtain ⟨h1, h2, h3, h4, h5, h6, h7, h8, h9⟩ := h
  have Dp : DenseOK 2 pr.d := denseOK_run (ops := opsW) (by decide) hpr (by decide)
  have hlow : (-9 : ℝ) < (((Grid.dense tr.d).nonClass.length + 1 : Nat) : ℝ) * Real.logb 2 (1 / ((3 + 1 : Nat) : ℝ)) := by
    rw [hfe]
    have : Real.logb 2 (1 / ((3 + 1 : Nat) : ℝ)) = -2 := by
      rw [show (1 / ((3 + 1 : Nat) : ℝ)) = (2 : ℝ) ^ (-2 : ℝ) by norm_num [Real.rpow_neg]]
      exact Real.logb_rpow (by norm_num) (by norm_num)
    rw [this]
    norm_num
  have hself : (Grid.dense pr.d).Finds (Grid.dense pr.d).nonClass := finds_self (features_sub _)
  obtain ⟨nb, d, d', f1, f2, f3, f4⟩ := C171_rows logb_logarithm D (by decide) (by rw [hfe]; simp) hall (srt := id)
    ⟨List.range, fun n => List.Perm.refl _, fun l => (filterMap_range_getElem? l).symm⟩ (order := [0, 1, 2])
    (show [0, 1, 2] = List.range tr.d.maxRow by rw [h8]; rfl) (ordC := id) (fun _ => List.Perm.refl _) [] hlow D.table Dp.presents
    (finds_self (features_sub _)) (hfe ▸ h5 ▸ hself) D.bytes
    (fun a ha r hr => by
      rw [hfe] at ha
      exact ⟨_, of_decide_eq_true (List.all_eq_true.1 (List.all_eq_true.1 h9 r (List.mem_range.2 hr)) a ha)⟩)
    hcl h6 (by decide) (by decide) (orderW := [0, 1, 2]) (orderW' := [0, 1])
    (show [0, 1, 2] = List.range tr.d.maxRow by rw [h8]; rfl) (show [0, 1] = List.range pr.d.maxRow by rw [h7]; rfl)
    (ordP := fun _ => id) (ordP' := fun _ => List.reverse) (fun _ _ => List.Perm.refl _) (fun _ l => List.reverse_perm l) (fun _ => none) 4096
  obtain ⟨s, s', _, _, g1, g2, _, g3⟩ := f4 0 1 (by decide) (by decide) (by
    intro a ha
    rw [hfe] at ha
    simp only [List.mem_cons, List.not_mem_nil, or_false] at ha
    rcases ha with rfl | rfl
    · exact h3.trans h1.symm
    · exact h4.trans h2.symm)
  obtain ⟨q1, q2⟩ := g3 0 (by decide) (by
    intro u hu hne
    have : nbLab u = "y" := by
      unfold nbLab at hne ⊢
      by_cases h : u = 2
      · rw [if_pos h]
      · rw [if_neg h] at hne
        exact absurd rfl hne
    rw [this, show nbLab 0 = "x" from rfl]
    have hp : (Grid.dense tr.d).hasFeature ⟨0, .bin "p"⟩ 0 = true := h1
    have hq : (Grid.dense tr.d).hasFeature ⟨1, .bin "q"⟩ 0 = false := h2
    simp only [posterior, hfe, List.map_cons, List.map_nil, List.prod_cons, List.prod_nil, hp, hq, likelihood, smoothed,
      e1, e2, e3, e4, e5, e6]
    norm_num)
  exact ⟨tr, pr, htr, hpr, nb, d, d', f1, f2, f3, by rw [g1, q1]; rfl, by rw [g2, q2]; rfl⟩

end Golearn
