import Verif.Proofs.RegressionUnique
import Verif.Props.C77

/-! # C156: linear regression is determined by the data -/

namespace Golearn

section
variable {R : Type} [Field R] [LinearOrder R] [IsStrictOrderedRing R]

/-- The intercept and the coefficients are the only ones with the smallest sum of squared errors: any others have a greater one. If
the class is a linear function of the attributes in the training data, this function is found. -/
theorem C156_unique (val : U64 → R) (srt : List Spec → List Spec) (hsrt : PositionSort srt) (qr : QR R) (order order' : List Nat)
    (g : Grid) (n : Nat) (P : g.Presents n) (T : g.typed n) (ho : g.RowOrder order) (ho' : g.RowOrder order') (cls : Attr)
    (hc : g.allClassAttributes = [cls]) (hcin : cls ∈ g.allAttributes) (hcf : cls.isFloat = true) (normal : List Attr)
    (hn : normal.Perm g.normalAttrs) :
    ∃ fs : List Attr, fs.Perm (normal.filter Attr.isFloat) ∧
      (fs.length + 1 ≤ n →
        (∀ x, (∀ i j, i < n → x i j = design (g.point val fs) i j) →
          IsQR n (fs.length + 1) x (qr n (fs.length + 1) x).1 (qr n (fs.length + 1) x).2) →
        Independent n fs.length (g.point val fs) →
        ∃ lr, linRegFit val srt qr order order' g normal = Res.ok lr ∧ lr.coefficients.length = fs.length ∧
          (∀ b0 b, b.length = fs.length → ¬ (b0 = lr.disturbance ∧ b = lr.coefficients) →
            squaredError n (g.point val fs) (g.number val cls) lr.disturbance lr.coefficients <
              squaredError n (g.point val fs) (g.number val cls) b0 b) ∧
          ∀ b0 b, b.length = fs.length → (∀ r, r < n → g.number val cls r = linear b0 b (g.point val fs r)) →
            lr.disturbance = b0 ∧ lr.coefficients = b) := by
  obtain ⟨fs, hfs, hsp⟩ := positionSort_attrs hsrt (normal.filter Attr.isFloat)
  refine ⟨fs, hfs, fun hrows hqr hind => ?_⟩
  obtain ⟨lr, f1, f2, f3, f4, f5⟩ := linRegFit_spec P T ho ho' hc hcin hcf hn hfs hsp hsrt hrows hqr hind
  refine ⟨lr, f1, f4, fun b0 b hb hne => ?_, fun b0 b hb hex => ?_⟩
  · by_contra h
    exact hne (leastSquares_unique hind f4 hb f5 (not_lt.1 h))
  · have h0 : squaredError n (g.point val fs) (g.number val cls) b0 b = 0 := by
      unfold squaredError
      apply Finset.sum_eq_zero
      intro i hi
      rw [hex i (Finset.mem_range.1 hi), sub_self, mul_zero]
    have h1 : (0 : R) ≤ squaredError n (g.point val fs) (g.number val cls) lr.disturbance lr.coefficients :=
      Finset.sum_nonneg fun i _ => mul_self_nonneg _
    obtain ⟨e0, e1⟩ := leastSquares_unique hind f4 hb f5 (by rw [h0]; exact h1)
    exact ⟨e0.symm, e1.symm⟩

/-- Training twice, on the rows in two orders, with the attributes in whatever order the map of attributes gives them, with any two
factorisations and sorts, gives the same intercept, the same coefficients up to the order of the attributes, and the same prediction
for every row of every table. -/
theorem C156_determined (val : U64 → R) (enc : R → U64) (srt srt' : List Spec → List Spec) (hsrt : PositionSort srt)
    (hsrt' : PositionSort srt') (qr qr' : QR R) (pg : Nat) (o1 o2 o1' o2' : List Nat) (g g' : Grid) (n : Nat) (σ : Nat → Nat)
    (P : g.Presents n) (T : g.typed n) (H : Reordered g g' n σ)
    (h1 : g.RowOrder o1) (h2 : g.RowOrder o2) (h1' : g'.RowOrder o1') (h2' : g'.RowOrder o2') (cls : Attr)
    (hc : g.allClassAttributes = [cls]) (hcin : cls ∈ g.allAttributes) (hcf : cls.isFloat = true) (normal normal' : List Attr)
    (hn : normal.Perm g.normalAttrs) (hn' : normal'.Perm g'.normalAttrs)
    (hrows : (g.normalAttrs.filter Attr.isFloat).length + 1 ≤ n)
    (hqr : ∀ fs, fs.Perm (g.normalAttrs.filter Attr.isFloat) → ∀ x, (∀ i j, i < n → x i j = design (g.point val fs) i j) →
      IsQR n (fs.length + 1) x (qr n (fs.length + 1) x).1 (qr n (fs.length + 1) x).2)
    (hqr' : ∀ fs, fs.Perm (g.normalAttrs.filter Attr.isFloat) → ∀ x, (∀ i j, i < n → x i j = design (g'.point val fs) i j) →
      IsQR n (fs.length + 1) x (qr' n (fs.length + 1) x).1 (qr' n (fs.length + 1) x).2)
    (hind : Independent n (g.normalAttrs.filter Attr.isFloat).length (g.point val (g.normalAttrs.filter Attr.isFloat))) :
    ∃ lr lr', linRegFit val srt qr o1 o2 g normal = Res.ok lr ∧ linRegFit val srt' qr' o1' o2' g' normal' = Res.ok lr' ∧
      lr'.disturbance = lr.disturbance ∧ lr'.coefficients.Perm lr.coefficients ∧
      ∀ (what : Grid) (m : Nat) (cw : Attr) (oW oW' : List Nat), what.Presents m → what.typed m → what.RowOrder oW →
        what.RowOrder oW' → what.allClassAttributes = [cw] → cw.equals cls = true →
        what.Finds (g.normalAttrs.filter Attr.isFloat) →
        ∃ d d', linRegPredict val enc srt pg oW lr what = Res.ok d ∧ linRegPredict val enc srt' pg oW' lr' what = Res.ok d' ∧
          ∀ r, r < m → (Grid.dense d').cell cw r = (Grid.dense d).cell cw r := by
  have hna : g'.normalAttrs = g.normalAttrs := by unfold Grid.normalAttrs; rw [H.attrs, H.classes]
  rw [hna] at hn'
  obtain ⟨fs, hfs, hsp⟩ := positionSort_attrs hsrt (normal.filter Attr.isFloat)
  obtain ⟨fs', hfs', hsp'⟩ := positionSort_attrs hsrt' (normal'.filter Attr.isFloat)
  have pf : fs.Perm (g.normalAttrs.filter Attr.isFloat) := hfs.trans (hn.filter _)
  have pf' : fs'.Perm (g.normalAttrs.filter Attr.isFloat) := hfs'.trans (hn'.filter _)
  have hin : ∀ a ∈ g.normalAttrs.filter Attr.isFloat, a ∈ g.allAttributes := fun a ha =>
    (((C27_references _ _ _ _ (List.Perm.refl _) (List.Perm.refl _)).2.2.2 a).1 (List.mem_filter.1 ha).1).1
  have hin' : ∀ a ∈ fs', a ∈ g.allAttributes := fun a ha => hin a (pf'.mem_iff.1 ha)
  have i1 : Independent n fs.length (g.point val fs) := independent_perm val pf hind
  have i2 : Independent n fs'.length (g'.point val fs') := H.independent val hin' (independent_perm val pf' hind)
  obtain ⟨lr, f1, f2, f3, f4, f5⟩ := linRegFit_spec P T h1 h2 hc hcin hcf hn hfs hsp hsrt (by rw [pf.length_eq]; exact hrows)
    (hqr fs pf) i1
  obtain ⟨lr', f1', f2', f3', f4', f5'⟩ := linRegFit_spec H.table (H.typed T) h1' h2' (by rw [H.classes]; exact hc)
    (by rw [H.attrs]; exact hcin) hcf (by rw [hna]; exact hn') hfs' hsp' hsrt' (by rw [pf'.length_eq]; exact hrows) (hqr' fs' pf') i2
  have pp : fs'.Perm fs := pf'.trans pf.symm
  obtain ⟨b, b1, b2, b3⟩ := linear_transport pp lr'.coefficients f4'
  obtain ⟨c, c1, c2, c3⟩ := linear_transport pp.symm lr.coefficients f4
  have err : ∀ (d0 : R) (d d' : List R), (∀ (num : Attr → R) (b0 : R), linear b0 d (fs.map num) = linear b0 d' (fs'.map num)) →
      squaredError n (g.point val fs) (g.number val cls) d0 d = squaredError n (g'.point val fs') (g'.number val cls) d0 d' := by
    intro d0 d d' h
    rw [H.squaredError val hin' hcin]
    unfold squaredError
    apply Finset.sum_congr rfl
    intro i _
    have e : linear d0 d (g.point val fs i) = linear d0 d' (g.point val fs' i) := h (fun a => g.number val a i) d0
    rw [e]
  have e1 := err lr'.disturbance b lr'.coefficients b3
  have e2 := err lr.disturbance lr.coefficients c (fun num b0 => (c3 num b0).symm)
  obtain ⟨u0, u1⟩ := leastSquares_unique i1 f4 b1 f5 (by
    rw [e1, e2]
    exact f5' _ _ (by rw [c1]))
  refine ⟨lr, lr', f1, f1', u0, by rw [← u1]; exact b2.symm, ?_⟩
  intro what m cw oW oW' Pw Tw hoW hoW' hcw heq hfind
  have hcat : cw.isFloat = true := by rw [equals_isFloat heq]; exact hcf
  have hbody : cw.isBin = false := by
    obtain ⟨p, b⟩ := cw
    cases b <;> first | rfl | cases hcat
  obtain ⟨d, d1, d2, d3, d4⟩ := linRegPredict_spec (enc := enc) (pg := pg) (lr := lr) Pw Tw hoW hcw hbody (by rw [f3]; exact heq)
    (fs := fs) (srt := srt) (by rw [f2]; exact hfs) (by rw [f2]; exact hsp)
    (by rw [f2]; exact fun a ha => hfind a ((hn.filter _).mem_iff.1 ha))
    (by intro a ha; rw [f2] at ha; exact (List.mem_filter.1 ha).2)
  obtain ⟨d', d1', d2', d3', d4'⟩ := linRegPredict_spec (enc := enc) (pg := pg) (lr := lr') Pw Tw hoW' hcw hbody
    (by rw [f3']; exact heq) (fs := fs') (srt := srt') (by rw [f2']; exact hfs') (by rw [f2']; exact hsp')
    (by rw [f2']; exact fun a ha => hfind a ((hn'.filter _).mem_iff.1 ha))
    (by intro a ha; rw [f2'] at ha; exact (List.mem_filter.1 ha).2)
  refine ⟨d, d', d1, d1', fun r hr => ?_⟩
  rw [d4 r hr, d4' r hr]
  have e : linear lr.disturbance lr.coefficients (what.point val fs r) =
      linear lr'.disturbance lr'.coefficients (what.point val fs' r) := by
    rw [← u0, ← u1]
    exact b3 (fun a => what.number val a r) lr'.disturbance
  rw [e]

end

namespace C156
def aX : Attr := ⟨0, .float "x" 2⟩
def aY : Attr := ⟨1, .float "y" 2⟩
def aX' : Attr := ⟨2, .float "x" 2⟩
def aY' : Attr := ⟨3, .float "y" 2⟩
/-- Rows x = 0, 0, 2, 2 with y = 1, 3, 5, 7. -/
def ops : List Op :=
  [.add aX, .add aY, .addClass aY, .extend 4, .set 0 2 (packU64 2), .set 0 3 (packU64 2),
   .set 1 0 (packU64 1), .set 1 1 (packU64 3), .set 1 2 (packU64 5), .set 1 3 (packU64 7)]
/-- The same rows with the second and the third one exchanged. -/
def ops' : List Op :=
  [.add aX, .add aY, .addClass aY, .extend 4, .set 0 1 (packU64 2), .set 0 3 (packU64 2),
   .set 1 0 (packU64 1), .set 1 1 (packU64 5), .set 1 2 (packU64 3), .set 1 3 (packU64 7)]
def opsW : List Op := [.add aX', .add aY', .addClass aY', .extend 2, .set 0 0 (packU64 1), .set 0 1 (packU64 3)]
def val (u : U64) : Rat := u.toNat
def enc (x : Rat) : U64 := BitVec.ofNat 64 x.num.toNat
def swap12 (r : Nat) : Nat := [0, 2, 1, 3].getD r r
/-- Factors of the matrix with rows (1, 0), (1, 0), (1, 2) and (1, 2). -/
def qr : QR Rat := fun _ _ _ =>
  (fun i k => ((([[1, 1, 1, 1], [1, 1, -1, -1], [1, -1, 1, -1], [1, -1, -1, 1]] : List (List Rat)).getD k []).getD i 0) / 2,
    fun k j => (([[2, 2], [0, -2]] : List (List Rat)).getD k []).getD j 0)
/-- Factors of the matrix with rows (1, 0), (1, 2), (1, 0) and (1, 2), with other signs. -/
def qr' : QR Rat := fun _ _ _ =>
  (fun i k => ((([[-1, -1, -1, -1], [-1, 1, -1, 1], [1, 1, -1, -1], [1, -1, -1, 1]] : List (List Rat)).getD k []).getD i 0) / 2,
    fun k j => (([[-2, -2], [0, 2]] : List (List Rat)).getD k []).getD j 0)

theorem reordered {tr tr' : St} (htr : run 4096 ops = Res.ok tr) (htr' : run 4096 ops' = Res.ok tr') :
    Reordered (.dense tr.d) (.dense tr'.d) 4 swap12 := by
  have h : ((run 4096 ops).bind fun tr => (run 4096 ops').map fun tr' =>
      [decide (tr'.d.allAttributes = tr.d.allAttributes), decide (tr'.d.allClassAttributes = tr.d.allClassAttributes),
        tr.d.allAttributes.all fun a => (List.range 4).all fun r =>
          (Grid.dense tr'.d).cell a r == (Grid.dense tr.d).cell a (swap12 r)]) =
      Res.ok [true, true, true] := by decide +kernel
  rw [htr, Res.bind_ok, htr', Res.map_ok, Res.ok.injEq] at h
  simp only [List.cons.injEq, decide_eq_true_eq, and_true] at h
  obtain ⟨h1, h2, h3⟩ := h
  have Dt : DenseOK 4 tr'.d := denseOK_run (ops := ops') (by decide) htr' (by decide)
  refine ⟨by decide, Dt.presents, congrArg List.length h1, h1, h2, fun a ha r hr => ?_⟩
  exact eq_of_beq (List.all_eq_true.1 (List.all_eq_true.1 h3 a ha) r (List.mem_range.2 hr))

theorem isQR {x : Nat → Nat → Rat} (h : ∀ i j, i < 4 → x i j = design (fun i => [if i < 2 then (0 : Rat) else 2]) i j) :
    IsQR 4 2 x (qr 4 2 x).1 (qr 4 2 x).2 := by
  change IsQR 4 2 x (qr 4 2 fun _ _ => 0).1 (qr 4 2 fun _ _ => 0).2
  refine ⟨?_, ?_, ?_⟩
  · intro i j hi hj
    rw [h i j hi]
    clear h x
    interval_cases i <;> interval_cases j <;> decide +kernel
  · intro i j hi hj
    clear h x
    interval_cases i <;> interval_cases j <;> decide +kernel
  · intro i j hij
    clear h x
    match i, j with
    | 0, j => omega
    | 1, 0 => decide +kernel
    | 1, j + 1 => omega
    | i + 2, j => simp [qr]

theorem isQR' {x : Nat → Nat → Rat} (h : ∀ i j, i < 4 → x i j = design (fun i => [if i % 2 = 0 then (0 : Rat) else 2]) i j) :
    IsQR 4 2 x (qr' 4 2 x).1 (qr' 4 2 x).2 := by
  change IsQR 4 2 x (qr' 4 2 fun _ _ => 0).1 (qr' 4 2 fun _ _ => 0).2
  refine ⟨?_, ?_, ?_⟩
  · intro i j hi hj
    rw [h i j hi]
    clear h x
    interval_cases i <;> interval_cases j <;> decide +kernel
  · intro i j hi hj
    clear h x
    interval_cases i <;> interval_cases j <;> decide +kernel
  · intro i j hij
    clear h x
    match i, j with
    | 0, j => omega
    | 1, 0 => decide +kernel
    | 1, j + 1 => omega
    | i + 2, j => simp [qr']

theorem independent : Independent 4 1 (fun i => [if i < 2 then (0 : Rat) else 2]) := by
  intro b0 b hb h
  match b, hb with
  | [b1], _ =>
    have h0 := h 0 (by omega)
    have h2 := h 2 (by omega)
    simp [linear] at h0 h2
    subst h0
    simpa using h2
end C156

open C156 in
/-- Training on rows x = 0, 0, 2, 2 with y = 1, 3, 5, 7, and on the same rows in another order with other factors, gives y = 2 + 2x
both times. The hypotheses of the theorem hold. -/
theorem C156_witness : ∃ tr tr', run 4096 ops = Res.ok tr ∧ run 4096 ops' = Res.ok tr' ∧ (Grid.dense tr.d).Presents 4 ∧
    (Grid.dense tr.d).typed 4 ∧ Reordered (.dense tr.d) (.dense tr'.d) 4 swap12 ∧ (Grid.dense tr.d).allClassAttributes = [aY] ∧
    aY ∈ (Grid.dense tr.d).allAttributes ∧ (Grid.dense tr.d).normalAttrs.filter Attr.isFloat = [aX] ∧
    (∀ fs, fs.Perm [aX] → ∀ x, (∀ i j, i < 4 → x i j = design ((Grid.dense tr.d).point val fs) i j) →
      IsQR 4 (fs.length + 1) x (qr 4 (fs.length + 1) x).1 (qr 4 (fs.length + 1) x).2) ∧
    (∀ fs, fs.Perm [aX] → ∀ x, (∀ i j, i < 4 → x i j = design ((Grid.dense tr'.d).point val fs) i j) →
      IsQR 4 (fs.length + 1) x (qr' 4 (fs.length + 1) x).1 (qr' 4 (fs.length + 1) x).2) ∧
    Independent 4 1 ((Grid.dense tr.d).point val [aX]) ∧
    ((linRegFit val id qr (List.range 4) (List.range 4) (.dense tr.d) [aX]).map fun lr => (lr.disturbance, lr.coefficients)) =
      Res.ok (2, [2]) ∧
    ((linRegFit val id qr' [3, 2, 1, 0] (List.range 4) (.dense tr'.d) [aX]).map fun lr => (lr.disturbance, lr.coefficients)) =
      Res.ok (2, [2]) := by
  have h : ((run 4096 ops).bind fun tr => (run 4096 ops').map fun tr' =>
      [decide (tr.d.allClassAttributes = [aY]), decide (aY ∈ tr.d.allAttributes),
        decide ((Grid.dense tr.d).normalAttrs.filter Attr.isFloat = [aX]),
        (List.range 4).all fun r => decide ((Grid.dense tr.d).point val [aX] r = [if r < 2 then (0 : Rat) else 2]),
        (List.range 4).all fun r => decide ((Grid.dense tr'.d).point val [aX] r = [if r % 2 = 0 then (0 : Rat) else 2]),
        decide (((linRegFit val id qr (List.range 4) (List.range 4) (.dense tr.d) [aX]).map fun lr =>
          (lr.disturbance, lr.coefficients)) = Res.ok (2, [2])),
        decide (((linRegFit val id qr' [3, 2, 1, 0] (List.range 4) (.dense tr'.d) [aX]).map fun lr =>
          (lr.disturbance, lr.coefficients)) = Res.ok (2, [2]))]) =
      Res.ok [true, true, true, true, true, true, true] := by decide +kernel
  obtain ⟨tr, htr, h⟩ := Res.bind_eq_ok.1 h
  obtain ⟨tr', htr', h⟩ := Res.map_eq_ok.1 h
  simp only [List.cons.injEq, decide_eq_true_eq, and_true] at h
  obtain ⟨h1, h2, h3, h4, h5, h6, h7⟩ := h
  have D : DenseOK 4 tr.d := denseOK_run (ops := ops) (by decide) htr (by decide)
  have p4 : ∀ r, r < 4 → (Grid.dense tr.d).point val [aX] r = [if r < 2 then (0 : Rat) else 2] := fun r hr =>
    of_decide_eq_true (List.all_eq_true.1 h4 r (List.mem_range.2 hr))
  have p5 : ∀ r, r < 4 → (Grid.dense tr'.d).point val [aX] r = [if r % 2 = 0 then (0 : Rat) else 2] := fun r hr =>
    of_decide_eq_true (List.all_eq_true.1 h5 r (List.mem_range.2 hr))
  refine ⟨tr, tr', htr, htr', D.presents, D.typed, reordered htr htr', h1, h2, h3, ?_, ?_, ?_, h6, h7⟩
  · intro fs hfs x hx
    obtain rfl := List.perm_singleton.1 hfs
    exact isQR fun i j hi => by rw [hx i j hi]; unfold design; rw [p4 i hi]
  · intro fs hfs x hx
    obtain rfl := List.perm_singleton.1 hfs
    exact isQR' fun i j hi => by rw [hx i j hi]; unfold design; rw [p5 i hi]
  · intro b0 b hb hz
    exact independent b0 b hb fun i hi => by simp only; rw [← p4 i hi]; exact hz i hi

open C156 in
/-- And both models predict the same two numbers for x = 1 and x = 3. -/
example : ((run 4096 ops).bind fun st => (run 4096 ops').bind fun st' => (run 4096 opsW).bind fun sw =>
    (linRegFit val id qr (List.range 4) (List.range 4) (.dense st.d) [aX]).bind fun lr =>
    (linRegFit val id qr' (List.range 4) (List.range 4) (.dense st'.d) [aX]).bind fun lr' =>
      (linRegPredict val enc id 4096 (List.range 2) lr (.dense sw.d)).bind fun d =>
      (linRegPredict val enc id 4096 [1, 0] lr' (.dense sw.d)).map fun d' =>
        [(Grid.dense d).cell aY' 0, (Grid.dense d).cell aY' 1, (Grid.dense d').cell aY' 0, (Grid.dense d').cell aY' 1]) =
    Res.ok [packU64 4, packU64 8, packU64 4, packU64 8] := by decide +kernel

end Golearn
