import Verif.Proofs.RegressionRewritten
import Verif.Props.C156

/-! # C157: linear regression in other units and with repeated rows -/

namespace Golearn

section
variable {R : Type} [Field R] [LinearOrder R] [IsStrictOrderedRing R]

/-- The second table has every row of the first one `k` times, in any order, and its numbers are in other units, those of the class
too. Trained on it, the regression predicts, for rows in these units, what the regression trained on the first table predicts for the
rows in the old units: the same number in the units of the class. -/
theorem C157_rewritten (val : U64 → R) (enc : R → U64) (srt srt' : List Spec → List Spec) (hsrt : PositionSort srt)
    (hsrt' : PositionSort srt') (qr qr' : QR R) (pg : Nat) (o1 o2 o1' o2' : List Nat) (g g' : Grid) (n n' k : Nat) (σ : Nat → Nat)
    (scale shift : Attr → R) (P : g.Presents n) (T : g.typed n) (W : Rewritten val g g' n n' k σ scale shift)
    (h1 : g.RowOrder o1) (h2 : g.RowOrder o2) (h1' : g'.RowOrder o1') (h2' : g'.RowOrder o2') (cls : Attr)
    (hc : g.allClassAttributes = [cls]) (hcin : cls ∈ g.allAttributes) (hcf : cls.isFloat = true) (normal normal' : List Attr)
    (hn : normal.Perm g.normalAttrs) (hn' : normal'.Perm g'.normalAttrs)
    (hrows : (g.normalAttrs.filter Attr.isFloat).length + 1 ≤ n)
    (hqr : ∀ fs, fs.Perm (g.normalAttrs.filter Attr.isFloat) → ∀ x, (∀ i j, i < n → x i j = design (g.point val fs) i j) →
      IsQR n (fs.length + 1) x (qr n (fs.length + 1) x).1 (qr n (fs.length + 1) x).2)
    (hqr' : ∀ fs, fs.Perm (g.normalAttrs.filter Attr.isFloat) → ∀ x, (∀ i j, i < n' → x i j = design (g'.point val fs) i j) →
      IsQR n' (fs.length + 1) x (qr' n' (fs.length + 1) x).1 (qr' n' (fs.length + 1) x).2)
    (hind : Independent n (g.normalAttrs.filter Attr.isFloat).length (g.point val (g.normalAttrs.filter Attr.isFloat))) :
    ∃ fs : List Attr, fs.Perm (g.normalAttrs.filter Attr.isFloat) ∧
    ∃ lr lr', linRegFit val srt qr o1 o2 g normal = Res.ok lr ∧ linRegFit val srt' qr' o1' o2' g' normal' = Res.ok lr' ∧
      ∀ (what what' : Grid) (m : Nat) (cw cw' : Attr) (oW oW' : List Nat), what.Presents m → what.typed m → what.RowOrder oW →
        what.allClassAttributes = [cw] → cw.equals cls = true → what.Finds (g.normalAttrs.filter Attr.isFloat) →
        what'.Presents m → what'.typed m → what'.RowOrder oW' →
        what'.allClassAttributes = [cw'] → cw'.equals cls = true → what'.Finds (g.normalAttrs.filter Attr.isFloat) →
        (∀ a ∈ g.normalAttrs.filter Attr.isFloat, ∀ r, r < m →
          what'.number val a r = scale a * what.number val a r + shift a) →
        ∃ d d', linRegPredict val enc srt pg oW lr what = Res.ok d ∧ linRegPredict val enc srt' pg oW' lr' what' = Res.ok d' ∧
          ∀ r, r < m →
            (Grid.dense d).cell cw r = packU64 (enc (linear lr.disturbance lr.coefficients (what.point val fs r))) ∧
            (Grid.dense d').cell cw' r =
              packU64 (enc (scale cls * linear lr.disturbance lr.coefficients (what.point val fs r) + shift cls)) := by
  have hna : g'.normalAttrs = g.normalAttrs := by unfold Grid.normalAttrs; rw [W.attrs, W.classes]
  rw [hna] at hn'
  obtain ⟨fs, hfs, hsp⟩ := positionSort_attrs hsrt (normal.filter Attr.isFloat)
  obtain ⟨fs', hfs', hsp'⟩ := positionSort_attrs hsrt' (normal'.filter Attr.isFloat)
  have pf : fs.Perm (g.normalAttrs.filter Attr.isFloat) := hfs.trans (hn.filter _)
  have pf' : fs'.Perm (g.normalAttrs.filter Attr.isFloat) := hfs'.trans (hn'.filter _)
  have hin : ∀ a ∈ g.normalAttrs.filter Attr.isFloat, a ∈ g.allAttributes ∧ a.isFloat = true := fun a ha =>
    ⟨(((C27_references _ _ _ _ (List.Perm.refl _) (List.Perm.refl _)).2.2.2 a).1 (List.mem_filter.1 ha).1).1,
      (List.mem_filter.1 ha).2⟩
  have hin1 : ∀ a ∈ fs, a ∈ g.allAttributes ∧ a.isFloat = true := fun a ha => hin a (pf.mem_iff.1 ha)
  have hin' : ∀ a ∈ fs', a ∈ g.allAttributes ∧ a.isFloat = true := fun a ha => hin a (pf'.mem_iff.1 ha)
  have i1 : Independent n fs.length (g.point val fs) := independent_perm val pf hind
  have i2 : Independent n' fs'.length (g'.point val fs') := W.independent hin' (by omega) (independent_perm val pf' hind)
  have hn'' : n ≤ n' := by rw [W.length]; exact Nat.le_mul_of_pos_left n W.some
  obtain ⟨lr, f1, f2, f3, f4, f5⟩ := linRegFit_spec P T h1 h2 hc hcin hcf hn hfs hsp hsrt (by rw [pf.length_eq]; exact hrows)
    (hqr fs pf) i1
  obtain ⟨lr', f1', f2', f3', f4', f5'⟩ := linRegFit_spec W.table W.typed h1' h2' (by rw [W.classes]; exact hc)
    (by rw [W.attrs]; exact hcin) hcf (by rw [hna]; exact hn') hfs' hsp' hsrt' (by rw [pf'.length_eq]; omega) (hqr' fs' pf') i2
  have pp : fs'.Perm fs := pf'.trans pf.symm
  have hs : ∀ a ∈ fs, scale a ≠ 0 := fun a ha => W.scaled a (hin1 a ha).1 (hin1 a ha).2
  have hsc : scale cls ≠ 0 := W.scaled cls hcin hcf
  -- the coefficients of the first run in the new units
  obtain ⟨u0, u, u1, _, u3⟩ := linear_units fs scale shift hs (scale cls) (shift cls) lr.disturbance lr.coefficients f4
  obtain ⟨v, v1, _, v3⟩ := linear_transport pp.symm u u1
  have e1 := W.squaredError (fs := fs) hin' hcin hcf lr.disturbance u0 lr.coefficients v (fun num => by
    rw [v3 (fun a => scale a * num a + shift a) u0, u3])
  -- those of the second run in the old units
  obtain ⟨c, c1, _, c3⟩ := linear_transport pp lr'.coefficients f4'
  obtain ⟨w0, w, w1, _, w3⟩ := linear_units fs (fun a => (scale a)⁻¹) (fun a => - shift a / scale a)
    (fun a ha => inv_ne_zero (hs a ha)) (scale cls)⁻¹ (- shift cls / scale cls) lr'.disturbance c c1
  have w4 : ∀ num : Attr → R, linear lr'.disturbance lr'.coefficients (fs'.map fun a => scale a * num a + shift a) =
      scale cls * linear w0 w (fs.map num) + shift cls := by
    intro num
    have h := w3 fun a => scale a * num a + shift a
    have e : (fs.map fun a => (scale a)⁻¹ * (scale a * num a + shift a) + - shift a / scale a) = fs.map num :=
      List.map_congr_left fun a ha => by
        have := hs a ha
        field_simp
        ring
    rw [e, c3 (fun a => scale a * num a + shift a)] at h
    rw [h]
    field_simp
    ring
  have e2 := W.squaredError (fs := fs) hin' hcin hcf w0 lr'.disturbance w lr'.coefficients w4
  have hmin := f5' u0 v v1
  rw [e1, e2] at hmin
  have hk : (0 : R) < k := by exact_mod_cast W.some
  have hle := le_of_mul_le_mul_left (le_of_mul_le_mul_left hmin hk) (mul_self_pos.2 hsc)
  obtain ⟨q0, q1⟩ := leastSquares_unique i1 f4 w1 f5 hle
  refine ⟨fs, pf, lr, lr', f1, f1', ?_⟩
  intro what what' m cw cw' oW oW' Pw Tw hoW hcw heq hfind Pw' Tw' hoW' hcw' heq' hfind' hnum
  have hbin : ∀ c : Attr, c.equals cls = true → c.isBin = false := by
    intro c he
    have hf : c.isFloat = true := by rw [equals_isFloat he]; exact hcf
    obtain ⟨p, b⟩ := c
    cases b <;> first | rfl | cases hf
  obtain ⟨d, d1, d2, d3, d4⟩ := linRegPredict_spec (enc := enc) (pg := pg) (lr := lr) Pw Tw hoW hcw (hbin cw heq)
    (by rw [f3]; exact heq) (fs := fs) (srt := srt) (by rw [f2]; exact hfs) (by rw [f2]; exact hsp)
    (by rw [f2]; exact fun a ha => hfind a ((hn.filter _).mem_iff.1 ha))
    (by intro a ha; rw [f2] at ha; exact (List.mem_filter.1 ha).2)
  obtain ⟨d', d1', d2', d3', d4'⟩ := linRegPredict_spec (enc := enc) (pg := pg) (lr := lr') Pw' Tw' hoW' hcw' (hbin cw' heq')
    (by rw [f3']; exact heq') (fs := fs') (srt := srt') (by rw [f2']; exact hfs') (by rw [f2']; exact hsp')
    (by rw [f2']; exact fun a ha => hfind' a ((hn'.filter _).mem_iff.1 ha))
    (by intro a ha; rw [f2'] at ha; exact (List.mem_filter.1 ha).2)
  refine ⟨d, d', d1, d1', fun r hr => ⟨d4 r hr, ?_⟩⟩
  rw [d4' r hr]
  have e : what'.point val fs' r = fs'.map fun a => scale a * what.number val a r + shift a :=
    List.map_congr_left fun a ha => hnum a (pf'.mem_iff.1 ha) r hr
  rw [e, w4 fun a => what.number val a r, q0, q1]
  rfl

/-- With every row `k` times, in the same units, all predictions stay the same. -/
theorem C157_copies (val : U64 → R) (enc : R → U64) (srt srt' : List Spec → List Spec) (hsrt : PositionSort srt)
    (hsrt' : PositionSort srt') (qr qr' : QR R) (pg : Nat) (o1 o2 o1' o2' : List Nat) (g g' : Grid) (n n' k : Nat) (σ : Nat → Nat)
    (P : g.Presents n) (T : g.typed n) (W : Rewritten val g g' n n' k σ (fun _ => 1) (fun _ => 0))
    (h1 : g.RowOrder o1) (h2 : g.RowOrder o2) (h1' : g'.RowOrder o1') (h2' : g'.RowOrder o2') (cls : Attr)
    (hc : g.allClassAttributes = [cls]) (hcin : cls ∈ g.allAttributes) (hcf : cls.isFloat = true) (normal normal' : List Attr)
    (hn : normal.Perm g.normalAttrs) (hn' : normal'.Perm g'.normalAttrs)
    (hrows : (g.normalAttrs.filter Attr.isFloat).length + 1 ≤ n)
    (hqr : ∀ fs, fs.Perm (g.normalAttrs.filter Attr.isFloat) → ∀ x, (∀ i j, i < n → x i j = design (g.point val fs) i j) →
      IsQR n (fs.length + 1) x (qr n (fs.length + 1) x).1 (qr n (fs.length + 1) x).2)
    (hqr' : ∀ fs, fs.Perm (g.normalAttrs.filter Attr.isFloat) → ∀ x, (∀ i j, i < n' → x i j = design (g'.point val fs) i j) →
      IsQR n' (fs.length + 1) x (qr' n' (fs.length + 1) x).1 (qr' n' (fs.length + 1) x).2)
    (hind : Independent n (g.normalAttrs.filter Attr.isFloat).length (g.point val (g.normalAttrs.filter Attr.isFloat))) :
    ∃ lr lr', linRegFit val srt qr o1 o2 g normal = Res.ok lr ∧ linRegFit val srt' qr' o1' o2' g' normal' = Res.ok lr' ∧
      ∀ (what : Grid) (m : Nat) (cw : Attr) (oW oW' : List Nat), what.Presents m → what.typed m → what.RowOrder oW →
        what.RowOrder oW' → what.allClassAttributes = [cw] → cw.equals cls = true →
        what.Finds (g.normalAttrs.filter Attr.isFloat) →
        ∃ d d', linRegPredict val enc srt pg oW lr what = Res.ok d ∧ linRegPredict val enc srt' pg oW' lr' what = Res.ok d' ∧
          ∀ r, r < m → (Grid.dense d').cell cw r = (Grid.dense d).cell cw r := by
  obtain ⟨fs, _, lr, lr', f, f', h⟩ := C157_rewritten val enc srt srt' hsrt hsrt' qr qr' pg o1 o2 o1' o2' g g' n n' k σ _ _ P T W
    h1 h2 h1' h2' cls hc hcin hcf normal normal' hn hn' hrows hqr hqr' hind
  refine ⟨lr, lr', f, f', fun what m cw oW oW' Pw Tw hoW hoW' hcw heq hfind => ?_⟩
  obtain ⟨d, d', p, p', e⟩ := h what what m cw cw oW oW' Pw Tw hoW hcw heq hfind Pw Tw hoW' hcw heq hfind
    (fun a _ r _ => by rw [one_mul, add_zero])
  refine ⟨d, d', p, p', fun r hr => ?_⟩
  rw [(e r hr).1, (e r hr).2, one_mul, add_zero]

end

namespace C157
open C156

/-- The rows of `C156`, each of them four times, in another order, with 3x + 1 for x and 2y + 1 for y. -/
def ops' : List Op :=
  [.add aX, .add aY, .addClass aY, .extend 16] ++
    (List.range 16).flatMap fun r =>
      [.set 0 r (packU64 (if r % 2 = 0 then 1 else 7)), .set 1 r (packU64 (if r % 4 = 0 then 3 else if r % 4 = 1 then 11 else
        if r % 4 = 2 then 7 else 15))]
def row (r : Nat) : Nat := swap12 (r % 4)
def scale (a : Attr) : Rat := if a = aX then 3 else 2
def shift (_ : Attr) : Rat := 1
/-- The sign of entry `i`, `k` of a Hadamard matrix. -/
def sign (i k : Nat) : Rat := if ((List.range 4).filter fun b => i.testBit b && k.testBit b).length % 2 = 0 then 1 else -1
def qr' : QR Rat := fun _ _ _ =>
  (fun i k => sign i k / 4, fun k j => (([[4, 16], [0, -12]] : List (List Rat)).getD k []).getD j 0)

theorem isQR' {x : Nat → Nat → Rat} (h : ∀ i j, i < 16 → x i j = design (fun i => [if i % 2 = 0 then (1 : Rat) else 7]) i j) :
    IsQR 16 2 x (qr' 16 2 x).1 (qr' 16 2 x).2 := by
  change IsQR 16 2 x (qr' 16 2 fun _ _ => 0).1 (qr' 16 2 fun _ _ => 0).2
  have e1 : ∀ i < 16, ∀ j < 2, design (fun i => [if i % 2 = 0 then (1 : Rat) else 7]) i j =
      ∑ k ∈ Finset.range 16, (qr' 16 2 fun _ _ => 0).1 i k * (qr' 16 2 fun _ _ => 0).2 k j := by decide +kernel
  have e2 : ∀ i < 16, ∀ j < 16, ∑ k ∈ Finset.range 16, (qr' 16 2 fun _ _ => 0).1 k i * (qr' 16 2 fun _ _ => 0).1 k j =
      if i = j then 1 else 0 := by decide +kernel
  refine ⟨fun i j hi hj => by rw [h i j hi, e1 i hi j hj], fun i j hi hj => e2 i hi j hj, ?_⟩
  intro i j hij
  clear h x
  match i, j with
  | 0, j => omega
  | 1, 0 => decide +kernel
  | 1, j + 1 => omega
  | i + 2, j => simp [qr']

end C157

open C156 C157 in
/-- Training on rows x = 0, 0, 2, 2 with y = 1, 3, 5, 7 gives y = 2 + 2x. With 3x + 1 for x, 2y + 1 for y and every row four times it
gives y = 11/3 + 4/3 x, the same function in these units. The hypotheses of the theorem hold; those about the first table are shown
in `C156_witness`. -/
theorem C157_witness : ∃ tr tr', run 4096 ops = Res.ok tr ∧ run 4096 C157.ops' = Res.ok tr' ∧
    Rewritten C156.val (.dense tr.d) (.dense tr'.d) 4 16 4 row scale shift ∧
    (∀ fs, fs.Perm [aX] → ∀ x, (∀ i j, i < 16 → x i j = design ((Grid.dense tr'.d).point C156.val fs) i j) →
      IsQR 16 (fs.length + 1) x (C157.qr' 16 (fs.length + 1) x).1 (C157.qr' 16 (fs.length + 1) x).2) ∧
    ((linRegFit C156.val id C156.qr (List.range 4) (List.range 4) (.dense tr.d) [aX]).map fun lr =>
      (lr.disturbance, lr.coefficients)) = Res.ok (2, [2]) ∧
    ((linRegFit C156.val id C157.qr' (List.range 16) (List.range 16) (.dense tr'.d) [aX]).map fun lr =>
      (lr.disturbance, lr.coefficients)) = Res.ok (11 / 3, [4 / 3]) := by
  have h : ((run 4096 ops).bind fun tr => (run 4096 C157.ops').map fun tr' =>
      [decide (tr.d.allAttributes = [aX, aY]), decide (tr'.d.allAttributes = tr.d.allAttributes),
        decide (tr'.d.allClassAttributes = tr.d.allClassAttributes),
        [aX, aY].all fun a => (List.range 16).all fun r => decide ((Grid.dense tr'.d).number C156.val a r =
          scale a * (Grid.dense tr.d).number C156.val a (row r) + shift a),
        (List.range 16).all fun r => decide ((Grid.dense tr'.d).point C156.val [aX] r = [if r % 2 = 0 then (1 : Rat) else 7]),
        decide (((linRegFit C156.val id C156.qr (List.range 4) (List.range 4) (.dense tr.d) [aX]).map fun lr =>
          (lr.disturbance, lr.coefficients)) = Res.ok (2, [2])),
        decide (((linRegFit C156.val id C157.qr' (List.range 16) (List.range 16) (.dense tr'.d) [aX]).map fun lr =>
          (lr.disturbance, lr.coefficients)) = Res.ok (11 / 3, [4 / 3]))]) =
      Res.ok [true, true, true, true, true, true, true] := by decide +kernel
  obtain ⟨tr, htr, h⟩ := Res.bind_eq_ok.1 h
  obtain ⟨tr', htr', h⟩ := Res.map_eq_ok.1 h
  simp only [List.cons.injEq, decide_eq_true_eq, and_true] at h
  obtain ⟨h0, h1, h2, h3, h4, h5, h6⟩ := h
  have D : DenseOK 16 tr'.d := denseOK_run (ops := C157.ops') (by decide) htr' (by decide)
  have p4 : ∀ r, r < 16 → (Grid.dense tr'.d).point C156.val [aX] r = [if r % 2 = 0 then (1 : Rat) else 7] := fun r hr =>
    of_decide_eq_true (List.all_eq_true.1 h4 r (List.mem_range.2 hr))
  refine ⟨tr, tr', htr, htr', ⟨by decide, by decide, D.presents, D.typed, h1, h2, ?_, ?_⟩, ?_, h5, h6⟩
  · intro a _ _
    unfold scale
    split <;> norm_num
  · intro a ha _ r hr
    have ha' : a ∈ [aX, aY] := by rw [← h0]; exact ha
    exact of_decide_eq_true (List.all_eq_true.1 (List.all_eq_true.1 h3 a ha') r (List.mem_range.2 hr))
  · intro fs hfs x hx
    obtain rfl := List.perm_singleton.1 hfs
    exact isQR' fun i j hi => by rw [hx i j hi]; unfold design; rw [p4 i hi]

end Golearn
