import Verif.Spec.KnnColumns
import Verif.Props.C156

/-! # C163: linear regression with columns in another order, and with other columns -/

namespace Golearn

section
variable {R : Type} [Field R] [LinearOrder R] [IsStrictOrderedRing R]

/-- Two tables have the same class and the same numeric columns, in any order, with the same numbers in every row; columns that are not
numeric may be different ones. The regressions trained on them have the same intercept and the same coefficients up to the order of
the columns, and they predict the same numbers for all tables with the same numbers in these columns, which may be in any order too,
and among other columns. -/
theorem C163_columns (val : U64 → R) (enc : R → U64) (srt srt' : List Spec → List Spec) (hsrt : PositionSort srt)
    (hsrt' : PositionSort srt') (qr qr' : QR R) (pg : Nat) (o1 o2 o1' o2' : List Nat) (g g' : Grid) (n : Nat)
    (P : g.Presents n) (T : g.typed n) (P' : g'.Presents n) (T' : g'.typed n)
    (h1 : g.RowOrder o1) (h2 : g.RowOrder o2) (h1' : g'.RowOrder o1') (h2' : g'.RowOrder o2') (cls : Attr)
    (hc : g.allClassAttributes = [cls]) (hcin : cls ∈ g.allAttributes) (hc' : g'.allClassAttributes = [cls])
    (hcin' : cls ∈ g'.allAttributes) (hcf : cls.isFloat = true) (normal normal' : List Attr)
    (hn : normal.Perm g.normalAttrs) (hn' : normal'.Perm g'.normalAttrs)
    (hcols : (g'.normalAttrs.filter Attr.isFloat).Perm (g.normalAttrs.filter Attr.isFloat))
    (hsame : SameNumbers val g g' n (cls :: g.normalAttrs))
    (hrows : (g.normalAttrs.filter Attr.isFloat).length + 1 ≤ n)
    (hqr : ∀ fs, fs.Perm (g.normalAttrs.filter Attr.isFloat) → ∀ x, (∀ i j, i < n → x i j = design (g.point val fs) i j) →
      IsQR n (fs.length + 1) x (qr n (fs.length + 1) x).1 (qr n (fs.length + 1) x).2)
    (hqr' : ∀ fs, fs.Perm (g.normalAttrs.filter Attr.isFloat) → ∀ x, (∀ i j, i < n → x i j = design (g'.point val fs) i j) →
      IsQR n (fs.length + 1) x (qr' n (fs.length + 1) x).1 (qr' n (fs.length + 1) x).2)
    (hind : Independent n (g.normalAttrs.filter Attr.isFloat).length (g.point val (g.normalAttrs.filter Attr.isFloat))) :
    ∃ lr lr', linRegFit val srt qr o1 o2 g normal = Res.ok lr ∧ linRegFit val srt' qr' o1' o2' g' normal' = Res.ok lr' ∧
      lr'.disturbance = lr.disturbance ∧ lr'.coefficients.Perm lr.coefficients ∧
      ∀ (what what' : Grid) (m : Nat) (cw cw' : Attr) (oW oW' : List Nat), what.Presents m → what.typed m → what.RowOrder oW →
        what.allClassAttributes = [cw] → cw.equals cls = true → what.Finds (g.normalAttrs.filter Attr.isFloat) →
        what'.Presents m → what'.typed m → what'.RowOrder oW' →
        what'.allClassAttributes = [cw'] → cw'.equals cls = true → what'.Finds (g.normalAttrs.filter Attr.isFloat) →
        SameNumbers val what what' m g.normalAttrs →
        ∃ d d', linRegPredict val enc srt pg oW lr what = Res.ok d ∧ linRegPredict val enc srt' pg oW' lr' what' = Res.ok d' ∧
          ∀ r, r < m → (Grid.dense d').cell cw' r = (Grid.dense d).cell cw r := by
  obtain ⟨fs, hfs, hsp⟩ := positionSort_attrs hsrt (normal.filter Attr.isFloat)
  obtain ⟨fs', hfs', hsp'⟩ := positionSort_attrs hsrt' (normal'.filter Attr.isFloat)
  have pf : fs.Perm (g.normalAttrs.filter Attr.isFloat) := hfs.trans (hn.filter _)
  have pf' : fs'.Perm (g.normalAttrs.filter Attr.isFloat) := hfs'.trans ((hn'.filter _).trans hcols)
  have hnum : ∀ {u u' : Grid} {m : Nat}, SameNumbers val u u' m g.normalAttrs →
      ∀ r, r < m → u'.point val fs' r = u.point val fs' r := by
    intro u u' m hs r hr
    apply List.map_congr_left
    intro a ha
    have ha' := List.mem_filter.1 (pf'.mem_iff.1 ha)
    exact hs a ha'.1 ha'.2 r hr
  have hs : SameNumbers val g g' n g.normalAttrs := fun a ha => hsame a (List.mem_cons_of_mem _ ha)
  have hy : ∀ r, r < n → g'.number val cls r = g.number val cls r := hsame cls List.mem_cons_self hcf
  have i1 : Independent n fs.length (g.point val fs) := independent_perm val pf hind
  have i2 : Independent n fs'.length (g'.point val fs') := by
    intro b0 b hb hz
    exact independent_perm val pf' hind b0 b hb fun i hi => by rw [← hnum hs i hi]; exact hz i hi
  obtain ⟨lr, f1, f2, f3, f4, f5⟩ := linRegFit_spec P T h1 h2 hc hcin hcf hn hfs hsp hsrt (by rw [pf.length_eq]; exact hrows)
    (hqr fs pf) i1
  obtain ⟨lr', f1', f2', f3', f4', f5'⟩ := linRegFit_spec P' T' h1' h2' hc' hcin' hcf hn' hfs' hsp' hsrt'
    (by rw [pf'.length_eq]; exact hrows) (hqr' fs' pf') i2
  have pp : fs'.Perm fs := pf'.trans pf.symm
  obtain ⟨b, b1, b2, b3⟩ := linear_transport pp lr'.coefficients f4'
  obtain ⟨c, c1, c2, c3⟩ := linear_transport pp.symm lr.coefficients f4
  have err : ∀ (d0 : R) (d d' : List R), (∀ (num : Attr → R) (b0 : R), linear b0 d (fs.map num) = linear b0 d' (fs'.map num)) →
      squaredError n (g.point val fs) (g.number val cls) d0 d = squaredError n (g'.point val fs') (g'.number val cls) d0 d' := by
    intro d0 d d' h
    unfold squaredError
    apply Finset.sum_congr rfl
    intro i hi
    have hi' := Finset.mem_range.1 hi
    have e : linear d0 d (g.point val fs i) = linear d0 d' (g.point val fs' i) := h (fun a => g.number val a i) d0
    rw [e, hnum hs i hi', hy i hi']
  have e1 := err lr'.disturbance b lr'.coefficients b3
  have e2 := err lr.disturbance lr.coefficients c (fun num b0 => (c3 num b0).symm)
  obtain ⟨u0, u1⟩ := leastSquares_unique i1 f4 b1 f5 (by
    rw [e1, e2]
    exact f5' _ _ (by rw [c1]))
  refine ⟨lr, lr', f1, f1', u0, by rw [← u1]; exact b2.symm, ?_⟩
  intro what what' m cw cw' oW oW' Pw Tw hoW hcw heq hfind Pw' Tw' hoW' hcw' heq' hfind' hW
  have hbin : ∀ c : Attr, c.equals cls = true → c.isBin = false := by
    intro c he
    have hf : c.isFloat = true := by rw [equals_isFloat he]; exact hcf
    obtain ⟨p, b⟩ := c
    cases b <;> first | rfl | cases hf
  obtain ⟨d, d1, d2, d3, d4⟩ := linRegPredict_spec (enc := enc) (pg := pg) (lr := lr) Pw Tw hoW hcw (hbin cw heq)
    (by rw [f3]; exact heq) (fs := fs) (srt := srt) (by rw [f2]; exact hfs) (by rw [f2]; exact hsp)
    (by rw [f2]; exact fun a ha => hfind a ((hn.filter _).mem_iff.1 ha))
    (by intro a ha; rw [f2] at ha; exact (List.mem_filter.1 ha).2)
  obtain ⟨d', d1', d2', d3', d4'⟩ := linRegPredict_spec (enc := enc) (pg := pg) (lr := lr') Pw' Tw' hoW' hcw' (hbin cw' heq')
    (by rw [f3']; exact heq') (fs := fs') (srt := srt') (by rw [f2']; exact hfs') (by rw [f2']; exact hsp')
    (by rw [f2']; exact fun a ha => hfind' a (hcols.mem_iff.1 ((hn'.filter _).mem_iff.1 ha)))
    (by intro a ha; rw [f2'] at ha; exact (List.mem_filter.1 ha).2)
  refine ⟨d, d', d1, d1', fun r hr => ?_⟩
  rw [d4 r hr, d4' r hr, hnum hW r hr]
  have e : linear lr.disturbance lr.coefficients (what.point val fs r) =
      linear lr'.disturbance lr'.coefficients (what.point val fs' r) := by
    rw [← u0, ← u1]
    exact b3 (fun a => what.number val a r) lr'.disturbance
  rw [e]

end

namespace C163
def aX : Attr := ⟨0, .float "x" 2⟩
def aZ : Attr := ⟨1, .float "z" 2⟩
def aY : Attr := ⟨2, .float "y" 2⟩
def aS : Attr := ⟨3, .cat "s" ["u", "v"]⟩
/-- Rows x = 0, 0, 2, 2 and z = 0, 2, 0, 2 with y = 3, 5, 3, 9. -/
def ops : List Op :=
  [.add aX, .add aZ, .add aY, .addClass aY, .extend 4, .set 0 2 (packU64 2), .set 0 3 (packU64 2), .set 1 1 (packU64 2),
   .set 1 3 (packU64 2), .set 2 0 (packU64 3), .set 2 1 (packU64 5), .set 2 2 (packU64 3), .set 2 3 (packU64 9)]
/-- The same numbers with the columns in another order, and a column of texts. -/
def ops' : List Op :=
  [.add aZ, .add aS, .add aY, .add aX, .addClass aY, .extend 4, .set 3 2 (packU64 2), .set 3 3 (packU64 2), .set 0 1 (packU64 2),
   .set 0 3 (packU64 2), .set 2 0 (packU64 3), .set 2 1 (packU64 5), .set 2 2 (packU64 3), .set 2 3 (packU64 9), .set 1 1 (packU64 1)]
def val (u : U64) : Rat := u.toNat
def enc (x : Rat) : U64 := BitVec.ofNat 64 x.num.toNat
def rowX (r : Nat) : Rat := if r < 2 then 0 else 2
def rowZ (r : Nat) : Rat := if r % 2 = 0 then 0 else 2
/-- Factors of the matrix of ones, x and z, and of that of ones, z and x. -/
def qr : QR Rat := fun _ _ m =>
  (fun i k => (((if m 1 1 = 0 then ([[1, 1, 1, 1], [1, 1, -1, -1], [1, -1, 1, -1], [1, -1, -1, 1]] : List (List Rat))
      else [[1, 1, 1, 1], [1, -1, 1, -1], [1, 1, -1, -1], [1, -1, -1, 1]]).getD k []).getD i 0) / 2,
    fun k j => (([[2, 2, 2], [0, -2, 0], [0, 0, -2]] : List (List Rat)).getD k []).getD j 0)

theorem upper : ∀ i j, j < i → (([[2, 2, 2], [0, -2, 0], [0, 0, -2]] : List (List Rat)).getD i []).getD j 0 = 0
  | 0, j, h => by omega
  | 1, 0, _ => by decide +kernel
  | 1, j + 1, h => by omega
  | 2, 0, _ => by decide +kernel
  | 2, 1, _ => by decide +kernel
  | 2, j + 2, h => by omega
  | i + 3, j, _ => by simp

theorem isQR {x : Nat → Nat → Rat} (h : ∀ i j, i < 4 → x i j = design (fun r => [rowX r, rowZ r]) i j) :
    IsQR 4 3 x (qr 4 3 x).1 (qr 4 3 x).2 := by
  have h11 : x 1 1 = 0 := by rw [h 1 1 (by omega)]; decide +kernel
  refine ⟨?_, ?_, fun i j hij => upper i j hij⟩
  · intro i j hi hj
    rw [h i j hi]
    simp only [qr, h11, if_true]
    clear h11 h x
    interval_cases i <;> interval_cases j <;> decide +kernel
  · intro i j hi hj
    simp only [qr, h11, if_true]
    clear h11 h x
    interval_cases i <;> interval_cases j <;> decide +kernel

theorem isQR' {x : Nat → Nat → Rat} (h : ∀ i j, i < 4 → x i j = design (fun r => [rowZ r, rowX r]) i j) :
    IsQR 4 3 x (qr 4 3 x).1 (qr 4 3 x).2 := by
  have h11 : ¬ x 1 1 = 0 := by rw [h 1 1 (by omega)]; decide +kernel
  refine ⟨?_, ?_, fun i j hij => upper i j hij⟩
  · intro i j hi hj
    rw [h i j hi]
    simp only [qr, h11, if_false]
    clear h11 h x
    interval_cases i <;> interval_cases j <;> decide +kernel
  · intro i j hi hj
    simp only [qr, h11, if_false]
    clear h11 h x
    interval_cases i <;> interval_cases j <;> decide +kernel

theorem perm2 {fs : List Attr} (h : fs.Perm [aX, aZ]) : fs = [aX, aZ] ∨ fs = [aZ, aX] := by
  match fs, h.length_eq with
  | [a, b], _ =>
    have ha : a ∈ [aX, aZ] := h.subset List.mem_cons_self
    have hb : b ∈ [aX, aZ] := h.subset (List.mem_cons_of_mem _ List.mem_cons_self)
    have hx : aX ∈ [a, b] := h.symm.subset List.mem_cons_self
    have hz : aZ ∈ [a, b] := h.symm.subset (List.mem_cons_of_mem _ List.mem_cons_self)
    have hne : aX ≠ aZ := by decide
    simp only [List.mem_cons, List.not_mem_nil, or_false] at ha hb hx hz
    rcases ha with rfl | rfl <;> rcases hb with rfl | rfl <;> simp_all

end C163

open C163 in
/-- The hypotheses hold for a table with the columns x, z, y and one with z, a column of texts, y and x. On both tables the function
2 + x + 2z is found. -/
theorem C163_witness : ∃ tr tr', run 4096 ops = Res.ok tr ∧ run 4096 ops' = Res.ok tr' ∧
    (Grid.dense tr.d).Presents 4 ∧ (Grid.dense tr.d).typed 4 ∧ (Grid.dense tr'.d).Presents 4 ∧ (Grid.dense tr'.d).typed 4 ∧
    tr.d.allClassAttributes = [aY] ∧ aY ∈ tr.d.allAttributes ∧ tr'.d.allClassAttributes = [aY] ∧ aY ∈ tr'.d.allAttributes ∧
    (Grid.dense tr.d).normalAttrs = [aX, aZ] ∧ (Grid.dense tr'.d).normalAttrs = [aZ, aX, aS] ∧
    SameNumbers val (.dense tr.d) (.dense tr'.d) 4 [aY, aX, aZ] ∧
    (∀ fs, fs.Perm [aX, aZ] → ∀ x, (∀ i j, i < 4 → x i j = design ((Grid.dense tr.d).point val fs) i j) →
      IsQR 4 (fs.length + 1) x (qr 4 (fs.length + 1) x).1 (qr 4 (fs.length + 1) x).2) ∧
    (∀ fs, fs.Perm [aX, aZ] → ∀ x, (∀ i j, i < 4 → x i j = design ((Grid.dense tr'.d).point val fs) i j) →
      IsQR 4 (fs.length + 1) x (qr 4 (fs.length + 1) x).1 (qr 4 (fs.length + 1) x).2) ∧
    Independent 4 2 ((Grid.dense tr.d).point val [aX, aZ]) ∧
    ((linRegFit val id qr (List.range 4) (List.range 4) (.dense tr.d) [aX, aZ]).map fun lr => (lr.disturbance, lr.coefficients)) =
      Res.ok (2, [1, 2]) ∧
    ((linRegFit val id qr (List.range 4) (List.range 4) (.dense tr'.d) [aZ, aS, aX]).map fun lr =>
      (lr.disturbance, lr.coefficients)) = Res.ok (2, [2, 1]) := by
  have h : ((run 4096 ops).bind fun tr => (run 4096 ops').map fun tr' =>
      [decide (tr.d.allClassAttributes = [aY]), decide (aY ∈ tr.d.allAttributes),
        decide (tr'.d.allClassAttributes = [aY]), decide (aY ∈ tr'.d.allAttributes),
        decide ((Grid.dense tr.d).normalAttrs = [aX, aZ]), decide ((Grid.dense tr'.d).normalAttrs = [aZ, aX, aS]),
        (List.range 4).all fun r => decide ((Grid.dense tr.d).number val aX r = rowX r ∧ (Grid.dense tr.d).number val aZ r = rowZ r),
        [aY, aX, aZ].all fun a => (List.range 4).all fun r =>
          decide ((Grid.dense tr'.d).number val a r = (Grid.dense tr.d).number val a r),
        decide (((linRegFit val id qr (List.range 4) (List.range 4) (.dense tr.d) [aX, aZ]).map fun lr =>
          (lr.disturbance, lr.coefficients)) = Res.ok (2, [1, 2])),
        decide (((linRegFit val id qr (List.range 4) (List.range 4) (.dense tr'.d) [aZ, aS, aX]).map fun lr =>
          (lr.disturbance, lr.coefficients)) = Res.ok (2, [2, 1]))]) =
      Res.ok [true, true, true, true, true, true, true, true, true, true] := by decide +kernel
  obtain ⟨tr, htr, h⟩ := Res.bind_eq_ok.1 h
  obtain ⟨tr', htr', h⟩ := Res.map_eq_ok.1 h
  simp only [List.cons.injEq, decide_eq_true_eq, and_true] at h
  obtain ⟨c1, c2, c3, c4, c5, c6, c7, c8, c9, c10⟩ := h
  have D : DenseOK 4 tr.d := denseOK_run (ops := ops) (by decide) htr (by decide)
  have D' : DenseOK 4 tr'.d := denseOK_run (ops := ops') (by decide) htr' (by decide)
  have hnum : ∀ r, r < 4 → (Grid.dense tr.d).number val aX r = rowX r ∧ (Grid.dense tr.d).number val aZ r = rowZ r := fun r hr =>
    of_decide_eq_true (List.all_eq_true.1 c7 r (List.mem_range.2 hr))
  have hs : SameNumbers val (.dense tr.d) (.dense tr'.d) 4 [aY, aX, aZ] := fun a ha _ r hr =>
    of_decide_eq_true (List.all_eq_true.1 (List.all_eq_true.1 c8 a ha) r (List.mem_range.2 hr))
  have hnum' : ∀ r, r < 4 → (Grid.dense tr'.d).number val aX r = rowX r ∧ (Grid.dense tr'.d).number val aZ r = rowZ r := fun r hr =>
    ⟨(hs aX (by decide) rfl r hr).trans (hnum r hr).1, (hs aZ (by decide) rfl r hr).trans (hnum r hr).2⟩
  refine ⟨tr, tr', htr, htr', D.presents, D.typed, D'.presents, D'.typed, c1, c2, c3, c4, c5, c6, hs, ?_, ?_, ?_, c9, c10⟩
  · intro fs hfs x hx
    rcases perm2 hfs with rfl | rfl
    · exact isQR fun i j hi => by rw [hx i j hi]; simp [design, Grid.point, hnum i hi]
    · exact isQR' fun i j hi => by rw [hx i j hi]; simp [design, Grid.point, hnum i hi]
  · intro fs hfs x hx
    rcases perm2 hfs with rfl | rfl
    · exact isQR fun i j hi => by rw [hx i j hi]; simp [design, Grid.point, hnum' i hi]
    · exact isQR' fun i j hi => by rw [hx i j hi]; simp [design, Grid.point, hnum' i hi]
  · intro b0 b hb hz
    match b, hb with
    | [p, q], _ =>
      have z0 := hz 0 (by omega)
      have z1 := hz 1 (by omega)
      have z2 := hz 2 (by omega)
      simp only [Grid.point, List.map_cons, List.map_nil, hnum 0 (by omega), hnum 1 (by omega), hnum 2 (by omega)] at z0 z1 z2
      simp [linear, rowX, rowZ] at z0 z1 z2
      subst z0
      simp at z1 z2
      simp [z1, z2]

open C163 in
/-- And both models predict the same for the rows of both tables. -/
example : ((run 4096 ops).bind fun st => (run 4096 ops').bind fun st' =>
    (linRegFit val id qr (List.range 4) (List.range 4) (.dense st.d) [aX, aZ]).bind fun lr =>
    (linRegFit val id qr (List.range 4) (List.range 4) (.dense st'.d) [aZ, aS, aX]).bind fun lr' =>
      (linRegPredict val enc id 4096 (List.range 4) lr (.dense st.d)).bind fun d =>
      (linRegPredict val enc id 4096 (List.range 4) lr' (.dense st'.d)).map fun d' =>
        [(Grid.dense d).cell aY 1, (Grid.dense d).cell aY 2, (Grid.dense d').cell aY 1, (Grid.dense d').cell aY 2]) =
    Res.ok [packU64 6, packU64 4, packU64 6, packU64 4] := by decide +kernel

end Golearn
