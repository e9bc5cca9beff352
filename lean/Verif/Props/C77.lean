import Verif.Proofs.Regression
import Mathlib.Tactic.IntervalCases

/-! # C77: linear regression gives the least squares solution -/

namespace Golearn
open Finset

section
variable {R : Type} [Field R]

/-- The back substitution solves the triangular system exactly. -/
theorem C77_back_substitution (n : Nat) (r : Nat → Nat → R) (b c : Nat → R) (htri : ∀ i j, j < i → r i j = 0)
    (hdiag : ∀ i, i < n → r i i ≠ 0) :
    ∀ i, i < n → ∑ j ∈ range n, r i j * backSub n r b n c j = b i :=
  fun i hi => backSub_solves n r b c htri hdiag i hi

/-- From a QR factorisation of `x` the back substitution gives a solution of the normal equations: the residuals are
orthogonal to every column of `x`. -/
theorem C77_normal_equations (m n : Nat) (x q r : Nat → Nat → R) (h : IsQR m n x q r) (hdiag : ∀ i, i < n → r i i ≠ 0)
    (y c : Nat → R) (j : Nat) (hj : j < n) :
    ∑ i ∈ range m, x i j * (y i - ∑ l ∈ range n, x i l * backSub n r (qTimes m q y) n c l) = 0 :=
  normal_equations h y _ (fun i hi => by
    rw [backSub_solves n r (qTimes m q y) c h.triangular hdiag i hi, qTimes_eq]) j hj

/-- Training on data with one float class attribute, at least as many rows as columns and independent columns gives
the intercept and the coefficients with the smallest sum of squared errors, and predicting stores in every row
the value of that linear function, for data that has the attributes. The class attribute of the data to predict equals that of
the training data. -/
theorem C77_least_squares [LinearOrder R] [IsStrictOrderedRing R] (val : U64 → R) (enc : R → U64)
    (srt : List Spec → List Spec) (hsrt : PositionSort srt) (qr : QR R) (pg : Nat) (order order' : List Nat) (g : Grid) (n : Nat)
    (P : g.Presents n) (T : g.typed n) (ho : g.RowOrder order) (ho' : g.RowOrder order') (cls : Attr)
    (hc : g.allClassAttributes = [cls]) (hcin : cls ∈ g.allAttributes) (hcf : cls.isFloat = true) (normal : List Attr)
    (hn : normal.Perm g.normalAttrs) :
    ∃ fs : List Attr, fs.Perm (normal.filter Attr.isFloat) ∧
      (fs.length + 1 ≤ n →
        (∀ x, (∀ i j, i < n → x i j = design (g.point val fs) i j) →
          IsQR n (fs.length + 1) x (qr n (fs.length + 1) x).1 (qr n (fs.length + 1) x).2) →
        Independent n fs.length (g.point val fs) →
        ∃ lr, linRegFit val srt qr order order' g normal = Res.ok lr ∧ lr.coefficients.length = fs.length ∧
          (∀ b0 b, b.length = fs.length →
            squaredError n (g.point val fs) (g.number val cls) lr.disturbance lr.coefficients ≤
              squaredError n (g.point val fs) (g.number val cls) b0 b) ∧
          ∀ (what : Grid) (m : Nat) (cw : Attr) (orderW : List Nat), what.Presents m → what.typed m →
            what.RowOrder orderW → what.allClassAttributes = [cw] → cw.equals cls = true →
            what.Finds (normal.filter Attr.isFloat) →
            ∃ d, linRegPredict val enc srt pg orderW lr what = Res.ok d ∧ d.maxRow = m ∧ d.allClassAttributes = [cw] ∧
              ∀ r, r < m → (Grid.dense d).cell cw r =
                packU64 (enc (linear lr.disturbance lr.coefficients (what.point val fs r)))) := by
  obtain ⟨fs, hfs, hsp⟩ := positionSort_attrs hsrt (normal.filter Attr.isFloat)
  refine ⟨fs, hfs, fun hrows hqr hind => ?_⟩
  obtain ⟨lr, f1, f2, f3, f4, f5⟩ := linRegFit_spec P T ho ho' hc hcin hcf hn hfs hsp hsrt hrows hqr hind
  refine ⟨lr, f1, f4, f5, ?_⟩
  intro what m cw orderW Pw Tw how hcw heq hfind
  refine linRegPredict_spec (enc := enc) (pg := pg) (lr := lr) Pw Tw how hcw ?_ (by rw [f3]; exact heq)
    (by rw [f2]; exact hfs) (by rw [f2]; exact hsp) (by rw [f2]; exact hfind)
    (by intro a ha; rw [f2] at ha; exact (List.mem_filter.1 ha).2)
  have h1 : cw.isFloat = true := by rw [equals_isFloat heq]; exact hcf
  obtain ⟨p, b⟩ := cw
  cases b <;> first | rfl | cases h1

/-- Fewer rows than float attributes and the intercept need is an error. -/
theorem C77_not_enough_rows (val : U64 → R) (srt : List Spec → List Spec) (qr : QR R) (order order' : List Nat) (g : Grid)
    (n : Nat) (P : g.Presents n) (cls : Attr) (hc : g.allClassAttributes = [cls]) (hcin : cls ∈ g.allAttributes)
    (normal : List Attr) (hrows : n < (normal.filter Attr.isFloat).length + 1) :
    linRegFit val srt qr order order' g normal = Res.err := by
  obtain ⟨s, hs, _⟩ := P.read cls hcin
  unfold linRegFit
  rw [hc]
  simp only
  have : g.resolve srt [cls] = Res.ok (srt [s]) := by
    unfold Grid.resolve Grid.resolveUnsorted
    simp [mapRes, hs]
  rw [this, Res.bind_ok, P.rows, if_pos hrows]

/-- So is any number of class attributes other than one. -/
theorem C77_class_count (val : U64 → R) (srt : List Spec → List Spec) (qr : QR R) (order order' : List Nat) (g : Grid)
    (normal : List Attr) (hc : g.allClassAttributes.length ≠ 1) :
    linRegFit val srt qr order order' g normal = Res.err := by
  unfold linRegFit
  split
  · rename_i c h
    rw [h] at hc
    exact absurd rfl hc
  · rfl
end

section Examples
private def aX : Attr := ⟨0, .float "x" 2⟩
private def aY : Attr := ⟨1, .float "y" 2⟩
private def aX' : Attr := ⟨2, .float "x" 2⟩
private def aY' : Attr := ⟨3, .float "y" 2⟩
private def ops : List Op :=
  [.add aX, .add aY, .addClass aY, .extend 4, .set 0 2 (packU64 2), .set 0 3 (packU64 2),
   .set 1 0 (packU64 1), .set 1 1 (packU64 3), .set 1 2 (packU64 5), .set 1 3 (packU64 7)]
private def opsW : List Op := [.add aX', .add aY', .addClass aY', .extend 2, .set 0 0 (packU64 1), .set 0 1 (packU64 3)]
private def val (u : U64) : Rat := u.toNat
private def enc (x : Rat) : U64 := BitVec.ofNat 64 x.num.toNat
private def hadamard : List (List Rat) := [[1, 1, 1, 1], [1, 1, -1, -1], [1, -1, 1, -1], [1, -1, -1, 1]]
/-- The factors of the matrix with rows (1, 0), (1, 0), (1, 2) and (1, 2). -/
private def qr : QR Rat := fun _ _ _ =>
  (fun i k => ((hadamard.getD k []).getD i 0) / 2, fun k j => (([[2, 2], [0, -2]] : List (List Rat)).getD k []).getD j 0)

/-- Training on rows x = 0, 0, 2, 2 with y = 1, 3, 5, 7 gives y = 2 + 2x, and 4 and 8 are predicted for x = 1 and 3. -/
example : ((run 4096 ops).bind fun st => (run 4096 opsW).bind fun sw =>
    (linRegFit val id qr (List.range 4) (List.range 4) (.dense st.d) (Grid.dense st.d).normalAttrs).bind fun lr =>
      (linRegPredict val enc id 4096 (List.range 2) lr (.dense sw.d)).map fun d =>
        (lr.disturbance, lr.coefficients, (Grid.dense d).cell aY' 0, (Grid.dense d).cell aY' 1)) =
    Res.ok (2, [2], packU64 4, packU64 8) := by decide +kernel

/-- The factors meet the contract. -/
example : IsQR 4 2 (design fun i => [if i < 2 then (0 : Rat) else 2]) (qr 4 2 fun _ _ => 0).1 (qr 4 2 fun _ _ => 0).2 := by
  refine ⟨?_, ?_, ?_⟩
  · intro i j hi hj
    interval_cases i <;> interval_cases j <;> decide +kernel
  · intro i j hi hj
    interval_cases i <;> interval_cases j <;> decide +kernel
  · intro i j hij
    match i, j with
    | 0, j => omega
    | 1, 0 => decide +kernel
    | 1, j + 1 => omega
    | i + 2, j => simp [qr]

/-- The columns are independent. -/
example : Independent 4 1 (fun i => [if i < 2 then (0 : Rat) else 2]) := by
  intro b0 b hb h
  match b, hb with
  | [b1], _ =>
    have h0 := h 0 (by omega)
    have h2 := h 2 (by omega)
    simp [linear] at h0 h2
    subst h0
    simpa using h2
end Examples

end Golearn
