import Verif.Spec.Regression
import Verif.Proofs.KnnSearch
import Mathlib.LinearAlgebra.Matrix.Block
import Mathlib.LinearAlgebra.Matrix.ToLinearEquiv
import Mathlib.Tactic.Ring
import Mathlib.Tactic.Linarith

/-! # Lemmas about linear regression -/

namespace Golearn
open Finset

section
variable {R : Type} [Field R]

theorem backInner_spec (n i : Nat) (r : Nat → Nat → R) (c : Nat → R) (start : R) :
    backInner n i r c start = start - ∑ j ∈ Ico (i + 1) n, c j * r i j := by
  unfold backInner
  have key : ∀ (k s : Nat) (a : R), (List.range' s k).foldl (fun acc j => acc - c j * r i j) a =
      a - ∑ j ∈ Ico s (s + k), c j * r i j := by
    intro k
    induction k with
    | zero => intro s a; simp
    | succ k ih =>
      intro s a
      rw [List.range'_succ, List.foldl_cons, ih, ← Finset.sum_Ioo_add_eq_sum_Ico (a := s) (b := s + (k + 1)) (by omega)]
      have : Ioo s (s + (k + 1)) = Ico (s + 1) (s + 1 + k) := by
        ext x; simp; omega
      rw [this]
      ring
  rw [key]
  by_cases h : i + 1 ≤ n
  · rw [Nat.add_sub_cancel' h]
  · rw [Ico_eq_empty (by omega), Ico_eq_empty (by omega)]

theorem backSub_spec (n : Nat) (r : Nat → Nat → R) (b : Nat → R) (k : Nat) (c : Nat → R) :
    (∀ j, k ≤ j → backSub n r b k c j = c j) ∧
    ∀ i, i < k → backSub n r b k c i = (b i - ∑ j ∈ Ico (i + 1) n, backSub n r b k c j * r i j) / r i i := by
  induction k generalizing c with
  | zero => exact ⟨fun _ _ => rfl, fun i hi => absurd hi (Nat.not_lt_zero i)⟩
  | succ k ih =>
    unfold backSub
    obtain ⟨h1, h2⟩ := ih (setRow c k (backInner n k r c (b k) / r k k))
    refine ⟨?_, ?_⟩
    · intro j hj
      rw [h1 j (by omega)]
      unfold setRow
      rw [if_neg (by omega)]
    · intro i hi
      rcases Nat.lt_succ_iff_lt_or_eq.1 hi with h | rfl
      · exact h2 i h
      · rw [h1 i (le_refl i)]
        have hs : setRow c i (backInner n i r c (b i) / r i i) i = backInner n i r c (b i) / r i i := by
          unfold setRow
          rw [if_pos rfl]
        rw [hs]
        conv_lhs => rw [backInner_spec]
        congr 2
        apply sum_congr rfl
        intro j hj
        rw [mem_Ico] at hj
        rw [h1 j (by omega)]
        unfold setRow
        rw [if_neg (by omega)]

/-- The back substitution solves the triangular system. -/
theorem backSub_solves (n : Nat) (r : Nat → Nat → R) (b c : Nat → R) (htri : ∀ i j, j < i → r i j = 0)
    (hdiag : ∀ i, i < n → r i i ≠ 0) (i : Nat) (hi : i < n) :
    ∑ j ∈ range n, r i j * backSub n r b n c j = b i := by
  have h := (backSub_spec n r b n c).2 i hi
  set β := backSub n r b n c
  rw [eq_div_iff (hdiag i hi)] at h
  have h1 : ∑ j ∈ range n, r i j * β j = r i i * β i + ∑ j ∈ Ico (i + 1) n, r i j * β j := by
    rw [range_eq_Ico, ← sum_Ico_consecutive _ (Nat.zero_le i) (le_of_lt hi), sum_eq_sum_Ico_succ_bot hi]
    rw [sum_eq_zero (s := Ico 0 i) (fun j hj => by rw [htri i j (mem_Ico.1 hj).2, zero_mul]), zero_add]
  rw [h1, mul_comm (r i i), h]
  have : ∑ j ∈ Ico (i + 1) n, r i j * β j = ∑ j ∈ Ico (i + 1) n, β j * r i j :=
    sum_congr rfl fun j _ => mul_comm _ _
  rw [this]
  ring

theorem qTimes_eq (m : Nat) (q : Nat → Nat → R) (y : Nat → R) (i : Nat) :
    qTimes m q y i = ∑ k ∈ range m, q k i * y k := by
  unfold qTimes
  rw [sum_range, ← List.sum_ofFn, List.ofFn_eq_map]
  congr 1
  apply List.ext_getElem <;> simp

/-- The residual is orthogonal to every column. -/
theorem normal_equations {m n : Nat} {x q r : Nat → Nat → R} (h : IsQR m n x q r) (y β : Nat → R)
    (hsolve : ∀ i, i < n → ∑ j ∈ range n, r i j * β j = ∑ k ∈ range m, q k i * y k) (j : Nat) (hj : j < n) :
    ∑ i ∈ range m, x i j * (y i - ∑ l ∈ range n, x i l * β l) = 0 := by
  have hres : ∀ k, k < m → ∑ i ∈ range m, q i k * (y i - ∑ l ∈ range n, x i l * β l) =
      ∑ i ∈ range m, q i k * y i - ∑ l ∈ range n, r k l * β l := by
    intro k hk
    simp only [mul_sub, sum_sub_distrib]
    congr 1
    have e1 : ∀ i ∈ range m, q i k * ∑ l ∈ range n, x i l * β l =
        ∑ l ∈ range n, ∑ p ∈ range m, (q i k * q i p) * (r p l * β l) := by
      intro i hi
      rw [mul_sum]
      apply sum_congr rfl
      intro l hl
      rw [h.product i l (mem_range.1 hi) (mem_range.1 hl), sum_mul, mul_sum]
      apply sum_congr rfl
      intro p _
      ring
    rw [sum_congr rfl e1, sum_comm]
    apply sum_congr rfl
    intro l _
    rw [sum_comm]
    have e2 : ∀ p ∈ range m, ∑ i ∈ range m, (q i k * q i p) * (r p l * β l) =
        (if k = p then 1 else 0) * (r p l * β l) := by
      intro p hp
      rw [← sum_mul, h.orthonormal k p hk (mem_range.1 hp)]
    rw [sum_congr rfl e2]
    simp [hk]
  have e3 : ∀ i ∈ range m, x i j * (y i - ∑ l ∈ range n, x i l * β l) =
      ∑ k ∈ range m, r k j * (q i k * (y i - ∑ l ∈ range n, x i l * β l)) := by
    intro i hi
    rw [h.product i j (mem_range.1 hi) hj, sum_mul]
    apply sum_congr rfl
    intro k _
    ring
  rw [sum_congr rfl e3, sum_comm]
  apply sum_eq_zero
  intro k hk
  rw [← mul_sum, hres k (mem_range.1 hk)]
  by_cases hkn : k < n
  · rw [hsolve k hkn, sub_self, mul_zero]
  · rw [h.triangular k j (by omega), zero_mul]

/-- The residual being orthogonal to the columns, the squared error is smallest. -/
theorem least_squares [LinearOrder R] [IsStrictOrderedRing R] {m n : Nat} {x : Nat → Nat → R} (y β : Nat → R)
    (hn : ∀ j, j < n → ∑ i ∈ range m, x i j * (y i - ∑ l ∈ range n, x i l * β l) = 0) (β' : Nat → R) :
    ∑ i ∈ range m, (y i - ∑ l ∈ range n, x i l * β l) * (y i - ∑ l ∈ range n, x i l * β l) ≤
    ∑ i ∈ range m, (y i - ∑ l ∈ range n, x i l * β' l) * (y i - ∑ l ∈ range n, x i l * β' l) := by
  set e := fun i => y i - ∑ l ∈ range n, x i l * β l with he
  set d := fun i => ∑ l ∈ range n, x i l * (β l - β' l) with hd
  have h1 : ∀ i, y i - ∑ l ∈ range n, x i l * β' l = e i + d i := by
    intro i
    simp only [he, hd, mul_sub, sum_sub_distrib]
    ring
  have h2 : ∑ i ∈ range m, e i * d i = 0 := by
    simp only [hd, mul_sum]
    rw [sum_comm]
    apply sum_eq_zero
    intro l hl
    have := hn l (mem_range.1 hl)
    have e1 : ∑ i ∈ range m, e i * (x i l * (β l - β' l)) = (∑ i ∈ range m, x i l * e i) * (β l - β' l) := by
      rw [sum_mul]
      apply sum_congr rfl
      intro i _
      ring
    rw [e1, this, zero_mul]
  simp only [h1]
  have h3 : ∑ i ∈ range m, (e i + d i) * (e i + d i) =
      ∑ i ∈ range m, e i * e i + 2 * ∑ i ∈ range m, e i * d i + ∑ i ∈ range m, d i * d i := by
    rw [mul_sum, ← sum_add_distrib, ← sum_add_distrib]
    apply sum_congr rfl
    intro i _
    ring
  have h4 : 0 ≤ ∑ i ∈ range m, d i * d i := sum_nonneg fun i _ => mul_self_nonneg _
  rw [h3, h2]
  linarith

/-- Independent columns make the diagonal of the triangular factor non-zero. -/
theorem diag_ne_zero {m n : Nat} {x q r : Nat → Nat → R} (h : IsQR m n x q r)
    (hind : ∀ c : Nat → R, (∀ i, i < m → ∑ j ∈ range n, x i j * c j = 0) → ∀ j, j < n → c j = 0)
    (i : Nat) (hi : i < n) : r i i ≠ 0 := by
  intro hz
  let M : Matrix (Fin n) (Fin n) R := fun a b => r a b
  have hdet : M.det = 0 := by
    rw [Matrix.det_of_upperTriangular (M := M) (fun a b hab => h.triangular a b hab)]
    exact Finset.prod_eq_zero (Finset.mem_univ (⟨i, hi⟩ : Fin n)) hz
  obtain ⟨v, hv0, hv⟩ := Matrix.exists_mulVec_eq_zero_iff.2 hdet
  apply hv0
  let c : Nat → R := fun j => if hj : j < n then v ⟨j, hj⟩ else 0
  have hrc : ∀ k, ∑ j ∈ range n, r k j * c j = 0 := by
    intro k
    by_cases hk : k < n
    · have := congrFun hv ⟨k, hk⟩
      unfold Matrix.mulVec dotProduct at this
      rw [sum_range]
      simpa [c, M] using this
    · apply sum_eq_zero
      intro j hj
      rw [h.triangular k j (by have := mem_range.1 hj; omega), zero_mul]
  have hc := hind c (by
    intro a ha
    have e : ∀ j ∈ range n, x a j * c j = ∑ k ∈ range m, q a k * (r k j * c j) := by
      intro j hj
      rw [h.product a j ha (mem_range.1 hj), sum_mul]
      apply sum_congr rfl
      intro k _
      ring
    rw [sum_congr rfl e, sum_comm]
    apply sum_eq_zero
    intro k _
    rw [← mul_sum, hrc k, mul_zero])
  funext j
  have := hc j j.isLt
  simpa [c] using this

end

/-! ## Reading the data -/

theorem setRow_foldl {α : Type} (f : Nat → α) (order : List Nat) (m : Nat → α) (r : Nat) :
    order.foldl (fun m r => setRow m r (f r)) m r = if r ∈ order then f r else m r := by
  induction order generalizing m with
  | nil => simp
  | cons q qs ih =>
    rw [List.foldl_cons, ih]
    by_cases h : r ∈ qs
    · simp [h]
    · rw [if_neg h]
      unfold setRow
      by_cases hq : r = q
      · subst hq; simp
      · simp [h, hq]

theorem foldl_add_sum {R : Type} [AddCommMonoid R] (l : List R) (a : R) : l.foldl (· + ·) a = a + l.sum := by
  induction l generalizing a with
  | nil => simp
  | cons x xs ih => rw [List.foldl_cons, ih, List.sum_cons, add_assoc]

section
variable {R : Type} [Field R]

theorem design_linear (x : Nat → List R) (i k : Nat) (hk : (x i).length = k) (c : Nat → R) :
    ∑ j ∈ range (k + 1), design x i j * c j = linear (c 0) ((List.range k).map fun j => c (j + 1)) (x i) := by
  rw [sum_range_succ']
  unfold linear design
  rw [List.getD_cons_zero, one_mul, add_comm]
  congr 1
  simp only [List.getD_cons_succ]
  rw [sum_range, ← List.sum_ofFn]
  congr 1
  apply List.ext_getElem
  · simp [hk]
  · intro j h1 h2
    have hj : j < (x i).length := by rw [List.length_ofFn] at h1; omega
    simp [hj]

theorem design_solution (x : Nat → List R) (i k : Nat) (hk : (x i).length = k) (b0 : R) (b : List R) (hb : b.length = k) :
    ∑ j ∈ range (k + 1), design x i j * (b0 :: b).getD j 0 = linear b0 b (x i) := by
  rw [design_linear x i k hk]
  congr 1
  apply List.ext_getElem
  · simp [hb]
  · intro j h1 h2
    simp [h2]

/-- What the factorisation and the back substitution give. -/
theorem solve_spec [LinearOrder R] [IsStrictOrderedRing R] {n k : Nat} {x : Nat → List R} {y : Nat → R}
    (hlen : ∀ i, i < n → (x i).length = k) {q r : Nat → Nat → R} (hqr : IsQR n (k + 1) (design x) q r)
    (hind : ∀ b0 b, b.length = k → (∀ i, i < n → linear b0 b (x i) = 0) → b0 = 0 ∧ ∀ v ∈ b, v = 0) :
    let c := backSub (k + 1) r (qTimes n q y) (k + 1) fun _ => 0
    ∀ b0 b, b.length = k →
      squaredError n x y (c 0) ((List.range k).map fun j => c (j + 1)) ≤ squaredError n x y b0 b := by
  intro c b0 b hb
  have hdiag : ∀ i, i < k + 1 → r i i ≠ 0 := by
    apply diag_ne_zero hqr
    intro d hd
    have hz := hind (d 0) ((List.range k).map fun j => d (j + 1)) (by simp) (by
      intro i hi
      rw [← design_linear x i k (hlen i hi)]
      exact hd i hi)
    intro j hj
    cases j with
    | zero => exact hz.1
    | succ j => exact hz.2 _ (List.mem_map.2 ⟨j, List.mem_range.2 (by omega), rfl⟩)
  have hsol := normal_equations hqr y c (fun i hi => by
    rw [backSub_solves (k + 1) r (qTimes n q y) _ hqr.triangular hdiag i hi, qTimes_eq])
  have hls := least_squares y c hsol (fun j => (b0 :: b).getD j 0)
  have e1 : ∀ i ∈ range n, ∑ l ∈ range (k + 1), design x i l * c l =
      linear (c 0) ((List.range k).map fun j => c (j + 1)) (x i) :=
    fun i hi => design_linear x i k (hlen i (mem_range.1 hi)) c
  have e2 : ∀ i ∈ range n, ∑ l ∈ range (k + 1), design x i l * (b0 :: b).getD l 0 = linear b0 b (x i) :=
    fun i hi => design_solution x i k (hlen i (mem_range.1 hi)) b0 b hb
  have s1 : squaredError n x y (c 0) ((List.range k).map fun j => c (j + 1)) = ∑ i ∈ range n,
      (y i - ∑ l ∈ range (k + 1), design x i l * c l) * (y i - ∑ l ∈ range (k + 1), design x i l * c l) :=
    sum_congr rfl fun i hi => by rw [e1 i hi]
  have s2 : squaredError n x y b0 b = ∑ i ∈ range n, (y i - ∑ l ∈ range (k + 1), design x i l * (b0 :: b).getD l 0) *
      (y i - ∑ l ∈ range (k + 1), design x i l * (b0 :: b).getD l 0) :=
    sum_congr rfl fun i hi => by rw [e2 i hi]
  rw [s1, s2]
  exact hls

theorem linRegFit_spec [LinearOrder R] [IsStrictOrderedRing R] {val : U64 → R} {srt : List Spec → List Spec}
    {qr : QR R} {order order' : List Nat} {g : Grid} {n : Nat} (P : g.Presents n) (T : g.typed n)
    (ho : g.RowOrder order) (ho' : g.RowOrder order') {cls : Attr} (hc : g.allClassAttributes = [cls])
    (hcin : cls ∈ g.allAttributes) (hcf : cls.isFloat = true) {normal fs : List Attr}
    (hn : normal.Perm g.normalAttrs) (hfs : fs.Perm (normal.filter Attr.isFloat))
    (hsp : ∀ sp : Attr → Spec, srt ((normal.filter Attr.isFloat).map sp) = fs.map sp)
    (hsrt : PositionSort srt) (hrows : fs.length + 1 ≤ n)
    (hqr : ∀ x, (∀ i j, i < n → x i j = design (g.point val fs) i j) →
      IsQR n (fs.length + 1) x (qr n (fs.length + 1) x).1 (qr n (fs.length + 1) x).2)
    (hind : ∀ b0 b, b.length = fs.length → (∀ i, i < n → linear b0 b (g.point val fs i) = 0) → b0 = 0 ∧ ∀ v ∈ b, v = 0) :
    ∃ lr, linRegFit val srt qr order order' g normal = Res.ok lr ∧ lr.attrs = normal.filter Attr.isFloat ∧ lr.cls = cls ∧
      lr.coefficients.length = fs.length ∧
      ∀ b0 b, b.length = fs.length →
        squaredError n (g.point val fs) (g.number val cls) lr.disturbance lr.coefficients ≤
          squaredError n (g.point val fs) (g.number val cls) b0 b := by
  have hin : ∀ a ∈ normal.filter Attr.isFloat, a ∈ g.allAttributes ∧ a.isFloat = true := by
    intro a ha
    obtain ⟨h1, h2⟩ := List.mem_filter.1 ha
    exact ⟨(((C27_references _ _ _ _ (List.Perm.refl _) hn).2.2.2 a).1 h1).1, h2⟩
  obtain ⟨fc, hfc, hspc⟩ := positionSort_attrs hsrt [cls]
  have hfc' : fc = [cls] := List.perm_singleton.1 hfc
  subst hfc'
  obtain ⟨spc, c1, c2⟩ := features_spec P T (num := [cls])
    (by intro a ha; rw [List.mem_singleton.1 ha]; exact ⟨cls, hcin, C28_equals_refl _, rfl⟩)
    (by intro a ha; rw [List.mem_singleton.1 ha]; exact hcf)
  obtain ⟨c3, c4⟩ := c2 [cls] (fun a ha => ha)
  obtain ⟨spx, x1, x2⟩ := features_spec P T (num := normal.filter Attr.isFloat)
    (fun a ha => ⟨a, (hin a ha).1, C28_equals_refl a, rfl⟩) (fun a ha => (hin a ha).2)
  obtain ⟨x3, x4⟩ := x2 fs (fun a ha => hfs.subset ha)
  have o1 := P.order _ ho
  have o2 := P.order _ ho'
  have hm1 := mapOver_all (g.rowVals ([cls].map spc)) (fun r => [cls].map fun a => g.cell a r) (observedCallback val)
    (fun m _ r => setRow m r (g.number val cls r)) order (fun r hr => (c4 r (List.mem_range.1 (o1.subset hr))).1)
    (by
      intro m r hr
      have := (c4 r (List.mem_range.1 (o1.subset hr))).2 val
      unfold observedCallback
      simp only [List.map_cons, List.map_nil]
      have hread : readRow val ([g.cell cls r]) = Res.ok [g.number val cls r] := this
      obtain ⟨u, hu⟩ := unpack_typed T hcin hcf (List.mem_range.1 (o1.subset hr))
      rw [hu, Res.map_ok]
      unfold Grid.number
      rw [hu]) (fun _ => 0)
  have hm2 := mapOver_all (g.rowVals (fs.map spx)) (fun r => fs.map fun a => g.cell a r) (explCallback val)
    (fun m _ r => setRow m r (1 :: g.point val fs r)) order' (fun r hr => (x4 r (List.mem_range.1 (o2.subset hr))).1)
    (by
      intro m r hr
      unfold explCallback
      rw [(x4 r (List.mem_range.1 (o2.subset hr))).2 val, Res.map_ok]) (fun _ => [])
  set Y : Nat → R := order.foldl (fun m r => setRow m r (g.number val cls r)) fun _ => 0 with hY
  set X : Nat → List R := order'.foldl (fun m r => setRow m r (1 :: g.point val fs r)) fun _ => [] with hX
  have hYr : ∀ i, i < n → Y i = g.number val cls i := by
    intro i hi
    rw [hY, setRow_foldl, if_pos (o1.symm.subset (List.mem_range.2 hi))]
  have hXr : ∀ i, i < n → X i = 1 :: g.point val fs i := by
    intro i hi
    rw [hX, setRow_foldl (fun r => 1 :: g.point val fs r), if_pos (o2.symm.subset (List.mem_range.2 hi))]
  have hl : (normal.filter Attr.isFloat).length = fs.length := hfs.length_eq.symm
  set F := qr n (fs.length + 1) (fun i j => (X i).getD j 0) with hF
  have hQ : IsQR n (fs.length + 1) (design (g.point val fs)) F.1 F.2 := by
    have h := hqr (fun i j => (X i).getD j 0) (fun i j hi => by rw [hXr i hi]; rfl)
    refine ⟨fun i j hi hj => ?_, h.orthonormal, h.triangular⟩
    rw [← h.product i j hi hj, hXr i hi]
    rfl
  have hlen : ∀ i, i < n → (g.point val fs i).length = fs.length := by
    intro i _
    simp [Grid.point]
  have hsolve := solve_spec (y := Y) hlen hQ hind
  simp only at hsolve
  set c := backSub (fs.length + 1) F.2 (qTimes n F.1 Y) (fs.length + 1) fun _ => 0 with hcdef
  refine ⟨⟨c 0, (List.range fs.length).map fun j => c (j + 1), normal.filter Attr.isFloat, cls⟩, ?_, rfl, rfl, by simp, ?_⟩
  · unfold linRegFit
    rw [hc]
    simp only
    unfold Grid.resolve
    rw [c1, Res.map_ok, Res.bind_ok, hspc, P.rows, hl, if_neg (by omega), x1, Res.map_ok, Res.bind_ok, hsp]
    unfold Grid.mapOverRows
    rw [c3, x3, Res.bind_ok, Res.bind_ok, hm1, hm2]
    simp only [keepState, Res.bind_ok, Res.map_ok, Nat.add_sub_cancel]
    rfl
  · intro b0 b hb
    have hsame : ∀ b0 b, squaredError n (g.point val fs) (g.number val cls) b0 b = squaredError n (g.point val fs) Y b0 b :=
      fun b0 b => sum_congr rfl fun i hi => by rw [hYr i (mem_range.1 hi)]
    rw [hsame, hsame]
    exact hsolve b0 b hb

theorem linReg_loop {val : U64 → R} {enc : R → U64} {lr : LinReg R} {n : Nat} {a : Attr} {vals : Nat → Res (List Bytes)}
    {row : Nat → List Bytes} {pt : Nat → List R}
    (hv : ∀ r, r < n → vals r = Res.ok (row r) ∧ readRow val (row r) = Res.ok (pt r)) (order : List Nat)
    (hlt : ∀ r ∈ order, r < n) (d : Dense) (hd : PredVec d n a) :
    ∃ d', mapOver vals (linRegCallback val enc lr ⟨some 0, 0, a⟩) d order = Res.ok (d', false) ∧ PredVec d' n a ∧
      (∀ r ∈ order, d'.get ⟨some 0, 0, a⟩ r = Res.ok (packU64 (enc (linear lr.disturbance lr.coefficients (pt r))))) ∧
      ∀ r, r < n → r ∉ order → d'.get ⟨some 0, 0, a⟩ r = d.get ⟨some 0, 0, a⟩ r := by
  induction order generalizing d with
  | nil => exact ⟨d, rfl, hd, by simp, by simp⟩
  | cons q qs ih =>
    have hq := hlt q (by simp)
    obtain ⟨d1, w1, w2, w3, w4⟩ := hd.write hq
      (v := packU64 (enc (linear lr.disturbance lr.coefficients (pt q)))) (packU64_length _)
    obtain ⟨d', i1, i2, i3, i4⟩ := ih (fun r hr => hlt r (by simp [hr])) d1 w2
    refine ⟨d', ?_, i2, ?_, ?_⟩
    · unfold mapOver
      rw [(hv q hq).1, Res.bind_ok]
      unfold linRegCallback
      rw [(hv q hq).2, Res.bind_ok, foldl_add_sum]
      unfold linear at w1
      rw [w1, Res.map_ok, Res.bind_ok]
      exact i1
    · intro r hr
      by_cases hrq : r ∈ qs
      · exact i3 r hrq
      · rcases List.mem_cons.1 hr with rfl | h
        · rw [i4 r hq hrq, w3]
        · exact absurd h hrq
    · intro r hr hrq
      rw [List.mem_cons, not_or] at hrq
      rw [i4 r hr hrq.2, w4 r hr hrq.1]

theorem linRegPredict_spec {val : U64 → R} {enc : R → U64} {srt : List Spec → List Spec} {pg : Nat} {order : List Nat}
    {lr : LinReg R} {g : Grid} {n : Nat} (P : g.Presents n) (T : g.typed n) (ho : g.RowOrder order) {cls : Attr}
    (hc : g.allClassAttributes = [cls]) (hbin : cls.isBin = false) (heq : cls.equals lr.cls = true) {fs : List Attr} (hfs : fs.Perm lr.attrs)
    (hsp : ∀ sp : Attr → Spec, srt (lr.attrs.map sp) = fs.map sp) (hfind : g.Finds lr.attrs)
    (hfl : ∀ a ∈ lr.attrs, a.isFloat = true) :
    ∃ d, linRegPredict val enc srt pg order lr g = Res.ok d ∧ d.maxRow = n ∧ d.allClassAttributes = [cls] ∧
      ∀ r, r < n → (Grid.dense d).cell cls r = packU64 (enc (linear lr.disturbance lr.coefficients (g.point val fs r))) := by
  obtain ⟨ret, g1, g2, _⟩ := generate_any pg hbin P.rows hc
  obtain ⟨sp, x1, x2⟩ := features_spec P T hfind hfl
  obtain ⟨x3, x4⟩ := x2 fs (fun a ha => hfs.subset ha)
  have o1 := P.order _ ho
  obtain ⟨d, l1, l2, l3, _⟩ := linReg_loop (enc := enc) (lr := lr) (fun r hr => ⟨(x4 r hr).1, (x4 r hr).2 val⟩) order
    (fun r hr => List.mem_range.1 (o1.subset hr)) ret g2
  refine ⟨d, ?_, l2.rows, l2.classes, ?_⟩
  · unfold linRegPredict
    rw [g1, Res.bind_ok]
    unfold Grid.resolve
    rw [x1, Res.map_ok, Res.bind_ok, hsp, ← dense_getAttribute_equals ret heq, g2.lookup, Res.bind_ok]
    unfold Grid.mapOverRows
    rw [x3, Res.bind_ok, l1]
    rfl
  · intro r hr
    have := l3 r (o1.symm.subset (List.mem_range.2 hr))
    unfold Grid.cell Grid.getAttribute Grid.get
    rw [l2.lookup]
    simp only
    rw [this]

end

end Golearn
