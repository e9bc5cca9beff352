import Verif.Proofs.Regression
import Verif.Proofs.Reorder

/-! # The least squares solution is determined by the data -/

namespace Golearn
open Finset

theorem perm_lift {α β : Type} (f : α → β) {l : List α} {m : List β} (h : (l.map f).Perm m) :
    ∃ l' : List α, l'.Perm l ∧ l'.map f = m := by
  generalize hq : l.map f = q at h
  induction h generalizing l with
  | nil => exact ⟨l, List.Perm.refl _, hq⟩
  | cons x _ ih =>
    cases l with
    | nil => cases hq
    | cons a l =>
      obtain ⟨h1, h2⟩ := List.cons.inj hq
      obtain ⟨l', p, e⟩ := ih h2
      exact ⟨a :: l', p.cons a, by rw [List.map_cons, e, h1]⟩
  | swap x y t =>
    match l, hq with
    | a :: b :: l, hq =>
      simp only [List.map_cons, List.cons.injEq] at hq
      obtain ⟨h1, h2, h3⟩ := hq
      exact ⟨b :: a :: l, List.Perm.swap _ _ _, by simp [h1, h2, h3]⟩
  | trans _ _ ih1 ih2 =>
    obtain ⟨l1, p1, e1⟩ := ih1 hq
    obtain ⟨l2, p2, e2⟩ := ih2 e1
    exact ⟨l2, p2.trans p1, e2⟩

variable {R : Type} [Field R]

theorem linear_pairs (num : Attr → R) (b0 : R) (z : List (Attr × R)) :
    linear b0 (z.map Prod.snd) ((z.map Prod.fst).map num) = b0 + (z.map fun p => num p.1 * p.2).sum := by
  unfold linear
  congr 2
  induction z with
  | nil => rfl
  | cons p z ih => simp only [List.map_cons, List.zipWith_cons_cons, ih]

/-- Coefficients for the attributes in another order. -/
theorem linear_transport {fs fs' : List Attr} (h : fs'.Perm fs) (b' : List R) (hb : b'.length = fs'.length) :
    ∃ b : List R, b.length = fs.length ∧ b.Perm b' ∧
      ∀ (num : Attr → R) (b0 : R), linear b0 b (fs.map num) = linear b0 b' (fs'.map num) := by
  have e1 : (fs'.zip b').map Prod.fst = fs' := List.map_fst_zip hb.ge
  have e2 : (fs'.zip b').map Prod.snd = b' := List.map_snd_zip hb.le
  obtain ⟨z, p, e⟩ := perm_lift Prod.fst (l := fs'.zip b') (m := fs) (by rw [e1]; exact h)
  refine ⟨z.map Prod.snd, by rw [← e, List.length_map, List.length_map], by rw [← e2]; exact p.map _, fun num b0 => ?_⟩
  conv_lhs => rw [← e]
  conv_rhs => rw [← e1]
  conv_rhs => arg 2; rw [← e2]
  rw [linear_pairs, linear_pairs, (p.map _).sum_eq]

theorem zip_smul (a : R) (b t : List R) :
    (List.zipWith (fun x c => x * c) t (b.map fun v => a * v)).sum = a * (List.zipWith (fun x c => x * c) t b).sum := by
  induction t generalizing b with
  | nil => simp
  | cons x t ih =>
    cases b with
    | nil => simp
    | cons v b =>
      simp only [List.map_cons, List.zipWith_cons_cons, List.sum_cons, ih]
      ring

theorem zip_add (b c t : List R) (h : b.length = c.length) :
    (List.zipWith (fun x c => x * c) t (List.zipWith (· + ·) b c)).sum =
      (List.zipWith (fun x c => x * c) t b).sum + (List.zipWith (fun x c => x * c) t c).sum := by
  induction t generalizing b c with
  | nil => simp
  | cons x t ih =>
    match b, c, h with
    | [], [], _ => simp
    | v :: b, w :: c, h =>
      simp only [List.length_cons, Nat.add_right_cancel_iff] at h
      simp only [List.zipWith_cons_cons, List.sum_cons, ih b c h]
      ring

theorem linear_comb (a : R) (b0 c0 : R) (b c t : List R) (h : b.length = c.length) :
    linear (b0 + a * c0) (List.zipWith (· + ·) b (c.map fun v => a * v)) t = linear b0 b t + a * linear c0 c t := by
  unfold linear
  rw [zip_add _ _ _ (by rw [List.length_map]; exact h), zip_smul]
  ring

/-- Coefficients whose squared error is no greater than any other are the only ones, if the columns are independent. -/
theorem leastSquares_unique [LinearOrder R] [IsStrictOrderedRing R] {n k : Nat} {x : Nat → List R} {y : Nat → R}
    (hind : Independent n k x) {b0 c0 : R} {b c : List R} (hb : b.length = k) (hc : c.length = k)
    (hmin : ∀ d0 d, d.length = k → squaredError n x y b0 b ≤ squaredError n x y d0 d)
    (hle : squaredError n x y c0 c ≤ squaredError n x y b0 b) : c0 = b0 ∧ c = b := by
  have hlen : b.length = c.length := hb.trans hc.symm
  have hmid := hmin (b0 / 2 + 1 / 2 * c0) (List.zipWith (· + ·) (b.map fun v => 1 / 2 * v) (c.map fun v => 1 / 2 * v)) (by
    simp [hb, hc])
  have hlin : ∀ i, linear (b0 / 2 + 1 / 2 * c0) (List.zipWith (· + ·) (b.map fun v => 1 / 2 * v) (c.map fun v => 1 / 2 * v))
      (x i) = 1 / 2 * linear b0 b (x i) + 1 / 2 * linear c0 c (x i) := by
    intro i
    rw [linear_comb _ _ _ _ _ _ (by rw [List.length_map]; exact hlen)]
    unfold linear
    rw [zip_smul]
    ring
  have hid : squaredError n x y (b0 / 2 + 1 / 2 * c0)
      (List.zipWith (· + ·) (b.map fun v => 1 / 2 * v) (c.map fun v => 1 / 2 * v)) =
      1 / 2 * squaredError n x y b0 b + 1 / 2 * squaredError n x y c0 c -
        1 / 4 * ∑ i ∈ range n, (linear b0 b (x i) - linear c0 c (x i)) * (linear b0 b (x i) - linear c0 c (x i)) := by
    unfold squaredError
    rw [mul_sum, mul_sum, mul_sum, ← sum_add_distrib, ← sum_sub_distrib]
    apply sum_congr rfl
    intro i _
    rw [hlin]
    ring
  have hsum : ∑ i ∈ range n, (linear b0 b (x i) - linear c0 c (x i)) * (linear b0 b (x i) - linear c0 c (x i)) ≤ 0 := by
    rw [hid] at hmid
    linarith
  have hzero : ∀ i ∈ range n, (linear b0 b (x i) - linear c0 c (x i)) * (linear b0 b (x i) - linear c0 c (x i)) = 0 :=
    (sum_eq_zero_iff_of_nonneg fun i _ => mul_self_nonneg _).1 (le_antisymm hsum (sum_nonneg fun i _ => mul_self_nonneg _))
  obtain ⟨h0, h1⟩ := hind (c0 + -1 * b0) (List.zipWith (· + ·) c (b.map fun v => -1 * v)) (by simp [hb, hc]) (by
    intro i hi
    rw [linear_comb _ _ _ _ _ _ hlen.symm]
    have := mul_self_eq_zero.1 (hzero i (mem_range.2 hi))
    linear_combination -this)
  refine ⟨by linear_combination h0, ?_⟩
  apply List.ext_getElem hlen.symm
  intro i h2 h3
  have := h1 (c[i] + -1 * b[i]) (by
    rw [List.mem_iff_getElem]
    exact ⟨i, by simp [h2, h3], by simp⟩)
  linear_combination this

theorem sum_range_list (n : Nat) (f : Nat → R) : ∑ i ∈ range n, f i = ((List.range n).map f).sum := rfl

theorem Reordered.number {g g' : Grid} {n : Nat} {σ : Nat → Nat} (H : Reordered g g' n σ) (val : U64 → R) {a : Attr}
    (ha : a ∈ g.allAttributes) {r : Nat} (hr : r < n) : g'.number val a r = g.number val a (σ r) := by
  unfold Grid.number
  rw [H.cells a ha r hr]

theorem Reordered.numbers {g g' : Grid} {n : Nat} {σ : Nat → Nat} (H : Reordered g g' n σ) (val : U64 → R) {fs : List Attr}
    (hfs : ∀ a ∈ fs, a ∈ g.allAttributes) {r : Nat} (hr : r < n) : g'.point val fs r = g.point val fs (σ r) :=
  List.map_congr_left fun a ha => H.number val (hfs a ha) hr

theorem Reordered.squaredError {g g' : Grid} {n : Nat} {σ : Nat → Nat} (H : Reordered g g' n σ) (val : U64 → R)
    {fs : List Attr} (hfs : ∀ a ∈ fs, a ∈ g.allAttributes) {cls : Attr} (hcls : cls ∈ g.allAttributes) (b0 : R) (b : List R) :
    Golearn.squaredError n (g'.point val fs) (g'.number val cls) b0 b =
      Golearn.squaredError n (g.point val fs) (g.number val cls) b0 b := by
  unfold Golearn.squaredError
  have e := (H.rows.map fun i => (g.number val cls i - linear b0 b (g.point val fs i)) *
    (g.number val cls i - linear b0 b (g.point val fs i))).sum_eq
  rw [sum_range_list, sum_range_list, ← e, List.map_map]
  congr 1
  apply List.map_congr_left
  intro r hr
  simp only [Function.comp]
  rw [H.number val hcls (List.mem_range.1 hr), H.numbers val hfs (List.mem_range.1 hr)]

theorem Reordered.independent {g g' : Grid} {n : Nat} {σ : Nat → Nat} (H : Reordered g g' n σ) (val : U64 → R)
    {fs : List Attr} (hfs : ∀ a ∈ fs, a ∈ g.allAttributes) {k : Nat} (h : Independent n k (g.point val fs)) :
    Independent n k (g'.point val fs) := by
  intro b0 b hb hz
  refine h b0 b hb fun i hi => ?_
  obtain ⟨r, hr, rfl⟩ := H.onto hi
  rw [← H.numbers val hfs hr]
  exact hz r hr

theorem independent_perm {g : Grid} {n : Nat} (val : U64 → R) {fs fs' : List Attr} (h : fs'.Perm fs)
    (hi : Independent n fs.length (g.point val fs)) : Independent n fs'.length (g.point val fs') := by
  intro b0 b' hb hz
  obtain ⟨b, h1, h2, h3⟩ := linear_transport h b' hb
  obtain ⟨e0, e1⟩ := hi b0 b h1 (fun i hin => by
    have := h3 (fun a => g.number val a i) b0
    exact this.trans (hz i hin))
  exact ⟨e0, fun v hv => e1 v (h2.mem_iff.2 hv)⟩

end Golearn
