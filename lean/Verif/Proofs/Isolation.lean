import Verif.Spec.Isolation
import Verif.Proofs.CartGrid

/-! # Lemmas about isolation forests -/

namespace Golearn

section
variable {K : Type} [Field K] [LinearOrder K]

theorem splitData_spec (v : K) (f : Nat) (data : List (List K)) :
    splitData v f data = (data.filter fun x => decide (x.getD f 0 ≤ v), data.filter fun x => decide (v < x.getD f 0)) := by
  have key : ∀ (a b : List (List K)), data.foldl (fun acc x => if x.getD f 0 ≤ v then (acc.1 ++ [x], acc.2)
      else (acc.1, acc.2 ++ [x])) (a, b) = (a ++ data.filter fun x => decide (x.getD f 0 ≤ v),
        b ++ data.filter fun x => decide (v < x.getD f 0)) := by
    induction data with
    | nil => intro a b; simp
    | cons x xs ih =>
      intro a b
      rw [List.foldl_cons]
      by_cases h : x.getD f 0 ≤ v
      · rw [if_pos h, ih]
        simp only [List.filter_cons, h, decide_true, if_true, not_lt.2 h, decide_false, if_false, List.append_assoc,
          List.singleton_append, Bool.false_eq_true]
      · rw [if_neg h, ih]
        simp only [List.filter_cons, h, decide_false, if_false, not_le.1 h, decide_true, if_true, List.append_assoc,
          List.singleton_append, Bool.false_eq_true]
  rw [splitData, key]
  simp

theorem minMax_spec (f : Nat) (data : List (List K)) (hne : data ≠ []) :
    (∃ x ∈ data, x.getD f 0 = (minMax f data).1) ∧ (∃ x ∈ data, x.getD f 0 = (minMax f data).2) ∧
    ∀ x ∈ data, (minMax f data).1 ≤ x.getD f 0 ∧ x.getD f 0 ≤ (minMax f data).2 := by
  cases data with
  | nil => exact absurd rfl hne
  | cons x xs =>
    have key : ∀ (ys seen : List (List K)) (m : K × K), (∃ x ∈ seen, x.getD f 0 = m.1) → (∃ x ∈ seen, x.getD f 0 = m.2) →
        (∀ x ∈ seen, m.1 ≤ x.getD f 0 ∧ x.getD f 0 ≤ m.2) →
        let r := ys.foldl (fun m y => (if y.getD f 0 < m.1 then y.getD f 0 else m.1,
          if m.2 < y.getD f 0 then y.getD f 0 else m.2)) m
        (∃ x ∈ seen ++ ys, x.getD f 0 = r.1) ∧ (∃ x ∈ seen ++ ys, x.getD f 0 = r.2) ∧
        ∀ x ∈ seen ++ ys, r.1 ≤ x.getD f 0 ∧ x.getD f 0 ≤ r.2 := by
      intro ys
      induction ys with
      | nil => intro seen m h1 h2 h3; simpa using ⟨h1, h2, h3⟩
      | cons y ys ih =>
        intro seen m h1 h2 h3
        have := ih (seen ++ [y]) (if y.getD f 0 < m.1 then y.getD f 0 else m.1, if m.2 < y.getD f 0 then y.getD f 0 else m.2)
          (by
            simp only
            split
            · exact ⟨y, by simp, rfl⟩
            · obtain ⟨x, hx, e⟩ := h1; exact ⟨x, by simp [hx], e⟩)
          (by
            simp only
            split
            · exact ⟨y, by simp, rfl⟩
            · obtain ⟨x, hx, e⟩ := h2; exact ⟨x, by simp [hx], e⟩)
          (by
            intro x hx
            rcases List.mem_append.1 hx with hx | hx
            · obtain ⟨a, b⟩ := h3 x hx
              constructor
              · simp only
                split
                · rename_i h; exact h.le.trans a
                · exact a
              · simp only
                split
                · rename_i h; exact b.trans h.le
                · exact b
            · rw [List.mem_singleton] at hx
              subst hx
              constructor
              · simp only
                split
                · exact le_rfl
                · rename_i h; exact not_lt.1 h
              · simp only
                split
                · exact le_rfl
                · rename_i h; exact not_lt.1 h)
        simpa using this
    have := key xs [x] (x.getD f 0, x.getD f 0) ⟨x, by simp, rfl⟩ ⟨x, by simp, rfl⟩ (by simp)
    exact this

/-- The least and the greatest value differ when two values do. -/
theorem minMax_ne (f : Nat) (data : List (List K)) (hne : data ≠ []) :
    (minMax f data).1 ≠ (minMax f data).2 ↔ ∃ x ∈ data, ∃ y ∈ data, x.getD f 0 ≠ y.getD f 0 := by
  obtain ⟨⟨x, hx, ex⟩, ⟨y, hy, ey⟩, h⟩ := minMax_spec f data hne
  constructor
  · intro hn
    exact ⟨x, hx, y, hy, by rw [ex, ey]; exact hn⟩
  · rintro ⟨a, ha, b, hb, hab⟩ e
    apply hab
    have h1 := h a ha
    have h2 := h b hb
    rw [e] at h1 h2
    rw [le_antisymm h1.2 h1.1, le_antisymm h2.2 h2.1]

theorem checkData_spec {w : Nat} (data : List (List K)) (hw : ∀ x ∈ data, x.length = w) :
    checkData data = true ↔ SomeDiffer data := by
  unfold SomeDiffer
  cases data with
  | nil => simp [checkData]
  | cons x xs =>
    have hdiff : ∀ y ∈ x :: xs, ((List.zipWith (fun a b => decide (a ≠ b)) y x).any id = true ↔ y ≠ x) := by
      intro y hy
      have e : y.length = x.length := by rw [hw y hy, hw x (by simp)]
      clear hw hy
      induction y generalizing x with
      | nil =>
        cases x with
        | nil => simp
        | cons a as => simp at e
      | cons b bs ih =>
        cases x with
        | nil => simp at e
        | cons a as =>
          have := ih as (by simpa using e)
          rw [List.zipWith_cons_cons, List.any_cons, Bool.or_eq_true, or_congr_right this]
          simp only [id_eq, decide_eq_true_eq, ne_eq, List.cons.injEq, not_and_or]
    unfold checkData
    rw [List.any_eq_true]
    constructor
    · rintro ⟨y, hy, h⟩
      exact ⟨y, hy, x, by simp, (hdiff y hy).1 h⟩
    · rintro ⟨y, hy, z, hz, hyz⟩
      by_cases h : y = x
      · subst h
        exact ⟨z, hz, (hdiff z hz).2 (Ne.symm hyz)⟩
      · exact ⟨y, hy, (hdiff y hy).2 h⟩

/-- What the loop draws. -/
theorem drawSplit_spec {eps : K} {draws : Draws K} {data : List (List K)} (tries k : Nat) {f : Nat} {t : K}
    (h : drawSplit eps draws data tries k = some (f, t)) :
    ∃ j, k ≤ j ∧ f = (draws j).1 ∧ (minMax f data).1 ≠ (minMax f data).2 ∧
      t = selectValue eps (draws j).2 (minMax f data).1 (minMax f data).2 := by
  induction tries generalizing k with
  | zero => cases h
  | succ n ih =>
    rw [drawSplit] at h
    by_cases he : (minMax (draws k).1 data).1 = (minMax (draws k).1 data).2
    · simp only [he, if_true] at h
      obtain ⟨j, hj, h'⟩ := ih (k + 1) h
      exact ⟨j, by omega, h'⟩
    · simp only [he, if_false, Option.some.injEq, Prod.mk.injEq] at h
      obtain ⟨rfl, rfl⟩ := h
      exact ⟨k, le_rfl, rfl, he, rfl⟩

/-- It ends if a column in which the rows differ is drawn in time. -/
theorem drawSplit_ends {eps : K} {draws : Draws K} {data : List (List K)} (tries k j : Nat) (hk : k ≤ j) (hj : j < k + tries)
    (hd : (minMax (draws j).1 data).1 ≠ (minMax (draws j).1 data).2) :
    ∃ s, drawSplit eps draws data tries k = some s := by
  induction tries generalizing k with
  | zero => omega
  | succ n ih =>
    rw [drawSplit]
    by_cases he : (minMax (draws k).1 data).1 = (minMax (draws k).1 data).2
    · simp only [he, if_true]
      have : k ≠ j := by
        rintro rfl
        exact hd he
      exact ih (k + 1) (by omega) (by omega)
    · simp only [he, if_false]
      exact ⟨_, rfl⟩

/-- It does not end if none is. -/
theorem drawSplit_never {eps : K} {draws : Draws K} {data : List (List K)}
    (hd : ∀ j, (minMax (draws j).1 data).1 = (minMax (draws j).1 data).2) (tries k : Nat) :
    drawSplit eps draws data tries k = none := by
  induction tries generalizing k with
  | zero => rfl
  | succ n ih =>
    rw [drawSplit]
    simp only [hd k, if_true]
    exact ih (k + 1)

theorem someDiffer_col {w : Nat} {data : List (List K)} (hw : ∀ x ∈ data, x.length = w) (h : SomeDiffer data) :
    ∃ f, f < w ∧ ∃ x ∈ data, ∃ y ∈ data, x.getD f 0 ≠ y.getD f 0 := by
  obtain ⟨x, hx, y, hy, hxy⟩ := h
  by_contra hc
  push Not at hc
  apply hxy
  apply List.ext_getElem
  · rw [hw x hx, hw y hy]
  · intro i h1 h2
    have := hc i (by rw [← hw x hx]; exact h1) x hx y hy
    simpa [List.getD, h1, h2] using this

theorem buildTree_spec {eps : K} {draws : List Bool → Draws K} {tries w : Nat} (hdraw : ∀ p k, (draws p k).1 < w)
    (levels : Nat) (path : List Bool) (data : List (List K)) (hw : ∀ x ∈ data, x.length = w) (t : CNode K Nat)
    (h : buildTree eps draws tries levels path data = some t) :
    t ≠ .nil ∧ t.ifNeeded.Isolates w levels data ∧ (t.ifNeeded = .nil → t = CNode.empty) ∧
      (t.ifNeeded ≠ .nil → t.ifNeeded = t) := by
  induction levels generalizing path data t with
  | zero =>
    rw [buildTree] at h
    cases h
    exact ⟨by simp [CNode.empty], Or.inl rfl, fun _ => rfl, fun h => absurd rfl h⟩
  | succ levels ih =>
    rw [buildTree] at h
    by_cases hstop : data.length ≤ 1 ∨ checkData data = false
    · rw [if_pos hstop] at h
      cases h
      refine ⟨by simp [CNode.empty], Or.inr ?_, fun _ => rfl, fun h => absurd rfl h⟩
      rcases hstop with h | h
      · exact Or.inl h
      · right
        rw [← checkData_spec data hw, h]
        simp
    · rw [if_neg hstop] at h
      obtain ⟨s, hs, h⟩ := Option.bind_eq_some_iff.1 h
      simp only at h
      obtain ⟨l, hl, h⟩ := Option.bind_eq_some_iff.1 h
      obtain ⟨r, hr, h⟩ := Option.map_eq_some_iff.1 h
      subst h
      obtain ⟨f, v⟩ := s
      obtain ⟨j, _, hf, hne, _⟩ := drawSplit_spec tries 0 hs
      rw [splitData_spec] at hl hr ⊢
      simp only at hl hr ⊢
      have hdata : data ≠ [] := by
        rintro rfl
        exact hstop (Or.inl (by simp))
      obtain ⟨_, il, _⟩ := ih _ _ (fun x hx => hw x (List.mem_filter.1 hx).1) l hl
      obtain ⟨_, ir, _⟩ := ih _ _ (fun x hx => hw x (List.mem_filter.1 hx).1) r hr
      refine ⟨by simp, ⟨by rw [hf]; exact hdraw _ _, (minMax_ne f data hdata).1 hne, levels, rfl, rfl, rfl, il, ir⟩, ?_,
        fun _ => rfl⟩
      intro h
      cases h

theorem buildTree_ends {eps : K} {draws : List Bool → Draws K} {tries w : Nat}
    (hcover : ∀ p f, f < w → ∃ k, k < tries ∧ (draws p k).1 = f)
    (levels : Nat) (path : List Bool) (data : List (List K)) (hw : ∀ x ∈ data, x.length = w) :
    ∃ t, buildTree eps draws tries levels path data = some t := by
  induction levels generalizing path data with
  | zero => exact ⟨_, rfl⟩
  | succ levels ih =>
    rw [buildTree]
    by_cases hstop : data.length ≤ 1 ∨ checkData data = false
    · rw [if_pos hstop]
      exact ⟨_, rfl⟩
    · rw [if_neg hstop]
      push Not at hstop
      have hdata : data ≠ [] := by
        rintro rfl
        simp at hstop
      obtain ⟨f, hf, hfd⟩ := someDiffer_col hw ((checkData_spec data hw).1 (by simpa using hstop.2))
      obtain ⟨k, hk, hkf⟩ := hcover path f hf
      obtain ⟨s, hs⟩ := drawSplit_ends (eps := eps) (draws := draws path) (data := data) tries 0 k (by omega) (by omega)
        (by rw [hkf]; exact (minMax_ne f data hdata).2 hfd)
      rw [hs, Option.bind_some]
      simp only
      rw [splitData_spec]
      obtain ⟨l, hl⟩ := ih (path ++ [false]) _ (fun x hx => hw x (List.mem_filter.1 hx).1)
      obtain ⟨r, hr⟩ := ih (path ++ [true]) _ (fun x hx => hw x (List.mem_filter.1 hx).1)
      simp only at hl hr ⊢
      rw [hl, Option.bind_some, hr, Option.map_some]
      exact ⟨_, rfl⟩

theorem isolates_height {w : Nat} (t : CNode K Nat) (levels : Nat) (data : List (List K)) (h : t.Isolates w levels data) :
    t.height ≤ levels := by
  induction t generalizing levels data with
  | nil => exact Nat.zero_le _
  | node l r t f a b nd ihl ihr =>
    obtain ⟨_, _, k, rfl, _, _, h1, h2⟩ := h
    have := ihl _ _ h1
    have := ihr _ _ h2
    simp only [CNode.height]
    omega

theorem steps_le_height (t : CNode K Nat) (x : List K) : t.steps x ≤ t.height := by
  induction t with
  | nil => exact le_rfl
  | node l r t f a b nd ihl ihr =>
    simp only [CNode.steps, CNode.height]
    split <;> omega

/-- The path length is the number of tests, and a correction for the rows that were not isolated. -/
theorem pathLength_spec {w : Nat} (cf : Nat → K) (t : CNode K Nat) (hne : t ≠ .nil) (levels : Nat) (data : List (List K))
    (h : t.Isolates w levels data) (x : List K) (p : K) :
    pathLength cf t x p = p + (t.steps x : K) + (if t.company x data ≤ 1 then 0 else cf (t.company x data)) := by
  induction t generalizing levels data p with
  | nil => exact absurd rfl hne
  | node l r t f a b nd ihl ihr =>
    obtain ⟨_, _, k, _, ha, hb, h1, h2⟩ := h
    by_cases hx : x.getD f 0 ≤ t
    · cases l with
      | nil =>
        rw [pathLength.eq_def]
        simp only [hx, if_true, CNode.steps, CNode.company, ← ha]
        split <;> simp [add_assoc]
      | node l1 l2 t' f' a' b' nd' =>
        rw [pathLength.eq_def]
        simp only [hx, if_true]
        rw [ihl (by simp) _ _ h1]
        conv_rhs => rw [CNode.steps, CNode.company]
        simp only [hx, if_true]
        push_cast
        rw [add_assoc p 1]
    · cases r with
      | nil =>
        rw [pathLength.eq_def]
        simp only [hx, if_false, CNode.steps, CNode.company, ← hb]
        split <;> simp [add_assoc]
      | node l1 l2 t' f' a' b' nd' =>
        rw [pathLength.eq_def]
        simp only [hx, if_false]
        rw [ihr (by simp) _ _ h2]
        conv_rhs => rw [CNode.steps, CNode.company]
        simp only [hx, if_false]
        push_cast
        rw [add_assoc p 1]

theorem company_le (t : CNode K Nat) (x : List K) (data : List (List K)) : t.company x data ≤ data.length := by
  induction t generalizing data with
  | nil => exact le_rfl
  | node l r t f a b nd ihl ihr =>
    simp only [CNode.company]
    split
    · exact (ihl _).trans (List.length_filter_le _ _)
    · exact (ihr _).trans (List.length_filter_le _ _)

/-- A threshold strictly inside the values. -/
theorem selectValue_inside [IsStrictOrderedRing K] {eps u lo hi : K} (h0 : 0 ≤ u) (h1 : u < 1) (he : 0 < eps)
    (hgap : eps < hi - lo) : lo ≤ selectValue eps u lo hi ∧ selectValue eps u lo hi < hi := by
  have hpos : 0 < hi - lo := he.trans hgap
  have hlt : lo + u * (hi - lo) < hi := by
    have : u * (hi - lo) < 1 * (hi - lo) := mul_lt_mul_of_pos_right h1 hpos
    linarith
  have hge : lo ≤ lo + u * (hi - lo) := by
    have := mul_nonneg h0 hpos.le
    linarith
  unfold selectValue
  simp only
  split
  · rename_i h
    rw [h]
    constructor <;> linarith
  · rw [if_neg hlt.ne]
    exact ⟨hge, hlt⟩
end

/-! ## Scores -/

theorem cFactor_two (n : Int) (hn : 2 ≤ n) : ∃ c, cFactor n = .num c ∧ 0 < c ∧
    c = 2 * (Real.log ((n : ℝ) - 1) + 0.5772156649) - 2 * ((n : ℝ) - 1) / n := by
  refine ⟨_, by unfold cFactor; rw [if_pos hn], ?_, by push_cast; ring⟩
  have hn' : (2 : ℝ) ≤ (n : ℝ) := by exact_mod_cast hn
  push_cast
  obtain ⟨m, hm⟩ : ∃ m : ℝ, m = (n : ℝ) - 1 := ⟨_, rfl⟩
  have hm1 : 1 ≤ m := by rw [hm]; linarith
  have en : (n : ℝ) = m + 1 := by rw [hm]; ring
  rw [← hm, en]
  -- ln m ≥ 1 - 1/m
  have hlog : 1 - 1 / m ≤ Real.log m := by
    have := Real.one_sub_inv_le_log_of_pos (show 0 < m by linarith)
    rwa [one_div]
  have e2 : 2 * m / (m + 1) = 2 - 2 / (m + 1) := by
    field_simp
    ring
  rw [e2]
  -- it is enough that 2/(m+1) - 2/m > -0.1544
  by_cases h2 : m ≤ 2
  · have hl0 : 0 ≤ Real.log m := Real.log_nonneg hm1
    have : 2 / (m + 1) ≥ 2 / 3 := by
      apply div_le_div_of_nonneg_left <;> linarith
    by_cases hm13 : m ≤ 11 / 10
    · have : 2 / (m + 1) ≥ 2 / (21 / 10) := by
        apply div_le_div_of_nonneg_left <;> linarith
      norm_num at this ⊢
      linarith
    · have : 1 / m ≤ 10 / 11 := by
        rw [div_le_div_iff₀ (by linarith) (by norm_num)]
        linarith
      have e3 : 2 / (m + 1) - 2 / m ≥ -(2 / (m * (m + 1))) := by
        have : 2 / (m + 1) - 2 / m = -(2 / (m * (m + 1))) := by
          field_simp
          ring
        rw [this]
      have e4 : 2 / (m * (m + 1)) ≤ 2 / (11 / 10 * (21 / 10)) := by
        apply div_le_div_of_nonneg_left
        · norm_num
        · norm_num
        · have : 11 / 10 ≤ m := by linarith
          nlinarith
      have e5 : 2 / m = 2 * (1 / m) := by ring
      norm_num at e4 ⊢
      nlinarith
  · have e3 : 2 / (m + 1) - 2 / m = -(2 / (m * (m + 1))) := by
      have : m ≠ 0 := by linarith
      have : m + 1 ≠ 0 := by linarith
      field_simp
      ring
    have e4 : 2 / (m * (m + 1)) ≤ 2 / (2 * 3) := by
      apply div_le_div_of_nonneg_left
      · norm_num
      · norm_num
      · nlinarith
    have e5 : 2 / m = 2 * (1 / m) := by ring
    norm_num at e4 ⊢
    linarith

theorem cFactorNat_eq (n : Nat) (hn : 2 ≤ n) : 0 < cFactorNat n ∧
    cFactorNat n = 2 * (Real.log ((n : ℝ) - 1) + 0.5772156649) - 2 * ((n : ℝ) - 1) / n := by
  obtain ⟨c, h1, h2, h3⟩ := cFactor_two (n : Int) (by exact_mod_cast hn)
  unfold cFactorNat
  rw [h1]
  simp only
  refine ⟨h2, ?_⟩
  rw [h3]
  push_cast
  rfl

/-- The correction grows with the number of rows. -/
theorem cFactorNat_mono {m n : Nat} (hm : 2 ≤ m) (hmn : m ≤ n) : cFactorNat m ≤ cFactorNat n := by
  induction n, hmn using Nat.le_induction with
  | base => exact le_rfl
  | succ n hn ih =>
    refine ih.trans ?_
    rw [(cFactorNat_eq n (by omega)).2, (cFactorNat_eq (n + 1) (by omega)).2]
    push_cast
    have hn2 : (2 : ℝ) ≤ n := by exact_mod_cast hm.trans hn
    have e : (n : ℝ) + 1 - 1 = n := by ring
    rw [e]
    have hlog : 1 / (n : ℝ) ≤ Real.log n - Real.log (n - 1) := by
      rw [← Real.log_div (by linarith) (by linarith)]
      have := Real.one_sub_inv_le_log_of_pos (show 0 < (n : ℝ) / (n - 1) by apply div_pos <;> linarith)
      rw [inv_div] at this
      have e2 : 1 - ((n : ℝ) - 1) / n = 1 / n := by
        have : (n : ℝ) ≠ 0 := by linarith
        field_simp
        ring
      rwa [e2] at this
    have e3 : 2 * (n : ℝ) / (n + 1) - 2 * (n - 1) / n = 2 * (1 / n) * (1 / (n + 1)) := by
      have : (n : ℝ) ≠ 0 := by linarith
      have : (n : ℝ) + 1 ≠ 0 := by linarith
      field_simp
      ring
    have h1 : 0 < 1 / (n : ℝ) := by apply div_pos <;> linarith
    have h2 : 1 / ((n : ℝ) + 1) ≤ 1 := by
      rw [div_le_one (by linarith)]
      linarith
    nlinarith

end Golearn
