import Verif.Props.C76
import Verif.Props.C27
import Mathlib.Algebra.Order.Ring.Rat
import Mathlib.Algebra.Order.Field.Basic
import Mathlib.Data.Rat.Defs

/-! # C88: fitting by expectation maximisation -/

namespace Golearn

variable {K Cov : Type}

/-- The first means lie between the least and the greatest value of their columns, for all random numbers between zero and one. -/
theorem C88_first_means [Field K] [LinearOrder K] [IsStrictOrderedRing K] (draw : Nat → Nat → K) (X : List (List K)) (hX : X ≠ [])
    (comps feats : Nat) (hd : ∀ k j, 0 ≤ draw k j ∧ draw k j ≤ 1) (k : Nat) (hk : k < comps) :
    ∃ m, (initMeans draw X comps feats)[k]? = some m ∧ m.length = feats ∧
      ∀ j < feats, (∃ x ∈ X, x.getD j 0 ≤ m.getD j 0) ∧ ∃ x ∈ X, m.getD j 0 ≤ x.getD j 0 := by
  unfold initMeans
  refine ⟨_, by rw [List.getElem?_map, List.getElem?_range hk]; rfl, by simp, ?_⟩
  intro j hj
  have hv0 : (X.map fun x => x.getD j 0).getD 0 0 ∈ X.map fun x => x.getD j 0 := by
    match X, hX with
    | x :: X, _ => simp
  obtain ⟨a1, a2, a3⟩ := vectorMin_spec (X.map fun x => x.getD j 0) ((X.map fun x => x.getD j 0).getD 0 0)
  obtain ⟨b1, b2, b3⟩ := vectorMax_spec (X.map fun x => x.getD j 0) ((X.map fun x => x.getD j 0).getD 0 0)
  have ha : vectorMin (X.map fun x => x.getD j 0) ((X.map fun x => x.getD j 0).getD 0 0) ∈ X.map fun x => x.getD j 0 := by
    rcases a3 with h | h
    · rw [h]; exact hv0
    · exact h
  have hb : vectorMax (X.map fun x => x.getD j 0) ((X.map fun x => x.getD j 0).getD 0 0) ∈ X.map fun x => x.getD j 0 := by
    rcases b3 with h | h
    · rw [h]; exact hv0
    · exact h
  have hle := a1.trans b1
  have hgetD : ∀ (f : Nat → K), ((List.range feats).map f).getD j 0 = f j := by
    intro f
    rw [List.getD_eq_getElem?_getD, List.getElem?_map, List.getElem?_range hj]; rfl
  rw [hgetD]
  simp only
  obtain ⟨x, hx, ex⟩ := List.mem_map.mp ha
  obtain ⟨z, hz, ez⟩ := List.mem_map.mp hb
  set mn := vectorMin (X.map fun x => x.getD j 0) ((X.map fun x => x.getD j 0).getD 0 0)
  set mx := vectorMax (X.map fun x => x.getD j 0) ((X.map fun x => x.getD j 0).getD 0 0)
  obtain ⟨h0, h1⟩ := hd k j
  refine ⟨⟨x, hx, ?_⟩, ⟨z, hz, ?_⟩⟩
  · rw [ex]
    nlinarith [mul_nonneg h0 (sub_nonneg.mpr hle)]
  · rw [ez]
    nlinarith [mul_nonneg (sub_nonneg.mpr h1) (sub_nonneg.mpr hle)]

/-- One step succeeds exactly if every component is assigned a row. Then a component with two or more rows gets their average and their covariance
matrix, or their variances on the diagonal if there are fewer rows than attributes, and one with a single row stays as it is. -/
theorem C88_step [Field K] (lib : EmLib K Cov) (feats : Nat) (X : List (List K)) (y : List Nat) (p : EmParams K Cov) (comps : Nat)
    (hm : p.means.length = comps) (hc : p.covs.length = comps) :
    ((∃ k < comps, assigned X y k = []) → maximization lib feats X y p comps = Res.panic) ∧
    ((∀ k < comps, assigned X y k ≠ []) → ∃ q, maximization lib feats X y p comps = Res.ok q ∧ q.means.length = comps ∧
      q.covs.length = comps ∧ ∀ k < comps,
        (1 < (assigned X y k).length → q.means[k]? = some ((List.range feats).map (columnMean (assigned X y k))) ∧
          q.covs[k]? = some (if (assigned X y k).length < feats then columnVariances lib feats (assigned X y k)
            else lib.covariance (assigned X y k))) ∧
        ((assigned X y k).length = 1 → q.means[k]? = p.means[k]? ∧ q.covs[k]? = p.covs[k]?)) :=
  maximization_spec lib feats X y p comps hm hc

example : assigned [[(1 : ℚ)], [5], [3]] [0, 1, 0] 0 = [[1], [3]] ∧ assigned [[(1 : ℚ)], [5], [3]] [0, 1, 0] 1 = [[5]] ∧
    columnMean [[(1 : ℚ)], [3]] 0 = 2 := by decide +kernel

/-- When fitting ends with parameters, these come from a step that moved the means by less than eps: the rows were assigned to components by the
parameters before. -/
theorem C88_result [Field K] [LinearOrder K] (lib : EmLib K Cov) (eps : K) (feats comps : Nat) (X : List (List K)) (fuel : Nat) :
    ∀ (p q : EmParams K Cov), emLoop lib eps feats comps X fuel p = some (Res.ok q) →
      ∃ p' y, estimateLogProb lib X p' comps = Res.ok y ∧ maximization lib feats X y p' comps = Res.ok q ∧ emDistance lib p' q < eps := by
  induction fuel with
  | zero => intro p q h; simp [emLoop] at h
  | succ fuel ih =>
    intro p q h
    rw [emLoop] at h
    split at h
    · rename_i q' e
      obtain ⟨y, e1, e2⟩ := Res.bind_eq_ok.mp e
      split at h
      · rw [Option.some.injEq, Res.ok.injEq] at h
        subst h
        exact ⟨p, y, e1, e2, ‹_›⟩
      · exact ih _ _ h
    · simp at h
    · simp at h

/-- The property: fitting does not panic if there are at least as many rows as components, and the normal distributions exist. -/
def FitSucceeds (K Cov : Type) [Field K] [LinearOrder K] : Prop :=
  ∀ (lib : EmLib K Cov) (eps : K) (feats comps : Nat) (X : List (List K)) (draw : Nat → Nat → K) (fuel : Nat) (p : EmParams K Cov),
    (∀ m c, ∃ f, lib.normal m c = some f) → 0 < comps → comps ≤ X.length → 0 < feats → (∀ x ∈ X, x.length = feats) →
    p = ⟨initMeans draw X comps feats, List.replicate comps (lib.diagonal (List.replicate feats 1))⟩ →
    emLoop lib eps feats comps X fuel p ≠ some Res.panic

/-- If all rows are the same and there are two or more components, fitting panics, whatever the random numbers: the components start with the
same mean, all rows go to the first, and a matrix without rows is made for the second. -/
theorem C88_same_rows [Field K] [LinearOrder K] (lib : EmLib K Cov) (eps : K) (feats comps n : Nat) (x : List K) (draw : Nat → Nat → K)
    (fuel : Nat) (hx : x.length = feats) (hn : 0 < n) (hc : 2 ≤ comps)
    (f : List K → WithBot K) (hf : lib.normal x (lib.diagonal (List.replicate feats 1)) = some f) :
    emLoop lib eps feats comps (List.replicate n x) (fuel + 1)
      ⟨initMeans draw (List.replicate n x) comps feats, List.replicate comps (lib.diagonal (List.replicate feats 1))⟩ = some Res.panic := by
  have hmeans : initMeans draw (List.replicate n x) comps feats = List.replicate comps x := by
    unfold initMeans
    have : ∀ k ∈ List.range comps, ((List.range feats).map fun j =>
        let v := (List.replicate n x).map fun x => x.getD j 0
        let mn := vectorMin v (v.getD 0 0)
        let mx := vectorMax v (v.getD 0 0)
        mn + draw k j * (mx - mn)) = x := by
      intro k _
      apply List.ext_getElem
      · simp [hx]
      · intro j h1 h2
        simp only [List.getElem_map, List.getElem_range, List.map_replicate]
        have e0 : (List.replicate n (x.getD j 0)).getD 0 0 = x.getD j 0 := by
          match n, hn with
          | n + 1, _ => rfl
        rw [e0]
        have e1 : vectorMin (List.replicate n (x.getD j 0)) (x.getD j 0) = x.getD j 0 := by
          rcases (vectorMin_spec (List.replicate n (x.getD j 0)) (x.getD j 0)).2.2 with h | h
          · exact h
          · exact List.eq_of_mem_replicate h
        have e2 : vectorMax (List.replicate n (x.getD j 0)) (x.getD j 0) = x.getD j 0 := by
          rcases (vectorMax_spec (List.replicate n (x.getD j 0)) (x.getD j 0)).2.2 with h | h
          · exact h
          · exact List.eq_of_mem_replicate h
        rw [e1, e2, sub_self, mul_zero, add_zero, List.getD_eq_getElem _ _ h2]
    rw [List.map_congr_left this]
    simp
  have hn' : HasNormals lib ⟨List.replicate comps x, List.replicate comps (lib.diagonal (List.replicate feats 1))⟩ comps fun _ => f := by
    intro k hk
    exact ⟨x, _, by simp [hk], by simp [hk], hf⟩
  obtain ⟨y, hy, hlen, hb⟩ := estimate_ok hn' (by omega) (List.replicate n x)
  have hy0 : ∀ k, y.contains k = true → k = 0 := by
    intro k hk
    rw [List.contains_iff_mem] at hk
    obtain ⟨i, hi⟩ := List.getElem?_of_mem hk
    have hin : i < n := by
      rcases List.getElem?_eq_some_iff.mp hi with ⟨h, _⟩
      rw [List.length_replicate] at hlen
      omega
    obtain ⟨k', h1, h2⟩ := hb i x (by simp [hin])
    rw [hi, Option.some.injEq] at h1
    subst h1
    by_contra hne
    exact lt_irrefl _ (h2.2.2 0 (by omega))
  rw [emLoop, hmeans, hy, Res.bind_ok]
  have hstep := (C88_step lib feats (List.replicate n x) y ⟨List.replicate comps x, List.replicate comps (lib.diagonal (List.replicate feats 1))⟩ comps
    (by simp) (by simp)).1 ⟨1, by omega, by
      unfold assigned
      rw [List.map_eq_nil_iff, List.filter_eq_nil_iff]
      intro q hq h
      simp only [decide_eq_true_eq] at h
      have := hy0 q.2 (by rw [List.contains_iff_mem]; exact (List.of_mem_zip hq).2)
      omega⟩
  rw [hstep]

/-- So the property fails: two rows, two components. -/
theorem C88_refuted : ¬ FitSucceeds ℚ Unit := by
  intro h
  refine h ⟨fun _ _ => some fun _ => ((0 : ℚ) : WithBot ℚ), fun _ => (), fun _ => 0, fun _ => (), id⟩ 1 1 2 [[3], [3]] (fun _ _ => 0) 1 _
    (fun _ _ => ⟨_, rfl⟩) (by decide) (by decide) (by decide) (by decide) rfl ?_
  exact C88_same_rows _ 1 1 2 2 [3] (fun _ _ => 0) 0 rfl (by decide) (by decide) _ rfl

/-- `Fit` on a table, with the attributes that are not class attributes in any order, all of them numbers. Fewer rows than components is an error,
and there is no other error. Otherwise `Fit` starts with means between the least and the greatest value of each column, and takes turns while the means
move by eps or more. It returns a model exactly if some turn moves them by less; the model has the parameters after that turn. It panics exactly if
at some point there is no turn: a component has no normal distribution or no row. -/
theorem C88_fit [Field K] [LinearOrder K] (lib : EmLib K Cov) (eps : K) (val : U64 → K) (srt : List Spec → List Spec) (hsrt : PositionSort srt)
    (draw : Nat → Nat → K) (order : List Nat) (g : Grid) (n : Nat) (P : g.Presents n) (T : g.typed n) (ho : g.RowOrder order)
    (attrs : List Attr) (hattrs : attrs.Perm g.normalAttrs) (hfl : ∀ a ∈ attrs, a.isFloat = true) (hne : attrs ≠ []) (comps : Nat) (hc : 0 < comps) :
    (n < comps → ∀ fuel, emFit lib eps val srt draw order g attrs comps fuel = some Res.err) ∧
    (comps ≤ n → ∃ (fs : List Attr) (p : EmParams K Cov), fs.Perm attrs ∧
      EmStart lib draw attrs.length comps ((List.range n).map (g.point val fs)) p ∧
      (∀ fuel, emFit lib eps val srt draw order g attrs comps fuel ≠ some Res.err) ∧
      (∀ em, (∃ fuel, emFit lib eps val srt draw order g attrs comps fuel = some (Res.ok em)) ↔ em.attrs = attrs ∧
        ∃ q, EmReaches lib eps attrs.length comps ((List.range n).map (g.point val fs)) p q ∧
          EmTurn lib attrs.length comps ((List.range n).map (g.point val fs)) q em.params ∧
          emMoved lib attrs.length comps q em.params < eps) ∧
      ((∃ fuel, emFit lib eps val srt draw order g attrs comps fuel = some Res.panic) ↔
        ∃ q, EmReaches lib eps attrs.length comps ((List.range n).map (g.point val fs)) p q ∧
          ¬ ∃ r, EmTurn lib attrs.length comps ((List.range n).map (g.point val fs)) q r)) := by
  have hfinds : g.Finds attrs := by
    intro a ha
    obtain ⟨_, _, _, hmem⟩ := C27_references g.allAttributes g.allClassAttributes _ attrs (List.Perm.refl _) hattrs
    exact ⟨a, ((hmem a).1 ha).1, C28_equals_refl a, rfl⟩
  obtain ⟨fs, hfs, hsp⟩ := positionSort_attrs hsrt attrs
  obtain ⟨sp, x1, _⟩ := features_spec P T hfinds hfl
  have hres : g.resolve srt attrs = Res.ok (fs.map sp) := by
    unfold Grid.resolve
    rw [x1, Res.map_ok, hsp]
  constructor
  · intro hlt fuel
    unfold emFit
    rw [hres]
    simp only
    rw [P.rows, if_pos hlt]
  · intro hle
    obtain ⟨_, hX⟩ := emMatrix_ok P T hfinds hfl hne (by omega) hfs hsp ho val
    have hX' : (List.range n).map (g.point val fs) ≠ [] := by
      intro h
      have := congrArg List.length h
      simp at this
      omega
    obtain ⟨s1, s2⟩ := emStart_spec lib draw attrs.length comps _ hX'
    obtain ⟨l1, l2, l3⟩ := emLoop_spec lib eps attrs.length comps ((List.range n).map (g.point val fs)) hc _ s2
    have hfit : ∀ fuel, emFit lib eps val srt draw order g attrs comps fuel =
        (emLoop lib eps attrs.length comps ((List.range n).map (g.point val fs)) fuel
          ⟨initMeans draw ((List.range n).map (g.point val fs)) comps attrs.length,
            List.replicate comps (lib.diagonal (List.replicate attrs.length 1))⟩).map fun r => r.map fun p => ⟨attrs, p⟩ := by
      intro fuel
      unfold emFit
      rw [hres]
      simp only
      rw [P.rows, if_neg (by omega), hX]
    refine ⟨fs, _, hfs, s1, ?_, ?_, ?_⟩
    · intro fuel h
      rw [hfit, Option.map_eq_some_iff] at h
      obtain ⟨r, h1, h2⟩ := h
      cases r with
      | ok q => cases h2
      | err => exact l1 fuel h1
      | panic => cases h2
    · intro em
      rw [← l2]
      constructor
      · rintro ⟨fuel, h⟩
        rw [hfit, Option.map_eq_some_iff] at h
        obtain ⟨r, h1, h2⟩ := h
        obtain ⟨q, rfl, rfl⟩ := Res.map_eq_ok.mp h2
        exact ⟨rfl, fuel, h1⟩
      · rintro ⟨e, fuel, h⟩
        refine ⟨fuel, ?_⟩
        rw [hfit, h, Option.map_some, Res.map_ok, ← e]
    · rw [← l3]
      constructor
      · rintro ⟨fuel, h⟩
        rw [hfit, Option.map_eq_some_iff] at h
        obtain ⟨r, h1, h2⟩ := h
        cases r with
        | ok q => cases h2
        | err => cases h2
        | panic => exact ⟨fuel, h1⟩
      · rintro ⟨fuel, h⟩
        exact ⟨fuel, by rw [hfit, h]; rfl⟩

namespace Witness
/-- One attribute and three rows: 1, 9 and 2. -/
def fitOps : List Op := [.add eX, .extend 3, .set 0 0 (packU64 1), .set 0 1 (packU64 9), .set 0 2 (packU64 2)]
/-- A library whose log-probability is minus the distance. -/
def fitLib : EmLib ℚ Unit :=
  ⟨fun m _ => some fun x => ((-|x.headD 0 - m.headD 0| : ℚ) : WithBot ℚ), fun _ => (), fun _ => 0, fun _ => (), id⟩
end Witness

open Witness in
/-- Two components, drawn at a quarter and at three quarters: `Fit` ends after the third turn. Four components are an error. -/
example : ∃ st, run 4096 fitOps = Res.ok st ∧ DenseOK 3 st.d ∧ [eX].Perm (Grid.dense st.d).normalAttrs ∧
    (Grid.dense st.d).RowOrder [0, 1, 2] ∧
    ((emFit fitLib (1 / 1000) (fun u => (u.toNat : ℚ)) id (fun k _ => if k = 0 then 1 / 4 else 3 / 4) [0, 1, 2] (.dense st.d) [eX] 2 5).map fun r =>
      r.map fun m => (m.attrs, m.params.means)) = some (Res.ok ([eX], [[3 / 2], [7]])) ∧
    ((emFit fitLib (1 / 1000) (fun u => (u.toNat : ℚ)) id (fun _ _ => 0) [0, 1, 2] (.dense st.d) [eX] 4 5).map fun r =>
      r.map fun m => m.attrs) = some Res.err := by
  obtain ⟨st, h1, h2, h3, h4, h5⟩ : ∃ st, run 4096 fitOps = Res.ok st ∧ (Grid.dense st.d).normalAttrs = [eX] ∧ st.d.maxRow = 3 ∧
      ((emFit fitLib (1 / 1000) (fun u => (u.toNat : ℚ)) id (fun k _ => if k = 0 then 1 / 4 else 3 / 4) [0, 1, 2] (.dense st.d) [eX] 2 5).map fun r =>
        r.map fun m => (m.attrs, m.params.means)) = some (Res.ok ([eX], [[3 / 2], [7]])) ∧
      ((emFit fitLib (1 / 1000) (fun u => (u.toNat : ℚ)) id (fun _ _ => 0) [0, 1, 2] (.dense st.d) [eX] 4 5).map fun r =>
        r.map fun m => m.attrs) = some Res.err := by
    refine ⟨_, rfl, ?_, ?_, ?_, ?_⟩
    all_goals decide +kernel
  refine ⟨st, h1, ?_, ?_, ?_, h4, h5⟩
  · exact denseOK_run (pg := 4096) (ops := fitOps) (by decide) h1 (by decide)
  · rw [h2]
  · show [0, 1, 2] = List.range st.d.maxRow
    rw [h3]; rfl

/-- A fitted model can be useless. On rows that are all the same, with one component, `Fit` succeeds at once, and the model has the covariance matrix of
equal rows. If that matrix has no normal distribution, as it is zero, then `Predict` panics on any data. -/
theorem C88_equal_rows [Field K] [LinearOrder K] (lib : EmLib K Cov) (eps : K) (val : U64 → K) (srt : List Spec → List Spec) (hsrt : PositionSort srt)
    (draw : Nat → Nat → K) (order : List Nat) (g : Grid) (n : Nat) (P : g.Presents n) (T : g.typed n) (ho : g.RowOrder order)
    (attrs : List Attr) (hattrs : attrs.Perm g.normalAttrs) (hfl : ∀ a ∈ attrs, a.isFloat = true) (hne : attrs ≠ [])
    (hn : 2 ≤ n) (hn' : attrs.length ≤ n) (heq : ∀ a ∈ attrs, ∀ r < n, g.number val a r = g.number val a 0)
    (hchar : (n : K) ≠ 0) (hsqrt : lib.sqrt 0 < eps) (hunit : ∀ m, ∃ f, lib.normal m (lib.diagonal (List.replicate attrs.length 1)) = some f)
    (hzero : ∀ m x, lib.normal m (lib.covariance (List.replicate n x)) = none) :
    ∃ em, (∃ fuel, emFit lib eps val srt draw order g attrs 1 fuel = some (Res.ok em)) ∧
      ∀ (order' : List Nat) (g' : Grid) (cs : GoMap Nat (List Nat)), emPredict lib val srt order' (some em) 1 g' ≠ Res.ok cs := by
  obtain ⟨fs, p, hfs, hst, _, hiff, _⟩ := (C88_fit lib eps val srt hsrt draw order g n P T ho attrs hattrs hfl hne 1 (by decide)).2 (by omega)
  obtain ⟨x, hx⟩ : ∃ x, x = g.point val fs 0 := ⟨_, rfl⟩
  have hX : (List.range n).map (g.point val fs) = List.replicate n x := by
    rw [List.eq_replicate_iff]
    refine ⟨by simp, ?_⟩
    intro b hb
    obtain ⟨r, hr, rfl⟩ := List.mem_map.mp hb
    rw [hx]
    unfold Grid.point
    apply List.map_congr_left
    intro a ha
    exact heq a (hfs.subset ha) r (List.mem_range.mp hr)
  rw [hX] at hst hiff
  have hxl : x.length = attrs.length := by
    rw [hx]; unfold Grid.point; rw [List.length_map, hfs.length_eq]
  obtain ⟨c1, c2, c3⟩ := hst
  obtain ⟨m, m1, m2, m3⟩ := c3 0 (by decide)
  have hmx : m = x := by
    apply List.ext_getElem (by rw [m2, hxl])
    intro j h1 h2
    obtain ⟨lo, hlo, hi, hhi, _, e⟩ := m3 j (by omega)
    rw [List.eq_of_mem_replicate hlo, List.eq_of_mem_replicate hhi, sub_self, mul_zero, add_zero, List.getD_eq_getElem _ _ h1,
      List.getD_eq_getElem _ _ h2] at e
    exact e
  rw [hmx] at m1
  clear m3 hmx m2 m
  obtain ⟨m, rfl⟩ : ∃ m, m = x := ⟨_, rfl⟩
  obtain ⟨f, hf⟩ := hunit m
  have hnorm : HasNormals lib p 1 fun _ => f := by
    intro k hk
    obtain rfl : k = 0 := by omega
    exact ⟨m, _, m1, by rw [c1]; rfl, hf⟩
  have hrows : emRowsOf 1 (fun _ => f) (List.replicate n m) 0 = List.replicate n m := by
    unfold emRowsOf
    rw [List.filter_eq_self]
    intro b _
    simp only [decide_eq_true_eq]
    exact ⟨by decide, fun j _ => le_refl _, fun j hj => absurd hj (Nat.not_lt_zero _)⟩
  have hmean : (List.range attrs.length).map (columnMean (List.replicate n m)) = m := by
    apply List.ext_getElem (by simp [hxl])
    intro j h1 h2
    simp only [List.getElem_map, List.getElem_range, columnMean, List.map_replicate, List.sum_replicate, List.length_replicate, nsmul_eq_mul]
    rw [mul_div_cancel_left₀ _ hchar, List.getD_eq_getElem _ _ h2]
  have hturn : EmTurn lib attrs.length 1 (List.replicate n m) p ⟨[m], [lib.covariance (List.replicate n m)]⟩ := by
    refine ⟨fun _ => f, hnorm, rfl, rfl, ?_⟩
    intro k hk
    obtain rfl : k = 0 := by omega
    simp only [hrows, List.length_replicate]
    refine ⟨by omega, fun h => by omega, fun _ => ⟨by rw [hmean]; rfl, ?_⟩⟩
    rw [if_neg (by omega)]
    rfl
  refine ⟨⟨attrs, ⟨[m], [lib.covariance (List.replicate n m)]⟩⟩, (hiff _).2 ⟨rfl, p, .start, hturn, ?_⟩, ?_⟩
  · unfold emMoved
    have : (List.map (fun k => (List.map (fun j => ((p.means[k]?.getD []).getD j 0 - (([m] : List (List K))[k]?.getD []).getD j 0) ^ 2)
        (List.range attrs.length)).sum) (List.range 1)).sum = 0 := by
      simp [m1]
    rw [this]
    exact hsqrt
  · intro order' g' cs h
    unfold emPredict at h
    obtain ⟨X, _, h2⟩ := Res.bind_eq_ok.mp h
    obtain ⟨y, h3, _⟩ := Res.map_eq_ok.mp h2
    rcases estimate_cases lib (⟨[m], [lib.covariance (List.replicate n m)]⟩ : EmParams K Cov) 1 X with ⟨lp, hlp⟩ | ⟨_, e⟩
    · obtain ⟨m', c', e1, e2, e3⟩ := hlp 0 (by decide)
      have e1 : m = m' := by simpa using e1
      have e2 : lib.covariance (List.replicate n m) = c' := by simpa using e2
      rw [← e1, ← e2, hzero] at e3
      cases e3
    · rw [e] at h3
      cases h3

namespace Witness
/-- Two rows with the same value. -/
def sameOps : List Op := [.add eX, .extend 2, .set 0 0 (packU64 3), .set 0 1 (packU64 3)]
/-- The covariance matrix is a number here, and zero has no normal distribution. -/
def sameLib : EmLib ℚ ℚ :=
  ⟨fun m c => if c = 0 then none else some fun x => ((-|x.headD 0 - m.headD 0| : ℚ) : WithBot ℚ),
    fun X => ((X.map fun x => (x.headD 0 - columnMean X 0) ^ 2).sum), fun _ => 0, fun d => d.headD 0, id⟩
end Witness

open Witness in
example : ∃ st, run 4096 sameOps = Res.ok st ∧ DenseOK 2 st.d ∧ [eX].Perm (Grid.dense st.d).normalAttrs ∧
    (Grid.dense st.d).RowOrder [0, 1] ∧ (∀ r < 2, (Grid.dense st.d).number (fun u => (u.toNat : ℚ)) eX r = 3) ∧ sameLib.sqrt 0 < 1 / 1000 ∧
    (∀ m, ∃ f, sameLib.normal m (sameLib.diagonal (List.replicate 1 1)) = some f) ∧
    (∀ m x, sameLib.normal m (sameLib.covariance (List.replicate 2 x)) = none) := by
  obtain ⟨st, h1, h2, h4, h3⟩ : ∃ st, run 4096 sameOps = Res.ok st ∧ (Grid.dense st.d).normalAttrs = [eX] ∧ st.d.maxRow = 2 ∧
      (∀ r < 2, (Grid.dense st.d).number (fun u => (u.toNat : ℚ)) eX r = 3) := by
    refine ⟨_, rfl, ?_, ?_, ?_⟩
    all_goals decide +kernel
  refine ⟨st, h1, ?_, ?_, ?_, h3, by decide +kernel, ?_, ?_⟩
  · exact denseOK_run (pg := 4096) (ops := sameOps) (by decide) h1 (by decide)
  · rw [h2]
  · show [0, 1] = List.range st.d.maxRow
    rw [h4]; rfl
  · intro m
    refine ⟨fun x => ((-|x.headD 0 - m.headD 0| : ℚ) : WithBot ℚ), ?_⟩
    show (if sameLib.diagonal (List.replicate 1 1) = 0 then none else some _) = _
    rw [if_neg (by decide +kernel)]
  · intro m x
    have : sameLib.covariance (List.replicate 2 x) = 0 := by
      simp [sameLib, columnMean, List.replicate_succ, List.headD_eq_head?_getD, List.getD_eq_getElem?_getD, List.head?_eq_getElem?]
    show (if sameLib.covariance (List.replicate 2 x) = 0 then none else _) = none
    rw [if_pos this]

/-- A turn does not panic if the normal distributions exist and every component is the best for some row. Missing from the English claim: data for
which some component gets no row. -/
theorem C88_partial [Field K] [LinearOrder K] (lib : EmLib K Cov) (feats comps : Nat) (X : List (List K)) (p : EmParams K Cov)
    (lp : Nat → List K → WithBot K) (hlp : HasNormals lib p comps lp) (hc : 0 < comps) (hm : p.means.length = comps) (hcv : p.covs.length = comps)
    (hbest : ∀ k < comps, ∃ x ∈ X, FirstBest comps (fun j => lp j x) k) :
    ∃ q, ((estimateLogProb lib X p comps).bind fun y => maximization lib feats X y p comps) = Res.ok q ∧ q.means.length = comps ∧
      q.covs.length = comps := by
  obtain ⟨y, hy, hlen, hb⟩ := estimate_ok hlp hc X
  obtain ⟨q, h1, h2, h3, _⟩ := (C88_step lib feats X y p comps hm hcv).2 (by
    intro k hk h
    obtain ⟨x, hx, hf⟩ := hbest k hk
    obtain ⟨i, hi⟩ := List.getElem?_of_mem hx
    obtain ⟨k', e1, e2⟩ := hb i x hi
    have e : k' = k := by
      rcases Nat.lt_trichotomy k k' with hlt | e | hlt
      · exact absurd (hf.2.1 k' e2.1) (not_le.mpr (e2.2.2 k hlt))
      · exact e.symm
      · exact absurd (e2.2.1 k hf.1) (not_le.mpr (hf.2.2 k' hlt))
    subst e
    have hz : (x, k') ∈ X.zip y := by
      have : (X.zip y)[i]? = some (x, k') := by
        rw [List.getElem?_zip_eq_some]; exact ⟨hi, e1⟩
      exact List.mem_of_getElem? this
    have : x ∈ assigned X y k' := List.mem_map.mpr ⟨_, List.mem_filter.mpr ⟨hz, by simp⟩, rfl⟩
    rw [h] at this
    cases this)
  exact ⟨q, by rw [hy, Res.bind_ok, h1], h2, h3⟩

/-- Two components and three rows; the log-probability is minus the distance to the mean. -/
example : ∃ (lp : Nat → List ℚ → WithBot ℚ) (lib : EmLib ℚ Unit) (p : EmParams ℚ Unit), HasNormals lib p 2 lp ∧
    (∀ k < 2, ∃ x ∈ [[(1 : ℚ)], [9], [2]], FirstBest 2 (fun j => lp j x) k) ∧
    ((estimateLogProb lib [[1], [9], [2]] p 2).bind fun y => (maximization lib 1 [[1], [9], [2]] y p 2).map EmParams.means) =
      Res.ok [[3 / 2], [8]] := by
  refine ⟨fun k x => ((-|x.headD 0 - if k = 0 then 1 else 8| : ℚ) : WithBot ℚ),
    ⟨fun m _ => some fun x => ((-|x.headD 0 - m.headD 0| : ℚ) : WithBot ℚ), fun _ => (), fun _ => 0, fun _ => (), id⟩,
    ⟨[[1], [8]], [(), ()]⟩, ?_, ?_, ?_⟩
  · intro k hk
    match k, hk with
    | 0, _ => exact ⟨[1], (), rfl, rfl, rfl⟩
    | 1, _ => exact ⟨[8], (), rfl, rfl, rfl⟩
  · intro k hk
    match k, hk with
    | 0, _ => exact ⟨[1], by simp, by unfold FirstBest; decide +kernel⟩
    | 1, _ => exact ⟨[9], by simp, by unfold FirstBest; decide +kernel⟩
  · decide +kernel

end Golearn
