import Verif.Props.C68
import Verif.Spec.Entropy
import Verif.Proofs.RuleExamples

/-! # C69: prediction by naive Bayes -/

namespace Golearn

section
variable {K : Type} [Field K] [LinearOrder K] [IsStrictOrderedRing K]

namespace Logarithm
variable {log : K → K} (L : Logarithm log)
include L

theorem lt {x y : K} (hx : 0 < x) (h : x < y) : log x < log y := by
  have hy := hx.trans h
  have h1 := L.mul y (x / y) hy (div_pos hx hy)
  have h2 := L.neg (x / y) (div_pos hx hy) ((div_lt_one hy).2 h)
  rw [mul_div_cancel₀ _ hy.ne'] at h1
  linarith

theorem le {x y : K} (hx : 0 < x) (h : x ≤ y) : log x ≤ log y := by
  rcases h.lt_or_eq with h | h
  · exact (L.lt hx h).le
  · rw [h]

theorem le_iff {x y : K} (hx : 0 < x) (hy : 0 < y) : log x ≤ log y ↔ x ≤ y := by
  refine ⟨fun h => ?_, L.le hx⟩
  by_contra hn
  exact absurd (L.lt hy (not_le.1 hn)) (not_lt.2 h)

theorem prod {α : Type} (f : α → K) (l : List α) (h : ∀ a ∈ l, 0 < f a) :
    log (l.map f).prod = (l.map fun a => log (f a)).sum ∧ 0 < (l.map f).prod := by
  induction l with
  | nil => exact ⟨by simpa using L.one, by simp⟩
  | cons a as ih =>
    obtain ⟨h1, h2⟩ := ih fun x hx => h x (List.mem_cons_of_mem _ hx)
    have ha := h a List.mem_cons_self
    rw [List.map_cons, List.map_cons, List.prod_cons, List.sum_cons]
    exact ⟨by rw [L.mul _ _ ha h2, h1], mul_pos ha h2⟩
end Logarithm

/-- The number of rows of a class that occurs is positive and at most the number of rows. -/
theorem docsIn_pos {n : Nat} {k : Nat → String} {r : Nat} (hr : r < n) : 0 < docsIn n k (k r) ∧ docsIn n k (k r) ≤ n := by
  unfold docsIn countRows
  constructor
  · exact List.length_pos_of_mem (List.mem_filter.2 ⟨List.mem_range.2 hr, by simp⟩)
  · exact (List.length_filter_le _ _).trans (by simp)

/-- All numbers of which logarithms are taken are positive and at most one: the fraction of rows in the class, and what
is taken for each feature, present or absent. -/
theorem C69_log_arguments {g : Grid} {n : Nat} {k : Nat → String} {r : Nat} (hr : r < n) (a : Attr) (has : Bool) :
    (0 < ((docsIn n k (k r) : K) / (n : K)) ∧ ((docsIn n k (k r) : K) / (n : K)) ≤ 1) ∧
    1 / ((n + 1 : Nat) : K) ≤ likelihood g n k (k r) a has ∧ 0 < likelihood (K := K) g n k (k r) a has ∧
    likelihood (K := K) g n k (k r) a has ≤ 1 := by
  obtain ⟨h1, h2⟩ := docsIn_pos (k := k) hr
  have hn : (0 : K) < (n : K) := by exact_mod_cast (by omega : 0 < n)
  have hd : (0 : K) < (docsIn n k (k r) : K) := by exact_mod_cast h1
  have hd1 : (0 : K) < ((docsIn n k (k r) + 1 : Nat) : K) := by exact_mod_cast Nat.succ_pos _
  have hn1 : (0 : K) < ((n + 1 : Nat) : K) := by exact_mod_cast Nat.succ_pos _
  have hle : 1 / ((n + 1 : Nat) : K) ≤ 1 / ((docsIn n k (k r) + 1 : Nat) : K) :=
    one_div_le_one_div_of_le hd1 (by exact_mod_cast Nat.succ_le_succ h2)
  obtain ⟨s1, s2⟩ := C68_range (K := K) g n k (k r) a
  refine ⟨⟨div_pos hd hn, (div_le_one hn).2 (by exact_mod_cast h2)⟩, ?_⟩
  have hlow : 1 / ((docsIn n k (k r) + 1 : Nat) : K) ≤ likelihood g n k (k r) a has := by
    unfold likelihood
    cases has with
    | true =>
      rw [if_pos rfl, smoothed]
      exact div_le_div_of_nonneg_right (by exact_mod_cast Nat.succ_le_succ (Nat.zero_le _)) hd1.le
    | false =>
      rw [if_neg (by decide)]
      by_cases he : docsWith g n k (k r) a = docsIn n k (k r)
      · rw [if_pos he]
      · rw [if_neg he, smoothed, le_sub_iff_add_le, ← add_div, div_le_one hd1]
        have := docsWith_le g n k (k r) a
        have hh : 1 + (docsWith g n k (k r) a + 1) ≤ docsIn n k (k r) + 1 := by omega
        exact_mod_cast hh
  refine ⟨hle.trans hlow, lt_of_lt_of_le (div_pos one_pos hd1) hlow, ?_⟩
  unfold likelihood
  split
  · exact s2
  · split
    · rw [div_le_one hd1]; exact_mod_cast Nat.succ_le_succ (Nat.zero_le _)
    · linarith

/-- The score of a class is the logarithm of its prior times its likelihoods, and it is not below a bound that depends
on the numbers of rows and features only. -/
theorem logPosterior_eq {log : K → K} (L : Logarithm log) {g : Grid} {n : Nat} {k : Nat → String} {r : Nat} (hr : r < n)
    (what : Grid) (r' : Nat) :
    logPosterior log g n k what r' (k r) = log (posterior g n k what r' (k r)) ∧
      0 < posterior (K := K) g n k what r' (k r) ∧
      ((g.nonClass.length + 1 : Nat) : K) * log (1 / ((n + 1 : Nat) : K)) ≤ logPosterior log g n k what r' (k r) := by
  have hpos : ∀ a ∈ g.nonClass, 0 < likelihood (K := K) g n k (k r) a (what.hasFeature a r') :=
    fun a _ => (C69_log_arguments hr a _).2.2.1
  have hprior := fun a => (C69_log_arguments (K := K) (g := g) (k := k) hr a true).1.1
  have hp0 := hprior ⟨0, .bin ""⟩
  obtain ⟨p1, p2⟩ := L.prod _ g.nonClass hpos
  refine ⟨?_, mul_pos hp0 p2, ?_⟩
  · rw [posterior, L.mul _ _ hp0 p2, p1, logPosterior]
  · have hn1 : (0 : K) < ((n + 1 : Nat) : K) := by exact_mod_cast Nat.succ_pos _
    have hb := div_pos (one_pos (α := K)) hn1
    have h0 : log (1 / ((n + 1 : Nat) : K)) ≤ log ((docsIn n k (k r) : K) / (n : K)) := by
      apply L.le hb
      have hn : (0 : K) < (n : K) := by exact_mod_cast (by omega : 0 < n)
      rw [div_le_div_iff₀ hn1 hn, one_mul]
      have := (docsIn_pos (k := k) hr).1
      have : n ≤ docsIn n k (k r) * (n + 1) := by nlinarith
      exact_mod_cast this
    have hs : ∀ l : List Attr, (l.length : K) * log (1 / ((n + 1 : Nat) : K)) ≤
        (l.map fun a => log (likelihood g n k (k r) a (what.hasFeature a r'))).sum := by
      intro l
      induction l with
      | nil => simp
      | cons a as ih =>
        rw [List.map_cons, List.sum_cons, List.length_cons]
        have := L.le hb (C69_log_arguments (K := K) (g := g) (k := k) hr a (what.hasFeature a r')).2.1
        push_cast at ih this ⊢
        linarith
    have := hs g.nonClass
    rw [logPosterior]
    push_cast at h0 this ⊢
    linarith

/-- The score computed for a row of `what` from a trained model. -/
theorem nbScore_eq {log : K → K} {nb : NB K} {g : Grid} {n : Nat} {k : Nat → String} {cols : List Attr}
    (T : nb.TrainedOn g n k cols) {what : Grid} {r' : Nat} (hb : ∀ a ∈ g.nonClass, ∃ b, what.cell a r' = [b]) {r : Nat}
    (hr : r < n) :
    nbScore log nb (cols.map fun a => what.cell a r') (k r) = Res.ok (logPosterior log g n k what r' (k r)) := by
  have h := nbScoreLoop_spec log (docsIn n k (k r)) (smoothed (K := K) g n k (k r)) (fun a => what.cell a r') cols
    (fun a ha => hb a (T.order.mem_iff.1 ha)) [] (log ((docsIn n k (k r) : K) / (n : K)))
  simp only [nbScore, T.inst r hr, T.cond r hr, Option.getD_some, T.rows]
  rw [List.nil_append] at h
  refine h.trans ?_
  rw [logPosterior]
  congr 2
  simp only [nbTerm_eq]
  exact (T.order.map _).sum_eq

/-- For every data set of binary features with a row with some feature in each class, every data set with equal
features, and all orders of rows and classes: `Fit` followed by `Predict` succeeds, and every row gets a class of the
training data whose prior times likelihoods is the greatest. The logarithm is any function with the laws of one, and
`low`, the score to start from, must be below what the numbers of rows and features allow. -/
theorem C69_predict {log : K → K} (L : Logarithm log) {fo : FloatOps} {g : Grid} {n : Nat} {k : Nat → String}
    (D : BinaryData fo g n k) (hn : 0 < n) (hne : g.nonClass ≠ []) (hall : ∀ r, r < n → ClassHasFeature g n k (k r))
    {srt : List Spec → List Spec} (hsrt : PositionSort srt) {order : List Nat} (ho : g.RowOrder order)
    {ordC : List String → List String} (hord : ∀ l, (ordC l).Perm l) (old : GoMap String (List K))
    {low : K} (hlow : low < ((g.nonClass.length + 1 : Nat) : K) * log (1 / ((n + 1 : Nat) : K)))
    {what : Grid} {n' : Nat} (P : what.Presents n') (hf : what.Finds g.nonClass)
    (hbytes : ∀ a ∈ g.nonClass, ∀ r, r < n' → ∃ b, what.cell a r = [b]) {p : Nat} {nm : String} {vs : List String}
    (hc : what.allClassAttributes = [⟨p, .cat nm vs⟩]) (hsz : vs.length + n' ≤ 2 ^ 64)
    {order' : List Nat} (ho' : what.RowOrder order') {ordP : Nat → List String → List String}
    (hordP : ∀ r l, (ordP r l).Perm l) (parse : String → Option U64) (pg : Nat) :
    ∃ nb d, nbFit fo srt order ordC old g = Res.ok nb ∧ nbPredict log low fo parse pg srt order' ordP nb what = Res.ok d ∧
      (Grid.dense d).size.2 = n' ∧
      ∀ r', r' < n' → ∃ r, r < n ∧ getClass fo (.dense d) r' = Res.ok (k r) ∧
        ∀ s, s < n → posterior (K := K) g n k what r' (k s) ≤ posterior g n k what r' (k r) := by
  have hperm : ∀ l, (srt l).Perm l := by
    intro l
    obtain ⟨σ, s1, s2⟩ := hsrt
    rw [s2]
    refine ((s1 l.length).filterMap _).trans ?_
    rw [filterMap_range_getElem?]
  obtain ⟨fs, fs1, fs2⟩ := positionSort_attrs hsrt g.nonClass
  obtain ⟨nb, cols, h1, T, h3⟩ := (nb_fit D hperm ho hord old).1 (Or.inr hall)
  have hcols : cols = fs := h3 fs fs2 fun a ha => fs1.mem_iff.1 ha
  subst hcols
  obtain ⟨sp, p1, p2⟩ := finds_spec P hf
  obtain ⟨ret, g1, g2, _⟩ := generate_spec pg P.rows hc
  have hone : ∀ r', r' < n' → ∃ c, (∃ r, r < n ∧ c = k r ∧
      ∀ s, s < n → posterior (K := K) g n k what r' (k s) ≤ posterior g n k what r' (k r)) ∧
      nbPredictOne log low (ordP r') nb (cols.map fun a => what.cell a r') = Res.ok c := by
    intro r' hr'
    have hb : ∀ a ∈ g.nonClass, ∃ b, what.cell a r' = [b] := fun a ha => hbytes a ha r' hr'
    have hin : ∀ c ∈ ordP r' (nb.inst.map Prod.fst), ∃ r, r < n ∧ k r = c := fun c hc =>
      (T.classes c).1 ((hordP r' _).mem_iff.1 hc)
    have hS := nbBest_eq log nb (cols.map fun a => what.cell a r') (fun c => logPosterior log g n k what r' c)
      (ordP r' (nb.inst.map Prod.fst)) (by
        intro c hc
        obtain ⟨r, hr, rfl⟩ := hin c hc
        exact nbScore_eq T hb hr) ("", low)
    have h0 : k 0 ∈ ordP r' (nb.inst.map Prod.fst) := (hordP r' _).mem_iff.2 ((T.classes _).2 ⟨0, hn, rfl⟩)
    obtain ⟨m1, m2⟩ := argmaxLoop_max (fun c => logPosterior log g n k what r' c) (ordP r' (nb.inst.map Prod.fst))
      ("", low) (List.ne_nil_of_mem h0) (by
        intro c hc
        obtain ⟨r, hr, rfl⟩ := hin c hc
        exact lt_of_lt_of_le hlow (logPosterior_eq L hr what r').2.2)
    obtain ⟨r, hr, hkr⟩ := hin _ m1
    refine ⟨_, ⟨r, hr, hkr.symm, ?_⟩, ?_⟩
    · intro s hs
      have := m2 (k s) ((hordP r' _).mem_iff.2 ((T.classes _).2 ⟨s, hs, rfl⟩))
      rw [← hkr] at this
      obtain ⟨e1, e2, _⟩ := logPosterior_eq L hs what r'
      obtain ⟨e3, e4, _⟩ := logPosterior_eq L hr what r'
      rw [e1, e3, L.le_iff e2 e4] at this
      exact this
    · have hl : (cols.map fun a => what.cell a r').length = nb.features := by
        rw [List.length_map, T.order.length_eq, T.count]
      have hf0 : nb.features ≠ 0 := by
        rw [T.count]
        exact fun h => hne (List.length_eq_zero_iff.1 h)
      simp only [nbPredictOne, if_neg hf0, ne_eq, hl, not_true_eq_false, if_false, hS, Res.map_ok]
  have hcells : ∀ r, (cols.map sp).map (fun s => what.cell s.attr r) = cols.map fun a => what.cell a r := by
    intro r
    rw [List.map_map]
    exact List.map_congr_left fun a ha => (p2 a (fs1.mem_iff.1 ha)).2.2.2 r
  obtain ⟨d, vs', l1, l2, l3⟩ := predict_grid (fo := fo) (parse := parse) (specs := cols.map sp) P (by
      intro s hs
      obtain ⟨a, ha, rfl⟩ := List.mem_map.1 hs
      exact (p2 a (fs1.mem_iff.1 ha)).2.1)
    (cb := fun d vals row => (nbPredictOne log low (ordP row) nb vals).bind fun c =>
      (setClass fo parse d row c).map fun d' => (d', Ctl.cont))
    (Q := fun r' c => ∃ r, r < n ∧ c = k r ∧
      ∀ s, s < n → posterior (K := K) g n k what r' (k s) ≤ posterior g n k what r' (k r))
    (by
      intro r' hr'
      obtain ⟨c, q1, q2⟩ := hone r' hr'
      refine ⟨c, q1, fun d => ?_⟩
      rw [hcells, q2, Res.bind_ok]) ho' g2 hsz
  refine ⟨nb, d, h1, ?_, l2.rows, ?_⟩
  · have hres : what.resolve srt nb.attrs = Res.ok (cols.map sp) := by
      rw [T.attrs]
      simp only [Grid.resolve, p1, Res.map_ok, fs2]
    simp only [nbPredict, g1, Res.bind_ok, hres, l1, keepState]
  · intro r' hr'
    obtain ⟨c, ⟨r, hr, rfl, hmax⟩, hget⟩ := l3 r' hr'
    exact ⟨r, hr, hget, hmax⟩

/-- If one class is better than all others, every order of rows and classes gives it. -/
theorem C69_order_independent {log : K → K} (L : Logarithm log) {fo : FloatOps} {g : Grid} {n : Nat} {k : Nat → String}
    (D : BinaryData fo g n k) (hn : 0 < n) (hne : g.nonClass ≠ []) (hall : ∀ r, r < n → ClassHasFeature g n k (k r))
    {srt : List Spec → List Spec} (hsrt : PositionSort srt) {order : List Nat} (ho : g.RowOrder order)
    {ordC : List String → List String} (hord : ∀ l, (ordC l).Perm l) (old : GoMap String (List K))
    {low : K} (hlow : low < ((g.nonClass.length + 1 : Nat) : K) * log (1 / ((n + 1 : Nat) : K)))
    {what : Grid} {n' : Nat} (P : what.Presents n') (hf : what.Finds g.nonClass)
    (hbytes : ∀ a ∈ g.nonClass, ∀ r, r < n' → ∃ b, what.cell a r = [b]) {p : Nat} {nm : String} {vs : List String}
    (hc : what.allClassAttributes = [⟨p, .cat nm vs⟩]) (hsz : vs.length + n' ≤ 2 ^ 64)
    {order' : List Nat} (ho' : what.RowOrder order') {ordP : Nat → List String → List String}
    (hordP : ∀ r l, (ordP r l).Perm l) (parse : String → Option U64) (pg : Nat) {nb : NB K} {d : Dense}
    (h1 : nbFit fo srt order ordC old g = Res.ok nb)
    (h2 : nbPredict log low fo parse pg srt order' ordP nb what = Res.ok d) {r' : Nat} (hr' : r' < n') {r : Nat}
    (hr : r < n) (hbest : ∀ s, s < n → k s ≠ k r →
      posterior (K := K) g n k what r' (k s) < posterior g n k what r' (k r)) :
    getClass fo (.dense d) r' = Res.ok (k r) := by
  obtain ⟨nb2, d2, e1, e2, _, e4⟩ := C69_predict L D hn hne hall hsrt ho hord old hlow P hf hbytes hc hsz ho' hordP parse pg
  rw [h1] at e1
  cases e1
  rw [h2] at e2
  cases e2
  obtain ⟨s, hs, hget, hmax⟩ := e4 r' hr'
  by_cases he : k s = k r
  · rw [hget, he]
  · exact absurd (hmax r hr) (not_le.2 (hbest s hs he))

omit [IsStrictOrderedRing K] in
/-- Before training, with no features, or for a vector of another length, `PredictOne` panics. -/
theorem C69_panics (log : K → K) (low : K) (ordC : List String → List String) (nb : NB K) (vector : List Bytes)
    (h : nb.features = 0 ∨ vector.length ≠ nb.features) : nbPredictOne log low ordC nb vector = Res.panic := by
  unfold nbPredictOne
  by_cases h0 : nb.features = 0
  · rw [if_pos h0]
  · rw [if_neg h0, if_pos (h.resolve_left h0)]
end

section Examples

/-- The three rows of the example of `C68`, as training data and as data to predict: all hypotheses of `C69_predict`
are met, and for a row with the first feature only the first class is better than the second. -/
example : ∃ st : St, BinaryData nbFloats (.dense st.d) 3 nbLab ∧ (Grid.dense st.d).nonClass ≠ [] ∧
    (∀ r, r < 3 → ClassHasFeature (.dense st.d) 3 nbLab (nbLab r)) ∧ (Grid.dense st.d).Finds (Grid.dense st.d).nonClass ∧
    (∀ a ∈ (Grid.dense st.d).nonClass, ∀ r, r < 3 → ∃ b, (Grid.dense st.d).cell a r = [b]) ∧
    (Grid.dense st.d).allClassAttributes = [⟨2, .cat "c" ["x", "y"]⟩] ∧ PositionSort (fun l => l) ∧
    Logarithm (Real.logb 2) ∧
    (-9 : ℝ) < (((Grid.dense st.d).nonClass.length + 1 : Nat) : ℝ) * Real.logb 2 (1 / ((3 + 1 : Nat) : ℝ)) ∧
    (posterior (.dense st.d) 3 nbLab (.dense st.d) 0 "y" : ℝ) < posterior (.dense st.d) 3 nbLab (.dense st.d) 0 "x" := by
  obtain ⟨st, hrun, D, hfe, hcl, hall, e1, e2, e3, e4, e5, e6⟩ := nb_example
  have hp : (Grid.dense st.d).hasFeature ⟨0, .bin "p"⟩ 0 = true ∧ (Grid.dense st.d).hasFeature ⟨1, .bin "q"⟩ 0 = false := by
    have hw : ∃ st, run 4096 [.add ⟨0, .bin "p"⟩, .add ⟨1, .bin "q"⟩, .add ⟨2, .cat "c" ["x", "y"]⟩, .extend 3,
        .set 0 0 [1#8], .set 0 1 [1#8], .set 1 2 [1#8], .set 2 2 (packU64 1), .addClass ⟨2, .cat "c" ["x", "y"]⟩] = Res.ok st ∧
        (Grid.dense st.d).hasFeature ⟨0, .bin "p"⟩ 0 = true ∧ (Grid.dense st.d).hasFeature ⟨1, .bin "q"⟩ 0 = false := by
      refine ⟨_, rfl, ?_, ?_⟩
      all_goals decide +kernel
    obtain ⟨st', h1, h2⟩ := hw
    have : Res.ok st' = Res.ok st := h1.symm.trans hrun
    cases this
    exact h2
  refine ⟨st, D, by rw [hfe]; simp, hall, finds_self (features_sub _), D.bytes, hcl, ?_, logb_logarithm, ?_, ?_⟩
  · exact ⟨List.range, fun n => List.Perm.refl _, fun l => (filterMap_range_getElem? l).symm⟩
  · rw [hfe]
    have : Real.logb 2 (1 / ((3 + 1 : Nat) : ℝ)) = -2 := by
      rw [show (1 / ((3 + 1 : Nat) : ℝ)) = (2 : ℝ) ^ (-2 : ℝ) by norm_num [Real.rpow_neg]]
      exact Real.logb_rpow (by norm_num) (by norm_num)
    rw [this]
    norm_num
  · simp only [posterior, hfe, List.map_cons, List.map_nil, List.prod_cons, List.prod_nil, hp.1, hp.2, likelihood, smoothed,
      e1, e2, e3, e4, e5, e6]
    norm_num
end Examples

end Golearn
