import Verif.Proofs.CartText
import Verif.Props.C55

/-! # C117: the printed CART tree shows the tests and predictions -/

namespace Golearn

section
variable {K : Type} [Field K] [LinearOrder K] {Y : Type}

/-- For any formats of numbers and predictions without line breaks: two trees with the same text have the same tests in the same places, with the same
printed thresholds and the same printed predictions. -/
theorem C117_text_shows (num : K → String) (lbl : Y → String) (hn : ∀ x, OneLine (num x)) (hl : ∀ y, OneLine (lbl y)) (t u : CNode K Y) (s : String)
    (h1 : cartString num lbl t = Res.ok s) (h2 : cartString num lbl u = Res.ok s) : ∀ d, cartView num lbl t d = cartView num lbl u d := by
  have e0 : ("  " : String) ++ "" = "" ++ "  " := by decide
  cases t with
  | nil => cases h1
  | node l r th f a b n =>
    cases u with
    | nil => cases h2
    | node l' r' th' f' a' b' n' =>
      simp only [cartString, Res.ok.injEq] at h1 h2
      have h := h1.trans h2.symm
      rw [cartText_lines _ _ _ _ e0, cartText_lines _ _ _ _ e0] at h
      have h := linesText_inj (cartLines_oneLine num lbl hn hl _ "" (by unfold OneLine; decide))
        (cartLines_oneLine num lbl hn hl _ "" (by unfold OneLine; decide)) h
      exact fun d => (cartLines_inj num lbl _ _ "" [] [] rfl rfl (by rw [h])).1 d d

theorem view_predicts (num : K → String) (lbl : Y → String) (hl : Function.Injective lbl) (t : CNode K Y) : ∀ (u : CNode K Y) (d : String),
    (∀ x ∈ t.thresholds, ∀ y ∈ u.thresholds, num x = num y → x = y) → cartView num lbl t d = cartView num lbl u d →
    ∀ x, predictNode t x = predictNode u x := by
  induction t with
  | nil =>
    intro u d _ h x
    cases u with
    | nil => rfl
    | node => cases h
  | node l r th f a b n ihl ihr =>
    intro u d ht h x
    cases u with
    | nil => cases h
    | node l' r' th' f' a' b' n' =>
      rw [cartView, cartView, CartView.test.injEq] at h
      obtain ⟨rfl, h2, h3, h4⟩ := h
      have e := ht th List.mem_cons_self th' List.mem_cons_self h2
      subst e
      have hll : (∀ x ∈ l.thresholds, ∀ y ∈ l'.thresholds, num x = num y → x = y) := fun x hx y hy =>
        ht x (List.mem_cons_of_mem _ (List.mem_append_left _ hx)) y (List.mem_cons_of_mem _ (List.mem_append_left _ hy))
      have hrr : (∀ x ∈ r.thresholds, ∀ y ∈ r'.thresholds, num x = num y → x = y) := fun x hx y hy =>
        ht x (List.mem_cons_of_mem _ (List.mem_append_right _ hx)) y (List.mem_cons_of_mem _ (List.mem_append_right _ hy))
      -- the side itself, with the label of the node above
      have side : ∀ (c c' : CNode K Y) (y y' : Y), (∀ d, cartView num lbl c d = cartView num lbl c' d → predictNode c x = predictNode c' x) →
          cartView num lbl c (lbl y) = cartView num lbl c' (lbl y') →
          (predictNode c x).map (fun o => some (o.getD y)) = (predictNode c' x).map (fun o => some (o.getD y')) := by
        intro c c' y y' ih hv
        cases c with
        | nil =>
          cases c' with
          | nil =>
            simp only [cartView, CartView.pred.injEq] at hv
            rw [hl hv]
          | node => cases hv
        | node l1 r1 t1 f1 a1 b1 n1 =>
          cases c' with
          | nil => cases hv
          | node l2 r2 t2 f2 a2 b2 n2 =>
            rw [ih (lbl y) hv]
            -- an inner node always answers
            unfold predictNode
            split
            · rfl
            · split
              · cases predictNode l2 x <;> rfl
              · cases predictNode r2 x <;> rfl
      rw [predictNode, predictNode]
      cases x[f]? with
      | none => rfl
      | some v =>
        simp only
        rw [side l l' a a' (fun d hd => ihl l' d hll hd x) h3, side r r' b b' (fun d hd => ihr r' d hrr hd x) h4]

/-- A fitted tree can be printed. -/
theorem C117_prints [Zero Y] (e : CartEnv K Y) (data : List (List K)) (y : List Y) (t : CNode K Y) (h : cartFit e data y = Res.ok t)
    (num : K → String) (lbl : Y → String) : ∃ s, cartString num lbl t = Res.ok s := by
  cases t with
  | node l r th f a b n => exact ⟨_, rfl⟩
  | nil =>
    exfalso
    unfold cartFit bestSplit at h
    split at h
    · cases h
    · split at h
      · cases h
      · obtain ⟨o, -, h⟩ := Res.bind_eq_ok.1 h
        obtain ⟨b, -, h⟩ := Res.bind_eq_ok.1 h
        split at h
        · cases h
        · split at h
          · obtain ⟨l, -, h⟩ := Res.bind_eq_ok.1 h
            obtain ⟨r, -, h⟩ := Res.map_eq_ok.1 h
            cases h
          · cases h

/-- If the format tells the thresholds of both trees apart and tells predictions apart, trees with the same text predict the same for every row. -/
theorem C117_same_text_partial (num : K → String) (lbl : Y → String) (hn : ∀ x, OneLine (num x)) (hl : ∀ y, OneLine (lbl y)) (hi : Function.Injective lbl)
    (t u : CNode K Y) (s : String) (h1 : cartString num lbl t = Res.ok s) (h2 : cartString num lbl u = Res.ok s)
    (hd : ∀ x ∈ t.thresholds, ∀ y ∈ u.thresholds, num x = num y → x = y) (x : List K) : cartPredict t x = cartPredict u x := by
  have := view_predicts num lbl hi t u "" hd (C117_text_shows num lbl hn hl t u s h1 h2 "") x
  unfold cartPredict
  rw [this]

/-- The classifier prints predictions as whole numbers, which meets the conditions. -/
theorem C117_classifier_partial (num : K → String) (hn : ∀ x, OneLine (num x)) (t u : CNode K Int) (s : String)
    (h1 : cartString num toString t = Res.ok s) (h2 : cartString num toString u = Res.ok s)
    (hd : ∀ x ∈ t.thresholds, ∀ y ∈ u.thresholds, num x = num y → x = y) (x : List K) : cartPredict t x = cartPredict u x :=
  C117_same_text_partial num toString hn oneLine_int (fun _ _ => int_text_inj) t u s h1 h2 hd x

end

/-- The full claim for the classifier with numbers printed with three decimals: fitted trees with the same text predict the same. -/
def C117_full (num : ℚ → String) : Prop := ∀ (e : CartEnv ℚ Int) (d1 d2 : List (List ℚ)) (y1 y2 : List Int) (t u : CNode ℚ Int) (s : String),
  cartFit e d1 y1 = Res.ok t → cartFit e d2 y2 = Res.ok u → cartString num toString t = Res.ok s → cartString num toString u = Res.ok s →
  ∀ x, cartPredict t x = cartPredict u x

namespace C117

/-- A number from 0 to 9 with three decimals. -/
def three (q : ℚ) : String :=
  let m := (q * 1000 + 1 / 2).floor.toNat
  Nat.repr (m / 1000) ++ "." ++ Nat.repr (m / 100 % 10) ++ Nat.repr (m / 10 % 10) ++ Nat.repr (m % 10)

def env : CartEnv ℚ Int := ⟨classLoss (fun x => x) [1, 2] .gini, idxSort, -1⟩

end C117

open C117

/-- A text for two tests and three predictions; the inner test stands below the prediction of the other side. The hypotheses of the partial theorem
hold: the format tells 3 and 9/2 apart. -/
theorem C117_witness : ((cartFit ⟨classLoss (fun x => x) [1, 2, 7] .gini, idxSort, -1⟩ (cartRows.map Prod.fst) (cartRows.map Prod.snd)).bind fun t =>
      (cartString three toString t).map fun s => (s, t.thresholds)) = Res.ok
    ("Feature 0 < 4.500\n---> False\n  PREDICT    7\n---> True\n  Feature 1 < 3.000\n  ---> True\n    PREDICT    2\n  ---> False\n    PREDICT    1\n",
      [9 / 2, 3]) ∧ (∀ x, OneLine (three x)) ∧ (∀ x ∈ ([9 / 2, 3] : List ℚ), ∀ y ∈ ([9 / 2, 3] : List ℚ), three x = three y → x = y) := by
  refine ⟨by decide +kernel, ?_, by decide +kernel⟩
  intro x
  unfold three
  simp only
  have dot : OneLine "." := by unfold OneLine; decide
  exact oneLine_append (oneLine_append (oneLine_append (oneLine_append (oneLine_repr _) dot) (oneLine_repr _)) (oneLine_repr _)) (oneLine_repr _)

/-- Thresholds 1/10000 and 2/10000 are both printed as 0.000, but they part a row at 3/20000. -/
theorem C117_refuted : ¬ C117_full three := by
  intro H
  have e : ((cartFit env [[0], [2 / 10000]] [1, 2]).bind fun t => (cartFit env [[0], [4 / 10000]] [1, 2]).bind fun u =>
      (cartString three toString t).bind fun s => (cartString three toString u).map fun s' =>
        decide (s = s' ∧ cartPredict t [3 / 20000] ≠ cartPredict u [3 / 20000])) = Res.ok true := by decide +kernel
  obtain ⟨t, h1, e⟩ := Res.bind_eq_ok.1 e
  obtain ⟨u, h2, e⟩ := Res.bind_eq_ok.1 e
  obtain ⟨s, h3, e⟩ := Res.bind_eq_ok.1 e
  obtain ⟨s', h4, e⟩ := Res.map_eq_ok.1 e
  obtain ⟨rfl, hne⟩ := of_decide_eq_true e
  exact hne (H env _ _ _ _ t u s h1 h2 h3 h4 _)

end Golearn
