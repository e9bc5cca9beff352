import Verif.Spec.Precision
import Verif.Model.Arff
import Verif.Proofs.ArffWrite

/-! # C106: the precision that is estimated for a file -/

namespace Golearn

/-- The estimate is never more than the decimals that follow some dot in the line. -/
theorem decimals_le (l : Text) : decimalsGo .out l ≤ fracRun l ∧ decimalsGo .int l ≤ fracRun l ∧
    ∀ dot n, decimalsGo (.frac dot n) l ≤ max (if dot then n + (l.takeWhile isDigit).length else 0) (fracRun l) := by
  induction l with
  | nil => simp [decimalsGo]
  | cons c cs ih =>
    obtain ⟨h1, h2, h3⟩ := ih
    have hle : fracRun cs ≤ fracRun (c :: cs) := by rw [fracRun]; exact Nat.le_max_right _ _
    refine ⟨?_, ?_, ?_⟩
    · rw [decimalsGo]
      split
      · exact h2.trans hle
      · exact h1.trans hle
    · rw [decimalsGo]
      split
      · exact h2.trans hle
      · split
        · have := h3 (c == '.') 0
          rw [fracRun]
          simpa using this
        · exact h1.trans hle
    · intro dot n
      rw [decimalsGo]
      by_cases hc : isDigit c = true
      · rw [if_pos hc, List.takeWhile_cons_of_pos hc]
        refine (h3 dot (n + 1)).trans (Nat.max_le.2 ⟨?_, hle.trans (Nat.le_max_right _ _)⟩)
        refine le_trans ?_ (Nat.le_max_left _ _)
        split
        · rw [List.length_cons]; omega
        · exact Nat.zero_le _
      · rw [if_neg hc, List.takeWhile_cons_of_neg hc]
        refine Nat.max_le.2 ⟨?_, (h1.trans hle).trans (Nat.le_max_right _ _)⟩
        refine le_trans ?_ (Nat.le_max_left _ _)
        simp

theorem foldl_max_le {α : Type} (f : α → Nat) (n : Nat) (l : List α) : ∀ m, m ≤ n → (∀ x ∈ l, f x ≤ n) → l.foldl (fun m x => max m (f x)) m ≤ n := by
  induction l with
  | nil => intro m hm _; exact hm
  | cons a l ih => intro m hm h; exact ih _ (Nat.max_le.2 ⟨hm, h a (by simp)⟩) fun x hx => h x (by simp [hx])

/-- Whatever the text: if no dot in its data lines is followed by more than `n` digits, the estimate is at most `n`. -/
theorem C106_at_most (text : Text) (n : Nat) (h : ∀ l ∈ scanLines text, isDataLine l = true → fracRun l ≤ n) : estimatePrecision text ≤ n := by
  refine foldl_max_le decimals n _ 0 (Nat.zero_le _) fun l hl => ?_
  have hl := List.mem_filter.1 (List.take_subset _ _ hl)
  exact (decimals_le l).1.trans (h l hl.1 hl.2)

theorem decimals_noDigits (t rest : Text) (h : ∀ c ∈ t, isDigit c = false) : decimalsGo .out (t ++ rest) = decimalsGo .out rest := by
  induction t with
  | nil => rfl
  | cons c t ih => rw [List.cons_append, decimalsGo, if_neg (by simp [h c (by simp)]), ih fun x hx => h x (by simp [hx])]

theorem decimals_whole (t rest : Text) (h : ∀ c ∈ t, isDigit c = true) : decimalsGo .int (t ++ rest) = decimalsGo .int rest := by
  induction t with
  | nil => rfl
  | cons c t ih => rw [List.cons_append, decimalsGo, if_pos (h c (by simp)), ih fun x hx => h x (by simp [hx])]

theorem decimals_frac (t rest : Text) (h : ∀ c ∈ t, isDigit c = true) (dot : Bool) :
    ∀ n, decimalsGo (.frac dot n) (t ++ rest) = decimalsGo (.frac dot (n + t.length)) rest := by
  induction t with
  | nil => intro n; rfl
  | cons c t ih =>
    intro n
    rw [List.cons_append, decimalsGo, if_pos (h c (by simp)), ih fun x hx => h x (by simp [hx]), List.length_cons]
    congr 2
    omega

/-- A number with a dot, followed by a comma or the end. -/
theorem decimals_decimal {t : Text} {n : Nat} (h : IsDecimal t n) (rest : Text) (hr : ∀ c, rest.head? = some c → isDigit c = false) :
    decimalsGo .out (t ++ rest) = max n (decimalsGo .out rest) := by
  obtain ⟨sign, whole, frac, rfl, h1, h2, h3, h4, h5, rfl⟩ := h
  obtain ⟨w, ws, rfl⟩ := List.exists_cons_of_ne_nil h2
  obtain ⟨f, fs, rfl⟩ := List.exists_cons_of_ne_nil h4
  have hw := h3 w (by simp)
  have hf := h5 f (by simp)
  rw [List.append_assoc, List.append_assoc, decimals_noDigits _ _ h1, List.cons_append, decimalsGo, if_pos hw,
    decimals_whole _ _ fun x hx => h3 x (by simp [hx]), List.cons_append, decimalsGo, if_neg (by decide)]
  rw [if_pos (by simp [hf]), decimals_frac _ _ h5]
  cases rest with
  | nil => simp [decimalsGo]
  | cons c cs =>
    have hc := hr c rfl
    rw [decimalsGo, if_neg (by simp [hc]), decimalsGo, if_neg (by simp [hc])]
    simp

theorem decimals_line (fields : List Text) (ns : List Nat) (h : FieldsWith fields ns) :
    decimals (joinWith ",".toList fields) = ns.foldr max 0 := by
  induction h with
  | nil => rfl
  | @cons t n ts ns ht hts ih =>
    have step : ∀ rest : Text, (∀ c, rest.head? = some c → isDigit c = false) →
        decimalsGo .out (t ++ rest) = max n (decimalsGo .out rest) := by
      intro rest hr
      rcases ht with ht | ⟨ht, rfl⟩
      · exact decimals_decimal ht rest hr
      · rw [decimals_noDigits _ _ ht, Nat.zero_max]
    cases hts with
    | nil =>
      have := step [] (by simp)
      rw [List.append_nil] at this
      rw [joinWith_one, decimals, this]
      rfl
    | cons h1 h2 =>
      rw [joinWith_cons, decimals, List.append_assoc, step _ (by
        intro c hc
        have : c = ',' := (Option.some.inj hc).symm
        rw [this]
        decide), List.foldr_cons]
      congr 1

/-- If the fields of the first six data lines are numbers with a dot or texts without digits, the estimate is the largest number of decimals among them.

Missing: whole numbers, numbers in other notations and the lines after the sixth, see below. -/
theorem C106_estimate_partial (text : Text) (table : List (List Text)) (ns : List (List Nat))
    (hl : ((scanLines text).filter isDataLine).take 6 = table.map (joinWith ",".toList)) (h : List.Forall₂ FieldsWith table ns) :
    estimatePrecision text = (ns.map fun l => l.foldr max 0).foldr max 0 := by
  rw [estimatePrecision, hl]
  have : ∀ m, (table.map (joinWith ",".toList)).foldl (fun m l => max m (decimals l)) m = max m ((ns.map fun l => l.foldr max 0).foldr max 0) := by
    clear hl
    induction h with
    | nil => intro m; simp
    | cons h1 h2 ih =>
      intro m
      rw [List.map_cons, List.foldl_cons, ih, decimals_line _ _ h1, List.map_cons, List.foldr_cons, Nat.max_assoc]
  rw [this, Nat.zero_max]

/-- Only the first six data lines count. -/
theorem C106_first_six (text text' : Text)
    (h : ((scanLines text).filter isDataLine).take 6 = ((scanLines text').filter isDataLine).take 6) : estimatePrecision text = estimatePrecision text' := by
  rw [estimatePrecision, estimatePrecision, h]

/-- The full claim: no number in the data has more decimals than the estimate. -/
def C106_claim : Prop :=
  ∀ (text : Text) (fields : List Text) (t : Text) (n : Nat), joinWith ",".toList fields ∈ scanLines text →
    isDataLine (joinWith ",".toList fields) = true → t ∈ fields → IsDecimal t n → n ≤ estimatePrecision text

/-- It does not hold: a whole number before a number with a dot hides its decimals, as the dot of the expression stands for the comma. -/
theorem C106_refuted : ¬ C106_claim := by
  intro h
  have := h "1,2.5\n".toList ["1".toList, "2.5".toList] "2.5".toList 1 (by decide +kernel) (by decide +kernel) (by decide)
    ⟨[], "2".toList, "5".toList, by decide +kernel, by simp, by decide, by decide +kernel, by decide, by decide +kernel, by decide +kernel⟩
  exact absurd this (by decide +kernel)

/-- Nor does it for the seventh line. -/
theorem C106_seventh_line : estimatePrecision "1\n1\n1\n1\n1\n1\n0.125\n".toList = 0 := by decide +kernel

/-- In a file with whole numbers first, all float columns are given no decimals: written again, 2.5 has none. -/
example : arffAttributes asciiLower "@attribute n real\n@attribute x real\n@data\n1,2.5\n3,4.5\n".toList = Res.ok [.float "n" 0, .float "x" 0] := by
  decide +kernel

/-- Two lines, five numbers with a dot, the longest with three decimals. -/
example : estimatePrecision "@data\n1.5,-0.25,yes\n10.125,2.0,no\n".toList = 3 := by
  refine C106_estimate_partial _ [["1.5".toList, "-0.25".toList, "yes".toList], ["10.125".toList, "2.0".toList, "no".toList]] [[1, 2, 0], [3, 1, 0]]
    (by decide +kernel) ?_
  refine .cons (.cons (.inl ⟨[], "1".toList, "5".toList, ?_⟩) (.cons (.inl ⟨"-".toList, "0".toList, "25".toList, ?_⟩)
    (.cons (.inr ⟨?_, rfl⟩) .nil))) (.cons (.cons (.inl ⟨[], "10".toList, "125".toList, ?_⟩) (.cons (.inl ⟨[], "2".toList, "0".toList, ?_⟩)
    (.cons (.inr ⟨?_, rfl⟩) .nil))) .nil)
  all_goals first | decide +kernel | (show ∀ c ∈ _, _; decide +kernel)

example : estimatePrecision "1.2.345\n".toList ≤ 3 := C106_at_most _ 3 (by decide +kernel)

end Golearn
