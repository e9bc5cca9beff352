import Verif.Spec.CsvText
import Verif.Proofs.ArffWrite

/-! # The text of CSV files: lemmas -/

namespace Golearn

/-! ## Numbers -/

theorem matchNum_expInt : ∀ t : Text, matchNum .expInt t = true ↔ ∀ c ∈ t, isDigit c = true
  | [] => by simp [matchNum]
  | c :: cs => by simp [matchNum, matchNum_expInt cs]

theorem matchNum_expSign (t : Text) : matchNum .expSign t = true ↔ IsDigits t := by
  cases t with
  | nil => simp [matchNum, IsDigits]
  | cons c cs => simp [matchNum, matchNum_expInt, IsDigits]

theorem digit_not {c : Char} (h : isDigit c = true) : c ≠ '-' ∧ c ≠ '+' ∧ c ≠ '.' ∧ c ≠ 'e' ∧ c ≠ 'E' := by
  refine ⟨?_, ?_, ?_, ?_, ?_⟩ <;> (rintro rfl; revert h; decide)

theorem isDigits_cons {c : Char} {cs : Text} (h : IsDigits (c :: cs)) : isDigit c = true := h.2 c (by simp)

theorem matchNum_exp (t : Text) : matchNum .exp t = true ↔ ∃ s d, t = s ++ d ∧ IsSign s ∧ IsDigits d := by
  cases t with
  | nil =>
    simp only [matchNum, Bool.false_eq_true, false_iff]
    rintro ⟨s, d, h, _, hd, _⟩
    simp_all
  | cons c cs =>
    rw [matchNum]
    split
    · rename_i h
      rw [matchNum_expSign]
      constructor
      · intro hd
        refine ⟨[c], cs, rfl, ?_, hd⟩
        rcases h with rfl | rfl <;> simp [IsSign]
      · rintro ⟨s, d, e, hs, hd⟩
        rcases hs with rfl | rfl | rfl
        · rw [List.nil_append] at e; subst e
          have := digit_not (isDigits_cons hd)
          rcases h with rfl | rfl <;> simp at this
        · simp at e; rw [e.2]; exact hd
        · simp at e; rw [e.2]; exact hd
    · rename_i h
      rw [Bool.and_eq_true, matchNum_expInt]
      constructor
      · rintro ⟨h1, h2⟩
        refine ⟨[], c :: cs, rfl, Or.inl rfl, by simp, ?_⟩
        simpa [h1] using h2
      · rintro ⟨s, d, e, hs, hd⟩
        rcases hs with rfl | rfl | rfl
        · rw [List.nil_append] at e; subst e
          exact ⟨isDigits_cons hd, fun x hx => hd.2 x (by simp [hx])⟩
        · simp at e; exact absurd (Or.inl e.1) h
        · simp at e; exact absurd (Or.inr e.1) h

/-- An exponent, or none. -/
def IsExp (t : Text) : Prop := t = [] ∨ ∃ e s d, t = e :: s ++ d ∧ (e = 'e' ∨ e = 'E') ∧ IsSign s ∧ IsDigits d

theorem isExp_cons {c : Char} {cs : Text} : IsExp (c :: cs) ↔ (c = 'e' ∨ c = 'E') ∧ matchNum .exp cs = true := by
  rw [matchNum_exp]
  constructor
  · rintro (h | ⟨e, s, d, h, he, hs, hd⟩)
    · simp at h
    · simp at h
      exact ⟨h.1 ▸ he, s, d, h.2, hs, hd⟩
  · rintro ⟨he, s, d, rfl, hs, hd⟩
    exact Or.inr ⟨c, s, d, rfl, he, hs, hd⟩

theorem isExp_not_digit {c : Char} {cs : Text} (h : IsExp (c :: cs)) : isDigit c = false := by
  rcases (isExp_cons.1 h).1 with rfl | rfl <;> decide

theorem matchNum_frac : ∀ t : Text, matchNum .frac t = true ↔ ∃ f e, t = f ++ e ∧ (∀ c ∈ f, isDigit c = true) ∧ IsExp e
  | [] => by
    simp only [matchNum, true_iff]
    exact ⟨[], [], rfl, by simp, Or.inl rfl⟩
  | c :: cs => by
    rw [matchNum]
    split
    · rename_i h
      rw [matchNum_frac cs]
      constructor
      · rintro ⟨f, e, rfl, hf, he⟩
        exact ⟨c :: f, e, rfl, by simpa [h] using hf, he⟩
      · rintro ⟨f, e, q, hf, he⟩
        cases f with
        | nil =>
          rw [List.nil_append] at q; subst q
          rw [isExp_not_digit he] at h; simp at h
        | cons x f =>
          simp at q
          exact ⟨f, e, q.2, fun y hy => hf y (by simp [hy]), he⟩
    · rename_i h
      constructor
      · intro q
        rw [Bool.and_eq_true] at q
        refine ⟨[], c :: cs, rfl, by simp, isExp_cons.2 ⟨?_, q.2⟩⟩
        simpa using q.1
      · rintro ⟨f, e, q, hf, he⟩
        cases f with
        | nil =>
          rw [List.nil_append] at q; subst q
          have := isExp_cons.1 he
          simpa using this
        | cons x f =>
          simp at q
          exact absurd (q.1 ▸ hf x (by simp)) h

theorem matchNum_dot (t : Text) : matchNum .dot t = true ↔ ∃ f e, t = f ++ e ∧ IsDigits f ∧ IsExp e := by
  cases t with
  | nil =>
    simp only [matchNum, Bool.false_eq_true, false_iff]
    rintro ⟨f, e, h, hf, _⟩
    simp at h
    exact hf.1 h.1
  | cons c cs =>
    rw [matchNum, Bool.and_eq_true, matchNum_frac]
    constructor
    · rintro ⟨h, f, e, rfl, hf, he⟩
      exact ⟨c :: f, e, rfl, ⟨by simp, by simpa [h] using hf⟩, he⟩
    · rintro ⟨f, e, q, hf, he⟩
      cases f with
      | nil => exact absurd rfl hf.1
      | cons x f =>
        simp at q
        exact ⟨q.1 ▸ isDigits_cons hf, f, e, q.2, fun y hy => hf.2 y (by simp [hy]), he⟩

/-- What may follow digits: nothing or a dot and digits; and an exponent or none. -/
def IsTail (t : Text) : Prop := ∃ frac e, t = frac ++ e ∧ (frac = [] ∨ ∃ f, frac = '.' :: f ∧ IsDigits f) ∧ IsExp e

theorem isTail_cons {c : Char} {cs : Text} :
    IsTail (c :: cs) ↔ (c = '.' ∧ matchNum .dot cs = true) ∨ ((c = 'e' ∨ c = 'E') ∧ matchNum .exp cs = true) := by
  rw [matchNum_dot, ← isExp_cons]
  constructor
  · rintro ⟨frac, e, q, (rfl | ⟨f, rfl, hf⟩), he⟩
    · rw [List.nil_append] at q; exact Or.inr (q ▸ he)
    · simp at q; exact Or.inl ⟨q.1, f, e, q.2, hf, he⟩
  · rintro (⟨rfl, f, e, rfl, hf, he⟩ | h)
    · exact ⟨'.' :: f, e, rfl, Or.inr ⟨f, rfl, hf⟩, he⟩
    · exact ⟨[], c :: cs, rfl, Or.inl rfl, h⟩

theorem matchNum_int : ∀ t : Text, matchNum .int t = true ↔ ∃ i r, t = i ++ r ∧ (∀ c ∈ i, isDigit c = true) ∧ IsTail r
  | [] => by
    simp only [matchNum, true_iff]
    exact ⟨[], [], rfl, by simp, [], [], rfl, Or.inl rfl, Or.inl rfl⟩
  | c :: cs => by
    have hnd : IsTail (c :: cs) → isDigit c = false := by
      intro h
      rcases isTail_cons.1 h with ⟨rfl, _⟩ | ⟨rfl | rfl, _⟩ <;> decide
    rw [matchNum]
    split
    · rename_i h
      rw [matchNum_int cs]
      constructor
      · rintro ⟨i, r, rfl, hi, hr⟩
        exact ⟨c :: i, r, rfl, by simpa [h] using hi, hr⟩
      · rintro ⟨i, r, q, hi, hr⟩
        cases i with
        | nil =>
          rw [List.nil_append] at q; subst q
          rw [hnd hr] at h; simp at h
        | cons x i =>
          simp at q
          exact ⟨i, r, q.2, fun y hy => hi y (by simp [hy]), hr⟩
    · rename_i h
      have hkey : (∃ i r, c :: cs = i ++ r ∧ (∀ c ∈ i, isDigit c = true) ∧ IsTail r) ↔ IsTail (c :: cs) := by
        constructor
        · rintro ⟨i, r, q, hi, hr⟩
          cases i with
          | nil => rw [List.nil_append] at q; exact q ▸ hr
          | cons x i => simp at q; exact absurd (q.1 ▸ hi x (by simp)) h
        · intro h; exact ⟨[], _, rfl, by simp, h⟩
      rw [hkey, isTail_cons]
      split
      · rename_i hc
        subst hc
        simp
      · rename_i hc
        simp [hc]

/-- A number without a sign. -/
def IsUnsigned (t : Text) : Prop :=
  ∃ int frac exp, t = int ++ frac ++ exp ∧
    (IsDigits int ∧ frac = [] ∨ (int = [] ∨ IsDigits int) ∧ ∃ f, frac = '.' :: f ∧ IsDigits f) ∧ IsExp exp

theorem matchNum_sign (t : Text) : matchNum .sign t = true ↔ IsUnsigned t := by
  cases t with
  | nil =>
    simp only [matchNum, Bool.false_eq_true, false_iff]
    rintro ⟨i, f, e, q, h, _⟩
    simp at q
    rcases h with ⟨h, _⟩ | ⟨_, f', h, _⟩
    · exact h.1 q.1
    · rw [q.2.1] at h; simp at h
  | cons c cs =>
    rw [matchNum]
    split
    · rename_i h
      rw [matchNum_int]
      constructor
      · rintro ⟨i, r, rfl, hi, frac, e, rfl, hf, he⟩
        refine ⟨c :: i, frac, e, by simp, ?_, he⟩
        have hd : IsDigits (c :: i) := ⟨by simp, by simpa [h] using hi⟩
        rcases hf with rfl | hf
        · exact Or.inl ⟨hd, rfl⟩
        · exact Or.inr ⟨Or.inr hd, hf⟩
      · rintro ⟨i, frac, e, q, hf, he⟩
        cases i with
        | nil =>
          rcases hf with ⟨hd, _⟩ | ⟨_, f, rfl, _⟩
          · exact absurd rfl hd.1
          · simp at q; rw [q.1] at h; exact absurd h (by decide)
        | cons x i =>
          simp at q
          refine ⟨i, frac ++ e, q.2, ?_, frac, e, rfl, ?_, he⟩
          · intro y hy
            rcases hf with ⟨hd, _⟩ | ⟨hd | hd, _⟩
            · exact hd.2 y (by simp [hy])
            · simp at hd
            · exact hd.2 y (by simp [hy])
          · rcases hf with ⟨_, h⟩ | ⟨_, h⟩
            · exact Or.inl h
            · exact Or.inr h
    · rename_i h
      rw [Bool.and_eq_true, matchNum_dot]
      constructor
      · rintro ⟨h1, f, e, rfl, hf, he⟩
        have h1 : c = '.' := by simpa using h1
        subst h1
        exact ⟨[], '.' :: f, e, by simp, Or.inr ⟨Or.inl rfl, f, rfl, hf⟩, he⟩
      · rintro ⟨i, frac, e, q, hf, he⟩
        cases i with
        | nil =>
          rcases hf with ⟨hd, _⟩ | ⟨_, f, rfl, hf⟩
          · exact absurd rfl hd.1
          · simp at q
            exact ⟨by simp [q.1], f, e, q.2, hf, he⟩
        | cons x i =>
          simp at q
          rcases hf with ⟨hd, _⟩ | ⟨hd | hd, _⟩
          · exact absurd (q.1 ▸ isDigits_cons hd) h
          · simp at hd
          · exact absurd (q.1 ▸ isDigits_cons hd) h

theorem isUnsigned_head {c : Char} {cs : Text} (h : IsUnsigned (c :: cs)) : isDigit c = true ∨ c = '.' := by
  rw [← matchNum_sign, matchNum] at h
  split at h
  · exact Or.inl (by assumption)
  · rw [Bool.and_eq_true] at h; exact Or.inr (by simpa using h.1)

theorem matchNum_start (t : Text) : matchNum .start t = true ↔ IsNumber t := by
  have hN : IsNumber t ↔ ∃ s u, t = s ++ u ∧ IsSign s ∧ IsUnsigned u := by
    constructor
    · rintro ⟨s, i, f, e, q, hs, hf, he⟩
      exact ⟨s, i ++ f ++ e, by simp [q], hs, i, f, e, rfl, hf, he⟩
    · rintro ⟨s, u, q, hs, i, f, e, rfl, hf, he⟩
      exact ⟨s, i, f, e, by simp [q], hs, hf, he⟩
  rw [hN]
  cases t with
  | nil =>
    simp only [matchNum, Bool.false_eq_true, false_iff]
    rintro ⟨s, u, q, _, hu⟩
    simp at q
    rw [q.2, ← matchNum_sign] at hu
    simp [matchNum] at hu
  | cons c cs =>
    by_cases h : c = '-' ∨ c = '+'
    · rw [matchNum, if_pos h, matchNum_sign]
      constructor
      · intro hu
        exact ⟨[c], cs, rfl, by rcases h with rfl | rfl <;> simp [IsSign], hu⟩
      · rintro ⟨s, u, q, hs, hu⟩
        rcases hs with rfl | rfl | rfl
        · rw [List.nil_append] at q; subst q
          exfalso
          rcases isUnsigned_head hu with hd | rfl
          · rcases h with rfl | rfl <;> exact absurd hd (by decide)
          · revert h; decide
        · simp at q; rw [q.2]; exact hu
        · simp at q; rw [q.2]; exact hu
    · have e1 : matchNum .start (c :: cs) = matchNum .sign (c :: cs) := by rw [matchNum, if_neg h, matchNum]
      rw [e1, matchNum_sign]
      constructor
      · intro hu; exact ⟨[], _, rfl, Or.inl rfl, hu⟩
      · rintro ⟨s, u, q, hs, hu⟩
        rcases hs with rfl | rfl | rfl
        · rw [List.nil_append] at q; exact q ▸ hu
        · simp at q; exact absurd (Or.inl q.1) h
        · simp at q; exact absurd (Or.inr q.1) h

/-! ## Carriage returns -/

theorem noCRLF_cons {c : Char} {cs : Text} (h : NoCRLF (c :: cs)) : NoCRLF cs := fun ⟨a, b, q⟩ =>
  h ⟨c :: a, b, by rw [← q]; simp⟩

theorem noCRLF_head {cs : Text} (h : NoCRLF ('\r' :: cs)) : cs.head? ≠ some '\n' := by
  intro q
  cases cs with
  | nil => simp at q
  | cons x cs =>
    simp at q; subst q
    exact h ⟨[], cs, rfl⟩

/-- A text that does not end in a carriage return and has none before a newline is kept. -/
theorem normCR_append : ∀ (t : Text) (b : Text), NoCRLF t → t.getLast? ≠ some '\r' → normCR (t ++ b) = t ++ normCR b
  | [], _, _, _ => rfl
  | [c], b, _, hl => by
    have : c ≠ '\r' := by simpa using hl
    rw [List.singleton_append, normCR, if_neg (by simp [this])]; rfl
  | c :: d :: t, b, hn, hl => by
    have ih := normCR_append (d :: t) b (noCRLF_cons hn) (by rw [List.getLast?_cons_cons] at hl; exact hl)
    rw [List.cons_append, normCR, ih, if_neg]
    · rfl
    · rintro ⟨rfl, h⟩
      have := noCRLF_head hn
      simp at h this
      exact this h

/-! ## Quoting -/

theorem csvEscape_cons (c : Char) (t : Text) : csvEscape (c :: t) = (if c = '"' then ['"', '"'] else [c]) ++ csvEscape t := by
  simp [csvEscape]

theorem csvEscape_head (t : Text) : (csvEscape t).head? = t.head? := by
  cases t with
  | nil => rfl
  | cons c t => rw [csvEscape_cons]; split <;> simp_all

theorem noCRLF_of {t : Text} (h : ∀ a b, t ≠ a ++ '\r' :: '\n' :: b) : NoCRLF t := by
  rintro ⟨a, b, q⟩
  exact h a b (by rw [← q]; simp)

theorem noCRLF_push {c : Char} {t : Text} (h : NoCRLF t) (hc : c = '\r' → t.head? ≠ some '\n') : NoCRLF (c :: t) := by
  rintro ⟨a, b, q⟩
  cases a with
  | nil =>
    simp at q
    refine hc q.1.symm ?_
    rw [← q.2]; rfl
  | cons x a =>
    simp at q
    exact h ⟨a, b, by rw [← q.2]; simp⟩

theorem noCRLF_nil : NoCRLF [] := by decide

theorem csvEscape_noCRLF : ∀ t : Text, NoCRLF t → NoCRLF (csvEscape t)
  | [], h => h
  | c :: t, h => by
    have ih := csvEscape_noCRLF t (noCRLF_cons h)
    rw [csvEscape_cons]
    split
    · rename_i hc
      exact noCRLF_push (noCRLF_push ih (by simp)) (by simp)
    · refine noCRLF_push ih fun hc => ?_
      subst hc
      show (csvEscape t).head? ≠ some '\n'
      rw [csvEscape_head]; exact noCRLF_head h

theorem noCRLF_snoc {t : Text} (h : NoCRLF t) {c : Char} (hc : c ≠ '\n') : NoCRLF (t ++ [c]) := by
  induction t with
  | nil => exact noCRLF_push noCRLF_nil (by simp)
  | cons x t ih =>
    refine noCRLF_push (ih (noCRLF_cons h)) fun hx => ?_
    subst hx
    have := noCRLF_head h
    cases t with
    | nil => simpa using hc
    | cons y t => simpa using this

theorem noCRLF_no_cr {t : Text} (h : '\r' ∉ t) : NoCRLF t := by
  induction t with
  | nil => exact noCRLF_nil
  | cons x t ih =>
    simp at h
    exact noCRLF_push (ih h.2) fun hx => absurd hx.symm h.1

/-- The characters of a field that is not quoted. -/
theorem csvNeeds_false {t : Text} (h : csvNeedsQuotes t = false) : ∀ c ∈ t, c ≠ ',' ∧ c ≠ '"' ∧ c ≠ '\r' ∧ c ≠ '\n' := by
  cases t with
  | nil => simp
  | cons x t =>
    intro c hc
    simp only [csvNeedsQuotes, Bool.or_eq_false_iff] at h
    have := h.1.2
    rw [List.any_eq_false] at this
    have := this c hc
    simp at this
    tauto

theorem csvField_normCR (t : Text) (h : NoCRLF t) (b : Text) : normCR (csvField t ++ b) = csvField t ++ normCR b := by
  unfold csvField
  split
  · refine normCR_append _ b ?_ ?_
    · rw [List.cons_append]
      refine noCRLF_push ?_ (by simp)
      exact noCRLF_snoc (csvEscape_noCRLF t h) (by decide)
    · rw [List.getLast?_append]; simp
  · rename_i hq
    have hq := csvNeeds_false (by simpa using hq)
    refine normCR_append _ b h ?_
    intro hl
    exact (hq _ (List.mem_of_getLast? hl)).2.2.1 rfl

/-! ## Reading what was written -/

theorem csvAll_plain (t : Text) (hc : ∀ c ∈ t, c ≠ ',' ∧ c ≠ '"' ∧ c ≠ '\r' ∧ c ≠ '\n') (cur : Text) (fs : List Text) (b : Text) :
    csvAll (.plain cur) fs (t ++ b) = csvAll (.plain (t.reverse ++ cur)) fs b := by
  induction t generalizing cur with
  | nil => rfl
  | cons c t ih =>
    have h := hc c (by simp)
    rw [List.cons_append, csvAll, if_neg h.1, if_neg h.2.2.2, if_neg h.2.1, ih fun x hx => hc x (by simp [hx])]
    simp

theorem csvAll_quoted (t : Text) (cur : Text) (fs : List Text) (b : Text) :
    csvAll (.quoted cur) fs (csvEscape t ++ b) = csvAll (.quoted (t.reverse ++ cur)) fs b := by
  induction t generalizing cur with
  | nil => rfl
  | cons c t ih =>
    rw [csvEscape_cons]
    split
    · rename_i h
      subst h
      rw [List.append_assoc, List.cons_append, List.cons_append, List.nil_append, csvAll, if_pos rfl, csvAll, if_pos rfl, ih]
      simp
    · rename_i h
      rw [List.append_assoc, List.cons_append, List.nil_append, csvAll, if_neg h, ih]
      simp

/-- A field and a comma. -/
theorem csvAll_comma (t : Text) (fs : List Text) (b : Text) :
    csvAll .start fs (csvField t ++ ',' :: b) = csvAll .start (fs ++ [t]) b := by
  unfold csvField
  split
  · rw [List.cons_append, List.cons_append, csvAll, if_pos rfl, List.append_assoc, csvAll_quoted, List.singleton_append, csvAll, if_pos rfl,
      csvAll, if_neg (by decide), if_pos rfl]
    simp
  · rename_i h
    have h := csvNeeds_false (by simpa using h)
    cases t with
    | nil => rw [List.nil_append, csvAll, if_neg (by decide), if_pos rfl]
    | cons c t =>
      have hc := h c (by simp)
      rw [List.cons_append, csvAll, if_neg hc.2.1, if_neg hc.1, if_neg hc.2.2.2,
        csvAll_plain t fun x hx => h x (by simp [hx]), csvAll, if_pos rfl]
      simp

/-- A field and a newline, unless it is an empty line. -/
theorem csvAll_newline (t : Text) (fs : List Text) (b : Text) (hne : fs ≠ [] ∨ t ≠ []) :
    csvAll .start fs (csvField t ++ '\n' :: b) = (csvAll .start [] b).map ((fs ++ [t]) :: ·) := by
  unfold csvField
  split
  · rw [List.cons_append, List.cons_append, csvAll, if_pos rfl, List.append_assoc, csvAll_quoted, List.singleton_append, csvAll, if_pos rfl,
      csvAll, if_neg (by decide), if_neg (by decide), if_pos rfl]
    simp
  · rename_i h
    have h := csvNeeds_false (by simpa using h)
    cases t with
    | nil =>
      have : fs ≠ [] := by simpa using hne
      rw [List.nil_append, csvAll, if_neg (by decide), if_neg (by decide), if_pos rfl, if_neg this]
    | cons c t =>
      have hc := h c (by simp)
      rw [List.cons_append, csvAll, if_neg hc.2.1, if_neg hc.1, if_neg hc.2.2.2,
        csvAll_plain t fun x hx => h x (by simp [hx]), csvAll, if_neg (by decide), if_pos rfl]
      simp

theorem csvAll_record (r : List Text) (hne : r ≠ []) (fs : List Text) (b : Text) (h : fs = [] → r ≠ [[]]) :
    csvAll .start fs (csvRecordText r ++ b) = (csvAll .start [] b).map ((fs ++ r) :: ·) := by
  induction r generalizing fs with
  | nil => exact absurd rfl hne
  | cons t r ih =>
    cases r with
    | nil =>
      rw [csvRecordText, List.map_cons, List.map_nil, joinWith_one, List.append_assoc, List.singleton_append, csvAll_newline]
      by_cases hf : fs = []
      · right; intro ht; exact h hf (by rw [ht])
      · exact Or.inl hf
    | cons u r =>
      have e : csvRecordText (t :: u :: r) ++ b = csvField t ++ ',' :: (csvRecordText (u :: r) ++ b) := by
        rw [csvRecordText, csvRecordText, List.map_cons, List.map_cons, joinWith_cons]
        simp
      rw [e, csvAll_comma, ih (by simp) _ (by simp)]
      simp

theorem csvRecord_normCR (r : List Text) (h : ∀ t ∈ r, NoCRLF t) (b : Text) : normCR (csvRecordText r ++ b) = csvRecordText r ++ normCR b := by
  have hnl : ∀ (c : Char) (b : Text), c ≠ '\r' → normCR (c :: b) = c :: normCR b := by
    intro c b hc
    rw [normCR, if_neg (by simp [hc])]
  induction r with
  | nil => simp [csvRecordText, joinWith, hnl]
  | cons t r ih =>
    cases r with
    | nil =>
      rw [csvRecordText, List.map_cons, List.map_nil, joinWith_one, List.append_assoc, List.append_assoc, csvField_normCR t (h t (by simp)),
        List.singleton_append, hnl _ _ (by decide), List.singleton_append]
    | cons u r =>
      have e : ∀ b, csvRecordText (t :: u :: r) ++ b = csvField t ++ ',' :: (csvRecordText (u :: r) ++ b) := by
        intro b
        rw [csvRecordText, csvRecordText, List.map_cons, List.map_cons, joinWith_cons]
        simp
      rw [e, e, csvField_normCR t (h t (by simp)), hnl _ _ (by decide), ih fun x hx => h x (by simp [hx])]

theorem csvRead_write (recs : List (List Text)) (h : ∀ r ∈ recs, r ≠ [] ∧ r ≠ [[]] ∧ ∀ t ∈ r, NoCRLF t) : csvRead (csvWrite recs) = Res.ok recs := by
  have h1 : normCR (csvWrite recs) = csvWrite recs := by
    induction recs with
    | nil => rfl
    | cons r recs ih =>
      have e : csvWrite (r :: recs) = csvRecordText r ++ csvWrite recs := by simp [csvWrite]
      rw [e, csvRecord_normCR r (h r (by simp)).2.2, ih fun x hx => h x (by simp [hx])]
  rw [csvRead, h1]
  clear h1
  induction recs with
  | nil => rfl
  | cons r recs ih =>
    have e : csvWrite (r :: recs) = csvRecordText r ++ csvWrite recs := by simp [csvWrite]
    have hr := h r (by simp)
    rw [e, csvAll_record r hr.1 [] _ fun _ => hr.2.1, ih fun x hx => h x (by simp [hx])]
    rfl

end Golearn
