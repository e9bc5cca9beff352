import Verif.Proofs.SaveGrid

/-! # Texts made of lines -/

namespace Golearn

/-- The text with these lines. -/
def linesText (ls : List String) : String := String.join (ls.map (· ++ "\n"))

/-- No line break in a text. -/
def OneLine (s : String) : Prop := '\n' ∉ s.toList

theorem char_split {q : Char} {a b x y : List Char} (ha : q ∉ a) (hb : q ∉ b) (h : a ++ q :: x = b ++ q :: y) : a = b ∧ x = y := by
  induction a generalizing b with
  | nil =>
    cases b with
    | nil => exact ⟨rfl, by simpa using h⟩
    | cons c cs =>
      simp only [List.nil_append, List.cons_append, List.cons.injEq] at h
      exact absurd h.1 (by rintro rfl; simp at hb)
  | cons c cs ih =>
    cases b with
    | nil =>
      simp only [List.nil_append, List.cons_append, List.cons.injEq] at h
      exact absurd h.1 (by rintro rfl; simp at ha)
    | cons d ds =>
      simp only [List.cons_append, List.cons.injEq] at h
      obtain ⟨rfl, h⟩ := h
      obtain ⟨h1, h2⟩ := ih (fun m => ha (List.mem_cons_of_mem _ m)) (fun m => hb (List.mem_cons_of_mem _ m)) h
      exact ⟨by rw [h1], h2⟩

theorem linesText_nil : linesText [] = "" := rfl

theorem linesText_cons (l : String) (ls : List String) : linesText (l :: ls) = l ++ "\n" ++ linesText ls := by
  unfold linesText
  rw [List.map_cons, String.join_cons]

theorem linesText_append (a b : List String) : linesText (a ++ b) = linesText a ++ linesText b := by
  induction a with
  | nil => rw [List.nil_append, linesText_nil, String.empty_append]
  | cons l ls ih => rw [List.cons_append, linesText_cons, linesText_cons, ih, String.append_assoc, String.append_assoc, String.append_assoc]

theorem linesText_inj {a b : List String} (ha : ∀ l ∈ a, OneLine l) (hb : ∀ l ∈ b, OneLine l) (h : linesText a = linesText b) : a = b := by
  have nl : ("\n" : String).toList = ['\n'] := by decide
  have ne : ("" : String).toList = [] := by decide
  induction a generalizing b with
  | nil =>
    cases b with
    | nil => rfl
    | cons m ms =>
      rw [linesText_cons, linesText_nil] at h
      have := congrArg String.toList h
      rw [String.toList_append, String.toList_append, nl, ne] at this
      simp at this
  | cons l ls ih =>
    cases b with
    | nil =>
      rw [linesText_cons, linesText_nil] at h
      have := congrArg String.toList h
      rw [String.toList_append, String.toList_append, nl, ne] at this
      simp at this
    | cons m ms =>
      rw [linesText_cons, linesText_cons] at h
      have := congrArg String.toList h
      rw [String.toList_append, String.toList_append, String.toList_append, String.toList_append, nl, List.append_assoc, List.append_assoc] at this
      obtain ⟨h1, h2⟩ := char_split (ha l List.mem_cons_self) (hb m List.mem_cons_self) this
      rw [String.ext_iff.2 h1, ih (fun x hx => ha x (List.mem_cons_of_mem _ hx)) (fun x hx => hb x (List.mem_cons_of_mem _ hx)) (String.ext_iff.2 h2)]

theorem str_cancel {s a b : String} (h : s ++ a = s ++ b) : a = b := by
  have := congrArg String.toList h
  rw [String.toList_append, String.toList_append, List.append_cancel_left_eq] at this
  exact String.ext_iff.2 this

theorem oneLine_append {a b : String} (ha : OneLine a) (hb : OneLine b) : OneLine (a ++ b) := by
  unfold OneLine at *
  rw [String.toList_append, List.mem_append]
  exact fun h => h.elim ha hb

theorem repr_digits {n : Nat} {q : Char} (hq : q.isDigit = false) : q ∉ (Nat.repr n).toList := by
  rw [Nat.toList_repr]
  intro h
  have := Nat.isDigit_of_mem_toDigits (by decide) (by decide) h
  rw [hq] at this
  cases this

theorem oneLine_repr (n : Nat) : OneLine (Nat.repr n) := repr_digits (by decide)

/-- The text of a whole number, as `strconv.FormatInt` gives it. -/
theorem int_text_inj {a b : Int} (h : toString a = toString b) : a = b := by
  have key : ∀ z : Int, (toString z).toList = match z with
      | .ofNat n => (Nat.repr n).toList
      | .negSucc n => '-' :: (Nat.repr (n + 1)).toList := by
    intro z
    cases z with
    | ofNat n => rfl
    | negSucc n =>
      show ("-" ++ Nat.repr (n + 1)).toList = _
      rw [String.toList_append]
      rfl
  have h' := congrArg String.toList h
  rw [key, key] at h'
  have hm : ∀ n, '-' ∉ (Nat.repr n).toList := fun n => repr_digits (by decide)
  cases a with
  | ofNat m =>
    cases b with
    | ofNat n => rw [repr_inj (String.ext_iff.2 h')]
    | negSucc n =>
      simp only at h'
      exact absurd (by rw [h']; exact List.mem_cons_self) (hm m)
  | negSucc m =>
    cases b with
    | ofNat n =>
      simp only at h'
      exact absurd (by rw [← h']; exact List.mem_cons_self) (hm n)
    | negSucc n =>
      simp only [List.cons.injEq, true_and] at h'
      have := repr_inj (String.ext_iff.2 h')
      rw [Nat.succ.inj this]

theorem oneLine_int (z : Int) : OneLine (toString z) := by
  cases z with
  | ofNat n => exact oneLine_repr n
  | negSucc n =>
    show OneLine ("-" ++ Nat.repr (n + 1))
    exact oneLine_append (by unfold OneLine; decide) (oneLine_repr _)

end Golearn
