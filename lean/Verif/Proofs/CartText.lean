import Verif.Proofs.Lines
import Verif.Model.CartText
import Verif.Spec.CartText

/-! # A printed CART tree can be read in only one way -/

namespace Golearn

variable {K Y : Type}

/-- The line of a test. -/
def testLine (sp : String) (f : Nat) (s : String) : String := sp ++ ("Feature " ++ (Nat.repr f ++ (" < " ++ s)))
/-- The line of a prediction. -/
def predLine (sp : String) (s : String) : String := sp ++ "  " ++ ("PREDICT    " ++ s)

/-- The lines of a printed tree. -/
def cartLines (num : K → String) (lbl : Y → String) : CNode K Y → String → List String
  | .nil, _ => []
  | .node l r t f a b _, sp =>
    testLine sp f (num t) ::
      ((if l.isNil then [sp ++ "---> True", predLine sp (lbl a)] else []) ++
       (if r.isNil then [sp ++ "---> False", predLine sp (lbl b)] else []) ++
       (if l.isNil then [] else (sp ++ "---> True") :: cartLines num lbl l (sp ++ "  ")) ++
       (if r.isNil then [] else (sp ++ "---> False") :: cartLines num lbl r (sp ++ "  ")))

theorem step_spaces {sp : String} (h : "  " ++ sp = sp ++ "  ") : "  " ++ (sp ++ "  ") = sp ++ "  " ++ "  " := by
  rw [← String.append_assoc, h]

theorem cartText_lines (num : K → String) (lbl : Y → String) (t : CNode K Y) : ∀ sp : String, "  " ++ sp = sp ++ "  " →
    cartText num lbl t sp = linesText (cartLines num lbl t sp) := by
  induction t with
  | nil => intro sp _; rfl
  | node l r t f a b n ihl ihr =>
    intro sp hsp
    have hl := ihl _ (step_spaces hsp)
    have hr := ihr _ (step_spaces hsp)
    rw [cartText, cartLines, linesText_cons, linesText_append, linesText_append, linesText_append, hl, hr]
    have side : ∀ (w : String) (y : Y), sideText lbl sp w y = linesText [sp ++ w, predLine sp (lbl y)] := by
      intro w y
      unfold sideText predLine
      rw [linesText_cons, linesText_cons, linesText_nil, String.append_empty, hsp]
      simp only [String.append_assoc]
    rw [side, side]
    cases l.isNil <;> cases r.isNil <;> simp only [if_true, if_false, Bool.false_eq_true, linesText_nil, linesText_cons, String.append_empty, String.empty_append, testLine, String.append_assoc]

theorem cartLines_oneLine (num : K → String) (lbl : Y → String) (hn : ∀ x, OneLine (num x)) (hl : ∀ y, OneLine (lbl y)) (t : CNode K Y) :
    ∀ sp : String, OneLine sp → ∀ l ∈ cartLines num lbl t sp, OneLine l := by
  have lit : ∀ s : String, s.toList.contains '\n' = false → OneLine s := by
    intro s h hm
    rw [List.contains_iff_mem.2 hm] at h
    cases h
  induction t with
  | nil => intro sp _ l hm; cases hm
  | node l r t f a b n ihl ihr =>
    intro sp hsp
    have h2 : OneLine (sp ++ "  ") := oneLine_append hsp (lit _ (by decide))
    have hp : ∀ y, OneLine (predLine sp (lbl y)) := fun y => oneLine_append h2 (oneLine_append (lit _ (by decide)) (hl y))
    have hT : OneLine (sp ++ "---> True") := oneLine_append hsp (lit _ (by decide))
    have hF : OneLine (sp ++ "---> False") := oneLine_append hsp (lit _ (by decide))
    have h0 : OneLine (testLine sp f (num t)) :=
      oneLine_append hsp (oneLine_append (lit _ (by decide)) (oneLine_append (oneLine_repr f) (oneLine_append (lit _ (by decide)) (hn t))))
    intro x hx
    rw [cartLines, List.mem_cons] at hx
    rcases hx with rfl | hx
    · exact h0
    · simp only [List.mem_append] at hx
      rcases hx with ((hx | hx) | hx) | hx
      · split at hx
        · simp only [List.mem_cons, List.not_mem_nil, or_false] at hx
          rcases hx with rfl | rfl
          · exact hT
          · exact hp a
        · cases hx
      · split at hx
        · simp only [List.mem_cons, List.not_mem_nil, or_false] at hx
          rcases hx with rfl | rfl
          · exact hF
          · exact hp b
        · cases hx
      · split at hx
        · cases hx
        · rcases List.mem_cons.1 hx with rfl | hx
          · exact hT
          · exact ihl _ h2 x hx
      · split at hx
        · cases hx
        · rcases List.mem_cons.1 hx with rfl | hx
          · exact hF
          · exact ihr _ h2 x hx

theorem testLine_inj {sp : String} {f g : Nat} {s t : String} (h : testLine sp f s = testLine sp g t) : f = g ∧ s = t := by
  have h := congrArg String.toList (str_cancel (str_cancel h))
  have e : (" < " : String).toList = [' ', '<', ' '] := by decide
  simp only [String.toList_append, e] at h
  obtain ⟨h1, h2⟩ := char_split (q := ' ') (x := '<' :: ' ' :: s.toList) (y := '<' :: ' ' :: t.toList) (repr_digits (by decide))
    (repr_digits (by decide)) (by simpa using h)
  refine ⟨repr_inj (String.ext_iff.2 h1), String.ext_iff.2 ?_⟩
  simpa using h2

theorem predLine_inj {sp s t : String} (h : predLine sp s = predLine sp t) : s = t := str_cancel (str_cancel h)

theorem pred_ne_test (sp s t : String) (f : Nat) : predLine sp s ≠ testLine (sp ++ "  ") f t := by
  intro h
  have h := congrArg String.toList (str_cancel h)
  have e1 : ("PREDICT    " : String).toList = 'P' :: "REDICT    ".toList := by decide
  have e2 : ("Feature " : String).toList = 'F' :: "eature ".toList := by decide
  rw [String.toList_append, String.toList_append, e1, e2] at h
  simp at h

theorem arrows_ne (sp : String) : sp ++ "---> True" ≠ sp ++ "---> False" := by
  intro h
  exact absurd (str_cancel h) (by decide)

theorem cartLines_head (num : K → String) (lbl : Y → String) (t : CNode K Y) (h : t.isNil = false) (sp : String) :
    ∃ f s rest, cartLines num lbl t sp = testLine sp f s :: rest := by
  cases t with
  | nil => cases h
  | node l r t f a b n => exact ⟨_, _, _, rfl⟩

/-- The lines of a tree determine its tests and predictions, and where they end. -/
theorem cartLines_inj (num : K → String) (lbl : Y → String) (t : CNode K Y) : ∀ (u : CNode K Y) (sp : String) (x y : List String),
    t.isNil = false → u.isNil = false → cartLines num lbl t sp ++ x = cartLines num lbl u sp ++ y →
    (∀ d d', cartView num lbl t d = cartView num lbl u d') ∧ x = y := by
  induction t with
  | nil => intro u sp x y h; cases h
  | node l r t f a b n ihl ihr =>
    intro u sp x y _ hu h
    cases u with
    | nil => cases hu
    | node l' r' t' f' a' b' n' =>
      rw [cartLines, cartLines, List.cons_append, List.cons_append, List.cons.injEq] at h
      obtain ⟨h0, h⟩ := h
      obtain ⟨hf, ht⟩ := testLine_inj h0
      have hT := arrows_ne sp
      have hF := (arrows_ne sp).symm
      have nilv : ∀ (c c' : CNode K Y) (y y' : Y), c.isNil = true → c'.isNil = true → lbl y = lbl y' →
          cartView num lbl c (lbl y) = cartView num lbl c' (lbl y') := by
        intro c c' y y' h1 h2 e
        cases c with
        | nil =>
          cases c' with
          | nil => rw [e]
          | node => cases h2
        | node => cases h1
      have goal : cartView num lbl l (lbl a) = cartView num lbl l' (lbl a') ∧ cartView num lbl r (lbl b) = cartView num lbl r' (lbl b') ∧ x = y := by
        cases hl : l.isNil <;> cases hr : r.isNil <;> cases hl' : l'.isNil <;> cases hr' : r'.isNil <;>
          simp only [hl, hr, hl', hr', if_true, if_false, Bool.false_eq_true, List.nil_append, List.append_nil, List.cons_append, List.append_assoc,
            List.cons.injEq, hT, hF, false_and, true_and] at h
        -- both sides continue in both trees
        · obtain ⟨v1, h⟩ := ihl l' _ _ _ hl hl' h
          simp only [List.cons.injEq, true_and] at h
          obtain ⟨v2, h⟩ := ihr r' _ _ _ hr hr' h
          exact ⟨v1 _ _, v2 _ _, h⟩
        · obtain ⟨g, s, rest, e⟩ := cartLines_head num lbl l hl (sp ++ "  ")
          rw [e] at h
          simp only [List.cons_append, List.cons.injEq] at h
          exact absurd h.1.symm (pred_ne_test _ _ _ _)
        · obtain ⟨g, s, rest, e⟩ := cartLines_head num lbl l hl (sp ++ "  ")
          rw [e] at h
          simp only [List.cons_append, List.cons.injEq] at h
          exact absurd h.1.symm (pred_ne_test _ _ _ _)
        · obtain ⟨h1, h⟩ := h
          obtain ⟨v1, h⟩ := ihl l' _ _ _ hl hl' h
          exact ⟨v1 _ _, nilv _ _ _ _ hr hr' (predLine_inj h1), h⟩
        · obtain ⟨g, s, rest, e⟩ := cartLines_head num lbl l' hl' (sp ++ "  ")
          rw [e] at h
          simp only [List.cons_append, List.cons.injEq] at h
          exact absurd h.1 (pred_ne_test _ _ _ _)
        · obtain ⟨h1, h⟩ := h
          obtain ⟨v1, h⟩ := ihr r' _ _ _ hr hr' h
          exact ⟨nilv _ _ _ _ hl hl' (predLine_inj h1), v1 _ _, h⟩
        · obtain ⟨g, s, rest, e⟩ := cartLines_head num lbl r hr (sp ++ "  ")
          rw [e] at h
          simp only [List.cons_append, List.cons.injEq] at h
          exact absurd h.2.1.symm (pred_ne_test _ _ _ _)
        · obtain ⟨g, s, rest, e⟩ := cartLines_head num lbl l' hl' (sp ++ "  ")
          rw [e] at h
          simp only [List.cons_append, List.cons.injEq] at h
          exact absurd h.1 (pred_ne_test _ _ _ _)
        · obtain ⟨g, s, rest, e⟩ := cartLines_head num lbl r' hr' (sp ++ "  ")
          rw [e] at h
          simp only [List.cons_append, List.cons.injEq] at h
          exact absurd h.2.1 (pred_ne_test _ _ _ _)
        · obtain ⟨h1, h2, h3⟩ := h
          exact ⟨nilv _ _ _ _ hl hl' (predLine_inj h1), nilv _ _ _ _ hr hr' (predLine_inj h2), h3⟩
      obtain ⟨g1, g2, g3⟩ := goal
      refine ⟨?_, g3⟩
      intro d d'
      rw [cartView, cartView, hf, ht, g1, g2]

end Golearn
