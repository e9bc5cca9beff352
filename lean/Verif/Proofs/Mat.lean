import Verif.Spec.Mat
import Verif.Proofs.Grid
import Verif.Proofs.Attr
import Verif.Proofs.ClassAttrs
import Verif.Props.C27

/-! # Lemmas about instances over a matrix -/

namespace Golearn

theorem toString_nat_inj {m n : Nat} (h : toString m = toString n) : m = n := by
  have h' := congrArg String.toList h
  simp only [Nat.toString_eq_ofList_toDigits, String.toList_ofList] at h'
  have := congrArg (fun l => Nat.ofDigitChars 10 l 0) h'
  simpa using this

namespace MatInst

theorem find_spec (a : Attr) (l : List Attr) (k : Nat) :
    (∀ i b, find a l k = some (i, b) → k ≤ i ∧ l[i - k]? = some b ∧ b.equals a = true) ∧
    (find a l k = none ↔ ∀ b ∈ l, b.equals a = false) := by
  induction l generalizing k with
  | nil => exact ⟨by simp [find], by simp [find]⟩
  | cons c cs ih =>
    unfold find
    split
    · rename_i h
      refine ⟨?_, by simp [h]⟩
      intro i b e
      simp only [Option.some.injEq, Prod.mk.injEq] at e
      obtain ⟨rfl, rfl⟩ := e
      simp [h]
    · rename_i h
      obtain ⟨h1, h2⟩ := ih (k + 1)
      refine ⟨?_, ?_⟩
      · intro i b e
        obtain ⟨e1, e2, e3⟩ := h1 i b e
        refine ⟨by omega, ?_, e3⟩
        rw [show i - k = (i - (k + 1)) + 1 by omega, List.getElem?_cons_succ]
        exact e2
      · rw [h2]
        simp [h]

variable (fresh : Nat → Nat) (rows cols : Nat) (data : List (List U64))

theorem new_attr (i : Nat) (hi : i < cols) : (new fresh rows cols data).attributes[i]? = some ⟨fresh i, .float (toString i) 2⟩ := by
  simp [new, hi]

theorem equals_new (i : Nat) (b : Attr) : (⟨fresh i, .float (toString i) 2⟩ : Attr).equals b = true ↔ ∃ p, b.body = .float (toString i) p := by
  obtain ⟨q, x⟩ := b
  cases x with
  | float n p =>
    simp only [Attr.equals, bne_iff_ne, ne_eq, ite_eq_right_iff, Bool.false_eq_true, imp_false, Decidable.not_not, AttrBody.float.injEq]
    constructor
    · intro h; exact ⟨p, h.symm, rfl⟩
    · rintro ⟨_, h, _⟩; exact h.symm
  | cat n v => simp [Attr.equals]
  | bin n => simp [Attr.equals]

theorem find_new (b : Attr) (i : Nat) (hi : i < cols) (p : Int) (hb : b.body = .float (toString i) p) :
    find b (new fresh rows cols data).attributes 0 = some (i, ⟨fresh i, .float (toString i) 2⟩) := by
  obtain ⟨h1, h2⟩ := find_spec b (new fresh rows cols data).attributes 0
  cases hf : find b (new fresh rows cols data).attributes 0 with
  | none =>
    exfalso
    have := (h2.1 hf) _ (List.mem_of_getElem? (new_attr fresh rows cols data i hi))
    rw [(equals_new fresh i b).2 ⟨p, hb⟩] at this
    cases this
  | some q =>
    obtain ⟨j, c⟩ := q
    obtain ⟨_, e2, e3⟩ := h1 j c hf
    rw [Nat.sub_zero] at e2
    have hj : j < cols := by
      have := (List.getElem?_eq_some_iff.1 e2).1
      simpa [new] using this
    rw [new_attr fresh rows cols data j hj, Option.some.injEq] at e2
    subst e2
    obtain ⟨p', hp'⟩ := (equals_new fresh j b).1 e3
    rw [hb] at hp'
    simp only [AttrBody.float.injEq] at hp'
    have := toString_nat_inj hp'.1
    subst this
    rfl

theorem find_new_none (b : Attr) (h : ∀ i, i < cols → ∀ p, b.body ≠ .float (toString i) p) :
    find b (new fresh rows cols data).attributes 0 = none := by
  rw [(find_spec b _ 0).2]
  intro c hc
  simp only [new, List.mem_map, List.mem_range] at hc
  obtain ⟨i, hi, rfl⟩ := hc
  cases he : Attr.equals ⟨fresh i, .float (toString i) 2⟩ b with
  | false => rfl
  | true =>
    obtain ⟨p, hp⟩ := (equals_new fresh i b).1 he
    exact absurd hp (h i hi p)

theorem designated_add (ops : List MatOp) (b x : Attr) :
    matDesignated (ops ++ [.addClass b]) x ↔ x.equals b = true ∨ matDesignated ops x := by
  constructor
  · rintro ⟨pre, c, post, e, h1, h2⟩
    rcases List.eq_nil_or_concat post with rfl | ⟨q, o, rfl⟩
    · rw [List.append_singleton_inj] at e
      simp only [MatOp.addClass.injEq] at e
      rw [e.2]
      exact Or.inl h1
    · right
      rw [List.concat_eq_append, ← List.cons_append, ← List.append_assoc, List.append_singleton_inj] at e
      exact ⟨pre, c, q, e.1, h1, fun d hd => h2 d (by simp [hd])⟩
  · rintro (h | ⟨pre, c, post, rfl, h1, h2⟩)
    · exact ⟨ops, b, [], rfl, h, by simp⟩
    · refine ⟨pre, c, post ++ [.addClass b], by simp, h1, ?_⟩
      intro d hd
      simp only [List.mem_append, List.mem_singleton, reduceCtorEq, or_false] at hd
      exact h2 d hd

theorem designated_remove (ops : List MatOp) (b x : Attr) :
    matDesignated (ops ++ [.removeClass b]) x ↔ x.equals b = false ∧ matDesignated ops x := by
  constructor
  · rintro ⟨pre, c, post, e, h1, h2⟩
    rcases List.eq_nil_or_concat post with rfl | ⟨q, o, rfl⟩
    · rw [List.append_singleton_inj] at e
      cases e.2
    · rw [List.concat_eq_append, ← List.cons_append, ← List.append_assoc, List.append_singleton_inj] at e
      refine ⟨h2 b (by simp [← e.2]), pre, c, q, e.1, h1, fun d hd => h2 d (by simp [hd])⟩
  · rintro ⟨h, pre, c, post, rfl, h1, h2⟩
    refine ⟨pre, c, post ++ [.removeClass b], by simp, h1, ?_⟩
    intro d hd
    simp only [List.mem_append, List.mem_singleton, MatOp.removeClass.injEq] at hd
    rcases hd with hd | rfl
    · exact h2 d hd
    · exact h

/-- What is known of the class attributes after any calls. -/
theorem class_inv (ops : List MatOp) :
    let m := ops.foldl MatOp.apply (new fresh rows cols data)
    m.attributes = (new fresh rows cols data).attributes ∧ (m.classAttrs.map Prod.fst).Nodup ∧ (∀ i ∈ m.classAttrs.map Prod.fst, i < cols) ∧
    ∀ i, i < cols → (m.classAttrs.get? i = some true ↔ matDesignated ops ⟨fresh i, .float (toString i) 2⟩) := by
  induction ops using List.reverseRecOn with
  | nil =>
    refine ⟨rfl, List.nodup_nil, by simp [new], ?_⟩
    intro i _
    constructor
    · intro h; simp [new, GoMap.get?] at h
    · rintro ⟨pre, b, post, e, _⟩
      simp at e
  | append_singleton ops op ih =>
    intro m
    obtain ⟨h1, h2, h3, h4⟩ := ih
    have hm : m = MatOp.apply (ops.foldl MatOp.apply (new fresh rows cols data)) op := by simp [m, List.foldl_append]
    rw [hm]
    generalize ops.foldl MatOp.apply (new fresh rows cols data) = m0 at *
    have key : ∀ b : Attr, (∃ i p, i < cols ∧ b.body = .float (toString i) p ∧
        m0.getAttribute b = Res.ok ⟨some 0, i, ⟨fresh i, .float (toString i) 2⟩⟩) ∨
        (m0.getAttribute b = Res.err ∧ ∀ i, i < cols → (⟨fresh i, .float (toString i) 2⟩ : Attr).equals b = false) := by
      intro b
      by_cases h : ∃ i p, i < cols ∧ b.body = .float (toString i) p
      · obtain ⟨i, p, hi, hb⟩ := h
        refine Or.inl ⟨i, p, hi, hb, ?_⟩
        unfold getAttribute
        rw [h1, find_new fresh rows cols data b i hi p hb]
      · right
        push Not at h
        constructor
        · unfold getAttribute
          rw [h1, find_new_none fresh rows cols data b fun i hi p => h i p hi]
        · intro i hi
          cases he : Attr.equals ⟨fresh i, .float (toString i) 2⟩ b with
          | false => rfl
          | true =>
            obtain ⟨p, hp⟩ := (equals_new fresh i b).1 he
            exact absurd hp (h i p hi)
    have hset : ∀ (i : Nat) (v : Bool), i < cols → ((m0.classAttrs.set i v).map Prod.fst).Nodup ∧
        ∀ j ∈ (m0.classAttrs.set i v).map Prod.fst, j < cols := by
      intro i v hi
      refine ⟨GoMap.nodup_set _ _ _ h2, ?_⟩
      intro j hj
      rcases (GoMap.mem_keys_set _ _ _ _).1 hj with rfl | hj
      · exact hi
      · exact h3 j hj
    cases op with
    | addClass b =>
      rcases key b with ⟨i, p, hi, hb, hg⟩ | ⟨hg, hne⟩
      · have : MatOp.apply m0 (.addClass b) = { m0 with classAttrs := m0.classAttrs.set i true } := by
          simp only [MatOp.apply, addClassAttribute, hg, Res.map, Res.bind]
        rw [this]
        refine ⟨h1, (hset i true hi).1, (hset i true hi).2, ?_⟩
        intro j hj
        rw [designated_add, ← h4 j hj]
        simp only [GoMap.get?_set]
        by_cases hij : i = j
        · subst hij
          rw [if_pos rfl]
          exact ⟨fun _ => Or.inl ((equals_new fresh i b).2 ⟨p, hb⟩), fun _ => rfl⟩
        · rw [if_neg hij]
          constructor
          · exact Or.inr
          · rintro (h | h)
            · obtain ⟨q, hq⟩ := (equals_new fresh j b).1 h
              rw [hb] at hq
              simp only [AttrBody.float.injEq] at hq
              exact absurd (toString_nat_inj hq.1) hij
            · exact h
      · have : MatOp.apply m0 (.addClass b) = m0 := by simp only [MatOp.apply, addClassAttribute, hg, Res.map, Res.bind]
        rw [this]
        refine ⟨h1, h2, h3, ?_⟩
        intro j hj
        rw [designated_add, ← h4 j hj]
        rw [hne j hj]
        exact ⟨Or.inr, fun h => h.resolve_left (by decide)⟩
    | removeClass b =>
      rcases key b with ⟨i, p, hi, hb, hg⟩ | ⟨hg, hne⟩
      · have : MatOp.apply m0 (.removeClass b) = { m0 with classAttrs := m0.classAttrs.set i false } := by
          simp only [MatOp.apply, removeClassAttribute, hg, Res.map, Res.bind]
        rw [this]
        refine ⟨h1, (hset i false hi).1, (hset i false hi).2, ?_⟩
        intro j hj
        rw [designated_remove, ← h4 j hj]
        simp only [GoMap.get?_set]
        by_cases hij : i = j
        · subst hij
          rw [if_pos rfl, (equals_new fresh i b).2 ⟨p, hb⟩]
          exact ⟨fun h => (by cases h), fun h => (by cases h.1)⟩
        · rw [if_neg hij]
          constructor
          · intro h
            refine ⟨?_, h⟩
            cases he : Attr.equals ⟨fresh j, .float (toString j) 2⟩ b with
            | false => rfl
            | true =>
              obtain ⟨q, hq⟩ := (equals_new fresh j b).1 he
              rw [hb] at hq
              simp only [AttrBody.float.injEq] at hq
              exact absurd (toString_nat_inj hq.1) hij
          · exact And.right
      · have : MatOp.apply m0 (.removeClass b) = m0 := by simp only [MatOp.apply, removeClassAttribute, hg, Res.map, Res.bind]
        rw [this]
        refine ⟨h1, h2, h3, ?_⟩
        intro j hj
        rw [designated_remove, ← h4 j hj]
        rw [hne j hj]
        exact ⟨fun h => ⟨rfl, h⟩, And.right⟩

end MatInst

end Golearn
