import Verif.Proofs.View
import Verif.Proofs.Instances

/-! # Lazily filtered instances -/

namespace Golearn

/-- `a` is an attribute of the source that the filter does not convert. -/
def PassedThrough (src : Grid) (f : Filter) (a : Attr) : Prop :=
  a ∈ src.allAttributes ∧ ∀ p ∈ f.attrs, p.old ≠ a

/-- What a filter must satisfy to be used on a source of `n` rows: it converts attributes of the
source, the attributes after filtering can be told apart, and every value can be converted. -/
structure FilterFits (src : Grid) (f : Filter) (n : Nat) : Prop where
  known : ∀ p ∈ f.attrs, p.old ∈ src.allAttributes
  newDistinct : f.attrs.Pairwise (fun p q => p.new.equals q.new = false)
  oldNew : ∀ p ∈ f.attrs, ∀ q ∈ f.attrs, p.old.equals q.new = true → p = q
  newPassed : ∀ p ∈ f.attrs, ∀ a, PassedThrough src f a → p.new.equals a = false
  total : ∀ p ∈ f.attrs, ∀ r, r < n → ∃ v, f.transform p.old p.new (src.cell p.old r) = Res.ok v

theorem flag_set (m : GoMap Attr Bool) (a b : Attr) (v : Bool) :
    Grid.flag (m.set a v) b = if a = b then v else Grid.flag m b := by
  unfold Grid.flag
  rw [GoMap.get?_set]
  split <;> rfl

theorem flag_foldl_set {β : Type} (l : List β) (key : β → Attr) (v : Bool) (m : GoMap Attr Bool) (a : Attr) :
    Grid.flag (l.foldl (fun m b => m.set (key b) v) m) a =
      if a ∈ l.map key then v else Grid.flag m a := by
  induction l generalizing m with
  | nil => simp
  | cons b bs ih =>
    rw [List.foldl_cons, ih, flag_set]
    by_cases h1 : a ∈ bs.map key
    · simp [h1]
    · by_cases h2 : key b = a
      · simp [h2]
      · have h2' : ¬ a = key b := fun e => h2 e.symm
        simp [h1, h2, h2']

theorem flag_unfiltered (src : Grid) (f : Filter) (a : Attr) :
    Grid.flag (Grid.unfilteredMap src f) a = true ↔ PassedThrough src f a := by
  unfold Grid.unfilteredMap PassedThrough
  rw [flag_foldl_set f.attrs FAttr.old false]
  have h2 := flag_foldl_set src.allAttributes id true [] a
  simp only [id] at h2
  rw [h2, List.map_id]
  simp only [Grid.flag, GoMap.get?, Option.getD_none, List.mem_map, not_exists, not_and]
  by_cases h : ∃ x, x ∈ f.attrs ∧ x.old = a
  · rw [if_pos h]
    obtain ⟨x, h1, h2⟩ := h
    simp only [Bool.false_eq_true, false_iff, not_and]
    intro _ h3
    exact h3 x h1 h2
  · rw [if_neg h]
    by_cases h3 : a ∈ src.allAttributes
    · simp only [h3, if_true, true_and, true_iff]
      intro p hp e
      exact h ⟨p, hp, e⟩
    · simp [h3]

theorem newFiltered_shape (src : Grid) (f : Filter) :
    ∃ cls, Grid.newFiltered src f = .filt f src cls (Grid.unfilteredMap src f) := by
  unfold Grid.newFiltered
  suffices ∀ (l : List Attr) (cls : GoMap Attr Bool), ∃ cls',
      l.foldl (fun g a => match g.addClassAttribute a with | .ok g' => g' | _ => g)
        (Grid.filt f src cls (Grid.unfilteredMap src f)) = .filt f src cls' (Grid.unfilteredMap src f) from
    this _ _
  intro l
  induction l with
  | nil => intro cls; exact ⟨cls, rfl⟩
  | cons a as ih =>
    intro cls
    rw [List.foldl_cons]
    simp only [Grid.addClassAttribute]
    split
    · rename_i g' hg
      by_cases h1 : Grid.flag (Grid.unfilteredMap src f) a = true
      · rw [if_pos h1, Res.ok.injEq] at hg
        subst hg
        exact ih _
      · rw [if_neg h1] at hg
        by_cases h2 : (f.attrs.filter fun b => b.old.equals a || b.new.equals a).isEmpty = true
        · rw [if_pos h2] at hg; cases hg
        · rw [if_neg h2, Res.ok.injEq] at hg
          subst hg
          exact ih _
    · exact ih _

theorem findNew_spec (target : Attr) (l : List FAttr) (i : Nat)
    (h : ∃ p ∈ l, p.new.equals target = true) :
    ∃ j, Grid.findNew target l i = some ⟨none, j, target⟩ := by
  induction l generalizing i with
  | nil => simp at h
  | cons p ps ih =>
    unfold Grid.findNew
    by_cases hp : p.new.equals target = true
    · rw [if_pos hp]; exact ⟨i, rfl⟩
    · rw [if_neg hp]
      refine ih _ ?_
      obtain ⟨q, h1, h2⟩ := h
      rcases List.mem_cons.1 h1 with rfl | h1
      · exact absurd h2 hp
      · exact ⟨q, h1, h2⟩

theorem find?_unique {α : Type} (l : List α) (c : α → Bool) {x : α} (hx : x ∈ l) (hc : c x = true)
    (hu : ∀ y ∈ l, c y = true → y = x) : l.find? c = some x := by
  cases hf : l.find? c with
  | none => rw [List.find?_eq_none] at hf; exact absurd hc (hf x hx)
  | some y =>
    rw [hu y (List.mem_of_find?_eq_some hf) (List.find?_some hf)]

theorem filterFits_unique {src : Grid} {f : Filter} {n : Nat} (F : FilterFits src f n) {p q : FAttr}
    (hp : p ∈ f.attrs) (hq : q ∈ f.attrs) (h : q.new.equals p.new = true) : q = p := by
  have hd := F.newDistinct
  obtain ⟨i, hi, rfl⟩ := List.getElem_of_mem hp
  obtain ⟨j, hj, rfl⟩ := List.getElem_of_mem hq
  rw [List.pairwise_iff_getElem] at hd
  rcases Nat.lt_trichotomy i j with h' | h' | h'
  · have := hd i j hi hj h'
    rw [C28_equals_symm _ _ h] at this; cases this
  · subst h'; rfl
  · have := hd j i hj hi h'
    rw [h] at this; cases this

/-- The attributes of the filtered grid: those passed through and the new ones. -/
theorem mem_filtered_attrs {src : Grid} {f : Filter} {n : Nat} (hd : src.distinct)
    (F : FilterFits src f n) (a : Attr) :
    a ∈ (Grid.newFiltered src f).allAttributes ↔ PassedThrough src f a ∨ ∃ p ∈ f.attrs, p.new = a := by
  obtain ⟨cls, e⟩ := newFiltered_shape src f
  rw [e]
  simp only [Grid.allAttributes, List.mem_flatMap]
  constructor
  · rintro ⟨b, hb, h⟩
    by_cases hf : Grid.flag (Grid.unfilteredMap src f) b = true
    · rw [if_pos hf, List.mem_singleton] at h
      subst h
      exact Or.inl ((flag_unfiltered _ _ _).1 hf)
    · rw [if_neg hf, List.mem_map] at h
      obtain ⟨p, hp, rfl⟩ := h
      exact Or.inr ⟨p, (List.mem_filter.1 hp).1, rfl⟩
  · rintro (h | ⟨p, hp, rfl⟩)
    · refine ⟨a, h.1, ?_⟩
      rw [if_pos ((flag_unfiltered _ _ _).2 h)]
      simp
    · refine ⟨p.old, F.known p hp, ?_⟩
      rw [if_neg]
      · rw [List.mem_map]
        exact ⟨p, List.mem_filter.2 ⟨hp, C28_equals_refl _⟩, rfl⟩
      · rw [flag_unfiltered]
        exact fun h => h.2 p hp rfl

/-- Reading a passed-through attribute. -/
theorem filtered_passed {src : Grid} {f : Filter} {n : Nat} (P : src.Presents n) {a : Attr}
    (h : PassedThrough src f a) : ∃ s, (Grid.newFiltered src f).getAttribute a = Res.ok s ∧ s.attr = a ∧
      src.getAttribute a = Res.ok s ∧
      Grid.newToOld f src (Grid.unfilteredMap src f) s = Res.ok s ∧
      ∀ r, r < n → (Grid.newFiltered src f).get s r = Res.ok (src.cell a r) := by
  obtain ⟨cls, e⟩ := newFiltered_shape src f
  have hf := (flag_unfiltered src f a).2 h
  obtain ⟨s, h1, h2, h3⟩ := P.read a h.1
  have hn : Grid.newToOld f src (Grid.unfilteredMap src f) s = Res.ok s := by
    unfold Grid.newToOld; rw [h2, if_pos hf]
  refine ⟨s, ?_, h2, h1, hn, ?_⟩
  · rw [e]; simp only [Grid.getAttribute, if_pos hf, h1]
  · intro r hr
    rw [e]
    simp only [Grid.get, hn, h3 r hr, Res.bind_ok, h2, if_pos hf]

/-- Reading a converted attribute. -/
theorem filtered_converted {src : Grid} {f : Filter} {n : Nat} (P : src.Presents n)
    (F : FilterFits src f n) {p : FAttr} (hp : p ∈ f.attrs) :
    ∃ s o, (Grid.newFiltered src f).getAttribute p.new = Res.ok s ∧ s.attr = p.new ∧
      src.getAttribute p.old = Res.ok o ∧ o.attr = p.old ∧
      Grid.newToOld f src (Grid.unfilteredMap src f) s = Res.ok o ∧
      ∀ r, r < n → (Grid.newFiltered src f).get s r = f.transform p.old p.new (src.cell p.old r) := by
  obtain ⟨cls, e⟩ := newFiltered_shape src f
  have hf : ¬ Grid.flag (Grid.unfilteredMap src f) p.new = true := by
    rw [flag_unfiltered]
    intro h
    have := F.newPassed p hp _ h
    rw [C28_equals_refl] at this; cases this
  obtain ⟨j, hj⟩ := findNew_spec p.new f.attrs 0 ⟨p, hp, C28_equals_refl _⟩
  obtain ⟨o, h1, h2, h3⟩ := P.read p.old (F.known p hp)
  have hn : Grid.newToOld f src (Grid.unfilteredMap src f) ⟨none, j, p.new⟩ = Res.ok o := by
    unfold Grid.newToOld
    rw [if_neg hf, find?_unique f.attrs _ hp (by simp [C28_equals_refl]) (by
      intro q hq hc
      rw [Bool.or_eq_true] at hc
      rcases hc with hc | hc
      · exact F.oldNew q hq p hp hc
      · exact filterFits_unique F hp hq hc)]
    simp only [h1]
  refine ⟨⟨none, j, p.new⟩, o, ?_, rfl, h1, h2, hn, ?_⟩
  · rw [e]; simp only [Grid.getAttribute, if_neg hf, hj]
  · intro r hr
    rw [e]
    simp only [Grid.get, hn, h3 r hr, Res.bind_ok, if_neg hf, h2]

/-- The attributes of the filtered grid can be told apart. -/
theorem filtered_distinct {src : Grid} {f : Filter} {n : Nat} (hd : src.distinct)
    (F : FilterFits src f n) : (Grid.newFiltered src f).distinct := by
  obtain ⟨cls, e⟩ := newFiltered_shape src f
  unfold Grid.distinct
  rw [e]
  simp only [Grid.allAttributes]
  have hsymm : ∀ a b : Attr, a.equals b = false → b.equals a = false := by
    intro a b h
    cases hb : b.equals a with
    | false => rfl
    | true => rw [C28_equals_symm _ _ hb] at h; cases h
  rw [List.pairwise_flatMap]
  refine ⟨?_, ?_⟩
  · intro a ha
    split
    · simp
    · rw [List.pairwise_map]
      exact F.newDistinct.filter _
  · refine List.Pairwise.imp_of_mem ?_ hd
    intro a b ha hb hab x hx y hy
    by_cases hfa : Grid.flag (Grid.unfilteredMap src f) a = true
    · rw [if_pos hfa, List.mem_singleton] at hx
      subst hx
      by_cases hfb : Grid.flag (Grid.unfilteredMap src f) b = true
      · rw [if_pos hfb, List.mem_singleton] at hy
        subst hy
        exact hab
      · rw [if_neg hfb, List.mem_map] at hy
        obtain ⟨q, hq, rfl⟩ := hy
        exact hsymm _ _ (F.newPassed q (List.mem_filter.1 hq).1 _ ((flag_unfiltered _ _ _).1 hfa))
    · rw [if_neg hfa, List.mem_map] at hx
      obtain ⟨p, hp, rfl⟩ := hx
      have hp' := List.mem_filter.1 hp
      by_cases hfb : Grid.flag (Grid.unfilteredMap src f) b = true
      · rw [if_pos hfb, List.mem_singleton] at hy
        subst hy
        exact F.newPassed p hp'.1 _ ((flag_unfiltered _ _ _).1 hfb)
      · rw [if_neg hfb, List.mem_map] at hy
        obtain ⟨q, hq, rfl⟩ := hy
        have hq' := List.mem_filter.1 hq
        cases h : p.new.equals q.new with
        | false => rfl
        | true =>
          have := filterFits_unique F hq'.1 hp'.1 h
          subst this
          have := C28_equals_trans _ _ _ hp'.2 (C28_equals_symm _ _ hq'.2)
          rw [this] at hab; cases hab

/-- The class attributes transferred at construction. -/
theorem filtered_class {src : Grid} {f : Filter} (x : Attr) :
    x ∈ (Grid.newFiltered src f).allClassAttributes ↔
      ∃ c ∈ src.allClassAttributes, (PassedThrough src f c ∧ x = c) ∨
        (¬ PassedThrough src f c ∧ ∃ p ∈ f.attrs, (p.old.equals c = true ∨ p.new.equals c = true) ∧ x = p.new) := by
  unfold Grid.newFiltered
  have key : ∀ (l : List Attr) (cls : GoMap Attr Bool), (∀ p ∈ cls, p.2 = true) → ∃ cls',
      l.foldl (fun g a => match g.addClassAttribute a with | .ok g' => g' | _ => g)
        (Grid.filt f src cls (Grid.unfilteredMap src f)) = .filt f src cls' (Grid.unfilteredMap src f) ∧
      (∀ p ∈ cls', p.2 = true) ∧
      ∀ x, x ∈ cls'.map Prod.fst ↔ x ∈ cls.map Prod.fst ∨ ∃ c ∈ l, (PassedThrough src f c ∧ x = c) ∨
        (¬ PassedThrough src f c ∧ ∃ p ∈ f.attrs, (p.old.equals c = true ∨ p.new.equals c = true) ∧ x = p.new) := by
    have hset : ∀ (m : GoMap Attr Bool) k, (∀ p ∈ m, p.2 = true) → ∀ p ∈ m.set k true, p.2 = true := by
      intro m k hm
      induction m with
      | nil => intro p hp; simp [GoMap.set] at hp; simp [hp]
      | cons q qs ih =>
        intro p hp
        unfold GoMap.set at hp
        split at hp
        · rcases List.mem_cons.1 hp with rfl | hp
          · rfl
          · exact hm p (by simp [hp])
        · rcases List.mem_cons.1 hp with rfl | hp
          · exact hm _ (by simp)
          · exact ih (fun p hp => hm p (by simp [hp])) p hp
    intro l
    induction l with
    | nil => intro cls hc; exact ⟨cls, rfl, hc, by simp⟩
    | cons a as ih =>
      intro cls hc
      rw [List.foldl_cons]
      simp only [Grid.addClassAttribute]
      by_cases h1 : Grid.flag (Grid.unfilteredMap src f) a = true
      · rw [if_pos h1]
        obtain ⟨cls', e, ha, hm⟩ := ih (cls.set a true) (hset _ _ hc)
        refine ⟨cls', e, ha, ?_⟩
        intro x
        rw [hm, GoMap.mem_keys_set]
        have := (flag_unfiltered src f a).1 h1
        simp only [List.mem_cons, exists_eq_or_imp, this, true_and, not_true_eq_false, false_and, or_false]
        rw [or_assoc, or_left_comm]
      · rw [if_neg h1]
        have hnp : ¬ PassedThrough src f a := by rw [← flag_unfiltered]; exact h1
        by_cases h2 : (f.attrs.filter fun b => b.old.equals a || b.new.equals a).isEmpty = true
        · rw [if_pos h2]
          obtain ⟨cls', e, ha, hm⟩ := ih cls hc
          refine ⟨cls', e, ha, ?_⟩
          intro x
          rw [hm]
          have : ∀ p ∈ f.attrs, ¬ (p.old.equals a = true ∨ p.new.equals a = true) := by
            intro p hp h
            rw [List.isEmpty_iff, List.filter_eq_nil_iff] at h2
            exact h2 p hp (by simpa using h)
          simp only [List.mem_cons, exists_eq_or_imp, hnp, false_and, not_false_eq_true, true_and, false_or]
          constructor
          · rintro (h | h)
            · exact Or.inl h
            · exact Or.inr (Or.inr h)
          · rintro (h | ⟨p, hp, h, _⟩ | h)
            · exact Or.inl h
            · exact absurd h (this p hp)
            · exact Or.inr h
        · rw [if_neg h2]
          have hfold : ∀ (hits : List FAttr) (m : GoMap Attr Bool), (∀ p ∈ m, p.2 = true) →
              (∀ p ∈ hits.foldl (fun m b => m.set b.new true) m, p.2 = true) ∧
              ∀ x, x ∈ (hits.foldl (fun m b => m.set b.new true) m).map Prod.fst ↔
                x ∈ m.map Prod.fst ∨ ∃ p ∈ hits, x = p.new := by
            intro hits
            induction hits with
            | nil => intro m hm; exact ⟨hm, by simp⟩
            | cons q qs ih2 =>
              intro m hm
              obtain ⟨i1, i2⟩ := ih2 (m.set q.new true) (hset _ _ hm)
              refine ⟨i1, ?_⟩
              intro x
              rw [List.foldl_cons, i2, GoMap.mem_keys_set]
              simp only [List.mem_cons, exists_eq_or_imp]
              tauto
          obtain ⟨j1, j2⟩ := hfold (f.attrs.filter fun b => b.old.equals a || b.new.equals a) cls hc
          obtain ⟨cls', e, ha, hm⟩ := ih _ j1
          refine ⟨cls', e, ha, ?_⟩
          intro x
          rw [hm, j2]
          simp only [List.mem_cons, exists_eq_or_imp, hnp, false_and, not_false_eq_true, true_and, false_or,
            List.mem_filter, Bool.or_eq_true, and_assoc]
          rw [or_assoc]
  obtain ⟨cls', e, ha, hm⟩ := key src.allClassAttributes [] (by simp)
  have hg : (src.allClassAttributes.foldl (fun g a => match g.addClassAttribute a with | .ok g' => g' | _ => g)
      (Grid.filt f src [] (Grid.unfilteredMap src f))).allClassAttributes =
      (cls'.filter fun p => p.2).map Prod.fst := congrArg Grid.allClassAttributes e
  have hfl : cls'.filter (fun p => p.2) = cls' := List.filter_eq_self.2 ha
  rw [hfl] at hg
  have := hm x
  rw [← hg] at this
  simp only [List.map_nil, List.not_mem_nil, false_or] at this
  exact this

end Golearn
