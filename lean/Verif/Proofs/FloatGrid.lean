import Verif.Spec.Layered
import Verif.Props.C60
import Verif.Props.C33
import Verif.Props.C27
import Verif.Proofs.KnnSearch

/-! # Lemmas about instances converted to numbers -/

namespace Golearn

open Conv

/-- A float attribute is left as it is. -/
theorem trainFloat_same (fresh : Nat → Nat) (a : Attr) (hf : a.isFloat = true) (attrs : List Attr) (hnd : attrs.Nodup) (ha : a ∈ attrs)
    (c : Conv) (k : Nat) (h1 : outputs c.converted a = []) : outputs (trainFloat fresh c k attrs).converted a = [a] := by
  have T := trains_float fresh
  induction attrs generalizing c k with
  | nil => simp at ha
  | cons b rest ih =>
    rw [List.nodup_cons] at hnd
    by_cases hab : a = b
    · subst hab
      have e : ∃ nm pr, a.body = .float nm pr := by
        obtain ⟨p, x⟩ := a
        cases x with
        | float nm pr => exact ⟨nm, pr, rfl⟩
        | cat _ _ => simp [Attr.isFloat] at hf
        | bin _ => simp [Attr.isFloat] at hf
      obtain ⟨nm, pr, e⟩ := e
      have : trainFloat fresh c k (a :: rest) = trainFloat fresh { c with converted := c.converted ++ [⟨a, a⟩] } k rest := by
        rw [trainFloat, e]
      rw [this, (trains_skip T a rest hnd.1 _ _).1]
      simp only
      rw [outputs_append, h1, outputs_one]
      rfl
    · have ha' : a ∈ rest := by simpa [hab] using ha
      have hb : b ≠ a := fun e => hab e.symm
      cases hc : b.isCat with
      | false =>
        obtain ⟨n, k', e, _, _⟩ := T.other c k b rest hc
        rw [e]
        apply ih hnd.2 ha'
        simp only
        rw [outputs_append, h1]
        exact outputs_other hb [n]
      | true =>
        obtain ⟨p, bd⟩ := b
        cases bd with
        | float _ _ => simp [Attr.isCat] at hc
        | bin _ => simp [Attr.isCat] at hc
        | cat name' vals' =>
          rw [T.cat c k _ rest name' vals' rfl]
          apply ih hnd.2 ha'
          unfold trainCat
          split
          · simp only
            rw [outputs_append, h1]
            exact outputs_other hb [⟨fresh k, .float name' 2⟩]
          · simp only
            rw [outputs_append, h1, outputs_other hb]
            rfl

/-- The outputs of a column that is not a float are new attributes. -/
theorem trainFloat_outputs (fresh : Nat → Nat) (attrs : List Attr) (hnd : attrs.Nodup) (a : Attr) (ha : a ∈ attrs) :
    outputs (Conv.float fresh attrs).attrs a ≠ [] ∧
      ∀ x ∈ outputs (Conv.float fresh attrs).attrs a, x.isFloat = true := by
  have T := trains_float fresh
  unfold Conv.float
  simp only
  cases hf : a.isFloat with
  | true =>
    rw [trainFloat_same fresh a hf attrs hnd ha empty 0 rfl]
    simp [hf]
  | false =>
    cases hc : a.isCat with
    | false =>
      obtain ⟨x, e1, _, e3⟩ := trains_plain T a hc attrs hnd ha empty 0 rfl
      rw [e1]
      refine ⟨by simp, ?_⟩
      intro y hy
      rw [List.mem_singleton] at hy
      subst hy
      rcases e3 with e | e
      · subst e
        -- a binary attribute is replaced by a float attribute of its own
        exfalso
        have key : ∀ (l : List Attr) (c : Conv) (k : Nat), y ∉ outputs c.converted y →
            y ∉ outputs (trainFloat fresh c k l).converted y := by
          intro l
          induction l with
          | nil => intro c k h; exact h
          | cons b rest ih =>
            intro c k h
            have hbody : ∃ nm, y.body = .bin nm := by
              obtain ⟨p, x⟩ := y
              cases x with
              | float _ _ => simp [Attr.isFloat] at hf
              | cat _ _ => simp [Attr.isCat] at hc
              | bin nm => exact ⟨nm, rfl⟩
            obtain ⟨nm, hbody⟩ := hbody
            obtain ⟨p, bd⟩ := b
            cases bd with
            | float n' pr' =>
              rw [trainFloat]
              apply ih
              simp only
              rw [outputs_append, List.mem_append, not_or]
              refine ⟨h, ?_⟩
              have hne : (⟨p, .float n' pr'⟩ : Attr) ≠ y := by
                rintro rfl
                simp at hbody
              have := outputs_other hne [⟨p, .float n' pr'⟩]
              simp only [List.map_cons, List.map_nil] at this
              rw [this]
              simp
            | bin n' =>
              rw [trainFloat]
              apply ih
              simp only
              rw [outputs_append, List.mem_append, not_or]
              refine ⟨h, ?_⟩
              intro hm
              have := of_mem_outputs hm
              simp only [List.mem_singleton, FAttr.mk.injEq] at this
              have h2 := this.2
              rw [h2] at hbody
              simp at hbody
            | cat n' v' =>
              rw [T.cat c k _ rest n' v' rfl]
              apply ih
              have hne : (⟨p, .cat n' v'⟩ : Attr) ≠ y := by
                rintro rfl
                simp at hbody
              unfold trainCat
              split
              · simp only
                rw [outputs_append, List.mem_append, not_or]
                refine ⟨h, ?_⟩
                have := outputs_other hne [⟨fresh k, .float n' 2⟩]
                simp only [List.map_cons, List.map_nil] at this
                rw [this]
                simp
              · simp only
                rw [outputs_append, List.mem_append, not_or]
                refine ⟨h, ?_⟩
                rw [outputs_other hne]
                simp
        have := key attrs empty 0 (by simp [empty, outputs])
        rw [e1] at this
        simp at this
      · simp [Attr.isFloat, e]
    | true =>
      cases hb : a.body with
      | float _ _ => simp [Attr.isCat, hb] at hc
      | bin _ => simp [Attr.isCat, hb] at hc
      | cat name vals =>
        obtain ⟨j, hj⟩ := trains_cat T a name vals hb attrs hnd ha empty 0 rfl (by simp [empty])
        split at hj
        · rw [hj.1]
          simp [Attr.isFloat]
        · rw [hj.1]
          refine ⟨?_, ?_⟩
          · intro e
            have := oneHot_length (fun n => AttrBody.float n 2) fresh name j vals
            rw [e] at this
            simp at this
            omega
          · intro x hm
            obtain ⟨i, hi⟩ := List.mem_iff_getElem?.1 hm
            have hil : i < vals.length := by
              have := (List.getElem?_eq_some_iff.1 hi).1
              rwa [oneHot_length] at this
            rw [oneHot_get _ fresh name j vals i _ (List.getElem?_eq_getElem hil), Option.some.injEq] at hi
            rw [← hi]
            rfl

/-- What the converted instances are. -/
structure FloatGrid (g : Grid) (n : Nat) (fresh : Nat → Nat) : Prop where
  presents : (convertToFloatInsts fresh g).Presents n
  typed : (convertToFloatInsts fresh g).typed n
  distinct : (convertToFloatInsts fresh g).distinct
  floats : ∀ a ∈ (convertToFloatInsts fresh g).allAttributes, a.isFloat = true
  mem : ∀ a, a ∈ (convertToFloatInsts fresh g).allAttributes ↔
    ∃ p ∈ (Conv.float fresh g.allAttributes).attrs, p.new = a
  cls : ∀ a, a ∈ (convertToFloatInsts fresh g).allClassAttributes ↔
    ∃ p ∈ (Conv.float fresh g.allAttributes).attrs, p.old ∈ g.allClassAttributes ∧ a = p.new
  clsNodup : (convertToFloatInsts fresh g).allClassAttributes.Nodup
  inj : ∀ p ∈ (Conv.float fresh g.allAttributes).attrs, ∀ q ∈ (Conv.float fresh g.allAttributes).attrs,
    p.new = q.new → p = q
  old : ∀ p ∈ (Conv.float fresh g.allAttributes).attrs, p.old ∈ g.allAttributes
  same : ∀ a ∈ g.allAttributes, a.isFloat = true → outputs (Conv.float fresh g.allAttributes).attrs a = [a] ∧
    ∀ r, r < n → (convertToFloatInsts fresh g).cell a r = g.cell a r
  some : ∀ a ∈ g.allAttributes, outputs (Conv.float fresh g.allAttributes).attrs a ≠ []

theorem nodup_of_distinct {g : Grid} (h : g.distinct) : g.allAttributes.Nodup := by
  unfold Grid.distinct at h
  refine h.imp ?_
  rintro a b hab rfl
  rw [C28_equals_refl] at hab
  cases hab

theorem filtered_cls_nodup (src : Grid) (f : Filter) : (Grid.newFiltered src f).allClassAttributes.Nodup := by
  unfold Grid.newFiltered
  have key : ∀ (l : List Attr) (cls : GoMap Attr Bool), (cls.map Prod.fst).Nodup → ∃ cls',
      l.foldl (fun g a => match g.addClassAttribute a with | .ok g' => g' | _ => g)
        (Grid.filt f src cls (Grid.unfilteredMap src f)) = .filt f src cls' (Grid.unfilteredMap src f) ∧
      (cls'.map Prod.fst).Nodup := by
    intro l
    induction l with
    | nil => intro cls hc; exact ⟨cls, rfl, hc⟩
    | cons a as ih =>
      intro cls hc
      rw [List.foldl_cons]
      simp only [Grid.addClassAttribute]
      by_cases h1 : Grid.flag (Grid.unfilteredMap src f) a = true
      · rw [if_pos h1]
        exact ih _ (GoMap.nodup_set _ _ _ hc)
      · rw [if_neg h1]
        by_cases h2 : (f.attrs.filter fun b => b.old.equals a || b.new.equals a).isEmpty = true
        · rw [if_pos h2]
          exact ih _ hc
        · rw [if_neg h2]
          have : ∀ (hs : List FAttr) (m : GoMap Attr Bool), (m.map Prod.fst).Nodup →
              ((hs.foldl (fun m b => m.set b.new true) m).map Prod.fst).Nodup := by
            intro hs
            induction hs with
            | nil => intro m hm; exact hm
            | cons x xs ih2 => intro m hm; exact ih2 _ (GoMap.nodup_set _ _ _ hm)
          exact ih _ (this _ _ hc)
  obtain ⟨cls', e, h⟩ := key src.allClassAttributes [] (by simp)
  have e' : Grid.newFiltered src f = .filt f src cls' (Grid.unfilteredMap src f) := e
  show (Grid.newFiltered src f).allClassAttributes.Nodup
  rw [e']
  simp only [Grid.allClassAttributes]
  exact h.sublist (List.filter_sublist.map _)

theorem floatGrid {g : Grid} {n : Nat} {fresh : Nat → Nat} (D : NetData g n (Conv.float fresh g.allAttributes)) :
    FloatGrid g n fresh := by
  set f := Conv.float fresh g.allAttributes with hf
  have hnd := nodup_of_distinct D.distinct
  have hC : Convertible g n g.allAttributes f :=
    ⟨D.typed, hnd, fun a h => h, D.values, D.names, fun a h h' => absurd h h'⟩
  have F : FilterFits g f n := (C60_fits fresh g n g.allAttributes).2 hC
  have hout := trainFloat_outputs fresh g.allAttributes hnd
  have hnp : ∀ a, ¬ PassedThrough g f a := by
    rintro a ⟨ha, hp⟩
    obtain ⟨x, hx⟩ := List.exists_mem_of_ne_nil _ (hout a ha).1
    exact hp _ (of_mem_outputs hx) rfl
  have hinj : ∀ p ∈ f.attrs, ∀ q ∈ f.attrs, p.new.name = q.new.name → p = q :=
    fun p hp q hq e => List.inj_on_of_nodup_map D.names hp hq e
  obtain ⟨g1, g2, g3, _, g5⟩ := C33_get g n D.presents D.distinct f F
  have hP := (C33_iteration_partial g n D.presents D.distinct f F (fun a h => absurd h (hnp a))).1
  have hsame : ∀ a ∈ g.allAttributes, a.isFloat = true → outputs f.attrs a = [a] := by
    intro a ha hfl
    exact trainFloat_same fresh a hfl g.allAttributes hnd ha empty 0 rfl
  have hmem : ∀ a, a ∈ (convertToFloatInsts fresh g).allAttributes ↔ ∃ p ∈ f.attrs, p.new = a := by
    intro a
    unfold convertToFloatInsts
    rw [g1 a]
    constructor
    · rintro (h | h)
      · exact absurd h (hnp a)
      · exact h
    · exact Or.inr
  have hfl : ∀ p ∈ f.attrs, p.new.isFloat = true := fun p hp =>
    (hout p.old (F.known p hp)).2 _ (mem_outputs hp)
  have hcell : ∀ p ∈ f.attrs, ∀ r, r < n →
      f.transform p.old p.new (g.cell p.old r) = Res.ok ((convertToFloatInsts fresh g).cell p.new r) := by
    intro p hp r hr
    obtain ⟨s, s1, s2⟩ := g5 p hp
    obtain ⟨v, v1, v2⟩ := s2 r hr
    have : (convertToFloatInsts fresh g).cell p.new r = v := by
      show Grid.cell (Grid.newFiltered g f) p.new r = v
      unfold Grid.cell
      simp only [s1, v1]
    rw [this, v2]
  refine ⟨hP, ?_, g2, ?_, hmem, ?_, filtered_cls_nodup _ _, ?_, F.known, ?_, fun a ha => (hout a ha).1⟩
  · intro a ha r hr
    obtain ⟨p, hp, rfl⟩ := (hmem a).1 ha
    have h1 := hcell p hp r hr
    have hbin : p.new.isBin = false := by
      have := hfl p hp
      unfold Attr.isFloat at this
      unfold Attr.isBin
      split at this <;> simp_all
    unfold wellFormed
    rw [hbin]
    simp only [Bool.false_eq_true, if_false]
    have hty := D.typed p.old (F.known p hp) r hr
    rw [hf] at h1
    simp only [Conv.float, transformFloat] at h1
    cases hb : p.old.body with
    | cat nm vs =>
      rw [hb] at h1
      simp only at h1
      rw [Res.map_eq_ok] at h1
      obtain ⟨b, _, hb2⟩ := h1
      rw [← hb2]
      split <;> exact packU64_length _
    | float nm pr =>
      rw [hb] at h1
      simp only [Res.ok.injEq] at h1
      rw [← h1]
      unfold wellFormed Attr.isBin at hty
      rw [hb] at hty
      simpa using hty
    | bin nm =>
      rw [hb] at h1
      simp only at h1
      split at h1
      · cases h1
      · simp only [Res.ok.injEq] at h1
        rw [← h1]
        split <;> exact packU64_length _
  · intro a ha
    obtain ⟨p, hp, rfl⟩ := (hmem a).1 ha
    exact hfl p hp
  · intro a
    unfold convertToFloatInsts
    rw [C33_class_attributes g n f D.distinct F D.known ?_ a]
    · constructor
      · rintro (⟨h, _⟩ | h)
        · exact absurd h (hnp a)
        · exact h
      · exact Or.inr
    · intro p hp b hb he
      have hbf : b.isFloat = true := by
        rw [← equals_isFloat he]
        exact hfl p hp
      have hq : (⟨b, b⟩ : FAttr) ∈ f.attrs := of_mem_outputs (by rw [hsame b hb hbf]; simp)
      have := hinj p hp ⟨b, b⟩ hq (equals_name he)
      rw [this]
  · intro p hp q hq e
    exact hinj p hp q hq (by rw [e])
  · intro a ha hfa
    refine ⟨hsame a ha hfa, ?_⟩
    intro r hr
    have hq : (⟨a, a⟩ : FAttr) ∈ f.attrs := of_mem_outputs (by rw [hsame a ha hfa]; simp)
    have h1 := hcell _ hq r hr
    rw [hf] at h1
    simp only [Conv.float, transformFloat] at h1
    cases hb : a.body with
    | cat nm vs => simp [Attr.isFloat, hb] at hfa
    | bin nm => simp [Attr.isFloat, hb] at hfa
    | float nm pr =>
      rw [hb] at h1
      simp only [Res.ok.injEq] at h1
      exact h1.symm

end Golearn
