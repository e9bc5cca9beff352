import Verif.Props.C50

/-! # C52: random trees choose among distinct attributes -/

namespace Golearn

/-- The attributes drawn, without repetitions. -/
theorem randomAttrs_sound (all : List Attr) (want : Nat) : ∀ (draws : List Nat) (sel out : List Attr),
    sel.length ≤ want → (∀ a ∈ sel, a ∈ all) → sel.Pairwise (fun a b => a.equals b = false) →
    randomAttrs all want draws sel = Res.ok out →
    out.length = want ∧ (∀ a ∈ out, a ∈ all) ∧ out.Pairwise fun a b => a.equals b = false := by
  intro draws
  induction draws with
  | nil =>
    intro sel out hl hm hd h
    rw [randomAttrs] at h
    by_cases hw : want ≤ sel.length
    · rw [if_pos hw] at h
      cases h
      exact ⟨by omega, hm, hd⟩
    · rw [if_neg hw] at h; cases h
  | cons k ks ih =>
    intro sel out hl hm hd h
    rw [randomAttrs] at h
    by_cases hw : want ≤ sel.length
    · rw [if_pos hw] at h
      cases h
      exact ⟨by omega, hm, hd⟩
    · rw [if_neg hw] at h
      cases hk : all[k]? with
      | none => rw [hk] at h; cases h
      | some a =>
        rw [hk] at h
        simp only at h
        by_cases ha : (sel.any fun b => b.equals a) = true
        · rw [if_pos ha] at h
          exact ih sel out hl hm hd h
        · rw [if_neg ha] at h
          refine ih (sel ++ [a]) out (by simp; omega) ?_ ?_ h
          · intro b hb
            rcases List.mem_append.1 hb with hb | hb
            · exact hm b hb
            · rw [List.mem_singleton] at hb
              subst hb
              exact List.mem_of_getElem? hk
          · rw [List.pairwise_append]
            refine ⟨hd, by simp, ?_⟩
            intro x hx y hy
            rw [List.mem_singleton] at hy
            subst hy
            cases he : x.equals y with
            | false => rfl
            | true => exact absurd (List.any_eq_true.2 ⟨x, hx, he⟩) ha

/-- Whatever the draws: if the selection ends, it holds the requested number of attributes, all different, none of them the
class attribute. -/
theorem C52_selection {K : Type} [Field K] [LinearOrder K] (e : RuleEnv K) (E : e.Ok) (g : Grid) (cls : Attr)
    (hc : g.allClassAttributes = [cls]) (want : Nat) (draws : List Nat) (sel : List Attr)
    (h : randomAttrs (e.cands g.normalAttrs) want draws [] = Res.ok sel) :
    sel.length = want ∧ (sel.Pairwise fun a b => a.equals b = false) ∧
    ∀ a ∈ sel, a ∈ g.allAttributes ∧ a ≠ cls := by
  obtain ⟨h1, h2, h3⟩ := randomAttrs_sound _ want draws [] sel (by simp) (by simp) (by simp) h
  refine ⟨h1, h3, ?_⟩
  intro a ha
  have := List.mem_filter.1 ((cands_mem E hc a).1 (h2 a ha))
  exact ⟨this.1, by simpa using this.2⟩

/-- The selection grows with every attribute drawn that is not yet in it. -/
theorem randomAttrs_ends (all : List Attr) (hd : all.Pairwise fun a b => a.equals b = false) (want : Nat)
    (hw : want ≤ all.length) : ∀ (draws : List Nat) (sel : List Attr), (∀ k ∈ draws, k < all.length) →
    (∀ a ∈ sel, a ∈ all) → (∀ a ∈ all, a ∈ sel ∨ ∃ k ∈ draws, all[k]? = some a) →
    ∃ out, randomAttrs all want draws sel = Res.ok out := by
  have hnd : all.Nodup := hd.imp fun {a b} h hab => by subst hab; rw [C28_equals_refl] at h; cases h
  intro draws
  induction draws with
  | nil =>
    intro sel _ _ hcov
    rw [randomAttrs, if_pos]
    · exact ⟨sel, rfl⟩
    · have hsub : all ⊆ sel := by
        intro a ha
        rcases hcov a ha with h | ⟨k, hk, _⟩
        · exact h
        · cases hk
      exact hw.trans (hnd.subperm hsub).length_le
  | cons k ks ih =>
    intro sel hk hm hcov
    rw [randomAttrs]
    by_cases hwl : want ≤ sel.length
    · rw [if_pos hwl]; exact ⟨sel, rfl⟩
    · rw [if_neg hwl]
      have hka := List.getElem?_eq_getElem (hk k (by simp))
      rw [hka]
      simp only
      apply ih
      · intro q hq; exact hk q (by simp [hq])
      · intro a ha
        split at ha
        · exact hm a ha
        · rcases List.mem_append.1 ha with ha | ha
          · exact hm a ha
          · rw [List.mem_singleton] at ha
            subst ha; exact List.getElem_mem _
      · intro a ha
        rcases hcov a ha with h | ⟨q, hq, hqa⟩
        · left
          split
          · exact h
          · exact List.mem_append.2 (Or.inl h)
        · rcases List.mem_cons.1 hq with rfl | hq
          · left
            rw [hka] at hqa
            cases hqa
            split
            · next hany =>
              obtain ⟨b, hb, he⟩ := List.any_eq_true.1 hany
              by_contra hn
              have hne : b ≠ all[q]'(hk q (by simp)) := fun h => hn (h ▸ hb)
              have hsym : ∀ x y : Attr, x.equals y = false → y.equals x = false := by
                intro x y h
                cases h' : y.equals x with
                | false => rfl
                | true => rw [C28_equals_symm y x h'] at h; cases h
              have : Std.Symm fun a b : Attr => a.equals b = false := ⟨hsym⟩
              have := hd.forall (hm b hb) ha hne
              rw [he] at this; cases this
            · exact List.mem_append.2 (Or.inr (by simp))
          · exact Or.inr ⟨q, hq, hqa⟩

/-- If there are enough attributes, the selection ends as soon as every index has been drawn. -/
theorem C52_terminates (all : List Attr) (hd : all.Pairwise fun a b => a.equals b = false) (want : Nat)
    (hw : want ≤ all.length) (draws : List Nat) (hk : ∀ k ∈ draws, k < all.length)
    (hall : ∀ k, k < all.length → k ∈ draws) : ∃ out, randomAttrs all want draws [] = Res.ok out := by
  apply randomAttrs_ends all hd want hw draws [] hk (by simp)
  intro a ha
  obtain ⟨i, hi, rfl⟩ := List.getElem_of_mem ha
  exact Or.inr ⟨i, hall i hi, List.getElem?_eq_getElem hi⟩

/-- If more attributes are requested than there are, no sequence of draws is enough: the code draws for ever. Each level of a
tree has one attribute less than the level above, so this happens while a tree is built, see the example. -/
theorem C52_too_many_never_ends (all : List Attr) (want : Nat) (hw : all.length < want) (draws : List Nat) :
    ∀ out, randomAttrs all want draws [] ≠ Res.ok out := by
  intro out h
  obtain ⟨h1, h2, h3⟩ := randomAttrs_sound all want draws [] out (by simp) (by simp) (by simp) h
  have hn : out.Nodup := h3.imp fun {a b} h hab => by subst hab; rw [C28_equals_refl] at h; cases h
  have := (hn.subperm h2).length_le
  omega

/-- The rule has the greatest gain among the tests of the attributes drawn. What is missing is as in `C50`: repeated
numbers. -/
theorem C52_best_of_selection_partial {K : Type} [Field K] [LinearOrder K] [IsStrictOrderedRing K] (e : RuleEnv K) (E : e.Ok)
    (g : Grid) (n : Nat) (lab : Nat → String) (cls : Attr)
    (D : TreeData e.fo g n lab cls) (val : U64 → K) (S : U64 → Prop) (X : g.ExactCells e n val S) (N : g.NoRepeats n val)
    (want : Nat) (hpos : 0 < want) (draws : List Nat) (sel : List Attr)
    (h : randomAttrs (e.cands g.normalAttrs) want draws [] = Res.ok sel) :
    ChoosesBest e.fo val (fun key => gainOf e.lg lab key n) g n sel (randomRule e want draws g) := by
  obtain ⟨h1, _, h3⟩ := C52_selection e E g cls D.classAttr want draws sel h
  unfold randomRule
  rw [h, Res.bind_ok]
  exact infoGainFrom_spec E D X N sel (fun a ha => (h3 a ha).1) (by rintro rfl; simp at h1; omega)

section Examples
private def aX : Attr := ⟨0, .float "x" 2⟩
private def aY : Attr := ⟨1, .cat "y" ["red", "green"]⟩
private def aZ : Attr := ⟨2, .cat "z" ["p", "q"]⟩

/-- Two of three attributes: the second draw repeats the first. -/
example : randomAttrs [aX, aY, aZ] 2 [2, 2, 0, 1] [] = Res.ok [aZ, aX] := by decide +kernel
/-- The hypotheses of the theorem on termination hold for them. -/
example : ([aX, aY, aZ].Pairwise fun a b => a.equals b = false) ∧ 2 ≤ [aX, aY, aZ].length ∧
    (∀ k ∈ [2, 2, 0, 1], k < [aX, aY, aZ].length) ∧ ∀ k, k < [aX, aY, aZ].length → k ∈ [2, 2, 0, 1] := by
  refine ⟨by decide, by decide, by decide, ?_⟩
  intro k hk
  have : k = 0 ∨ k = 1 ∨ k = 2 := by simp at hk; omega
  rcases this with rfl | rfl | rfl <;> decide
/-- A tree that considers three attributes per node: enough at the root, too many below it. -/
example : [aX, aY].length < 3 := by decide
end Examples

end Golearn
