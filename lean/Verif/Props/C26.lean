import Verif.Props.C27
import Verif.Proofs.History

/-! # C26: compatibility checks

`CheckStrictlyCompatible` walks the attributes of the first grid's group and indexes the second
grid's group (base/util_instances.go:493-499) without comparing lengths: it panics when the second
group is shorter, and answers true when it is longer. -/

namespace Golearn

/-- `CheckCompatible(g1, g2)` returns `g1`'s attributes when every one of them equals an attribute of
`g2` and both grids have the same number of attributes, and `nil` otherwise. -/
theorem C26_check_compatible (g1 g2 : Grid) (out : List Attr) :
    checkCompatible g1 g2 = some out ↔
      out = g1.allAttributes ∧ g1.allAttributes.length = g2.allAttributes.length ∧
      ∀ a ∈ g1.allAttributes, ∃ b ∈ g2.allAttributes, a.equals b = true := by
  unfold checkCompatible
  simp only [C27_intersect]
  have hfl : ((g1.allAttributes.filter fun a => g2.allAttributes.any fun b => a.equals b).length =
      g1.allAttributes.length) ↔ ∀ a ∈ g1.allAttributes, ∃ b ∈ g2.allAttributes, a.equals b = true := by
    rw [List.length_filter_eq_length_iff]
    simp
  by_cases h : ∀ a ∈ g1.allAttributes, ∃ b ∈ g2.allAttributes, a.equals b = true
  · have hl := hfl.2 h
    have he : (g1.allAttributes.filter fun a => g2.allAttributes.any fun b => a.equals b) =
        g1.allAttributes := by
      rw [List.filter_eq_self]
      intro a ha
      simpa using h a ha
    rw [he]
    by_cases hn : g1.allAttributes.length = g2.allAttributes.length
    · simp only [bne_self_eq_false, Bool.false_eq_true, if_false, hn, Option.some.injEq]
      constructor
      · intro e; exact ⟨e.symm, trivial, h⟩
      · intro e; exact e.1.symm
    · simp [hn]
  · have : ¬ _ = _ := fun e => h (hfl.1 e)
    simp only [bne_iff_ne, ne_eq, this, not_false_eq_true, if_true]
    simp only [reduceCtorEq, false_iff]
    exact fun e => h e.2.2

/-- Then the two grids have the same attributes up to `Equals`: when the first grid's attributes are
pairwise different, every attribute of the second equals one of the first too. -/
theorem C26_compatible_same_attributes (g1 g2 : Grid) (out : List Attr) (hd : g1.distinct)
    (h : checkCompatible g1 g2 = some out) :
    (∀ a ∈ g1.allAttributes, ∃ b ∈ g2.allAttributes, a.equals b = true) ∧
    ∀ b ∈ g2.allAttributes, ∃ a ∈ g1.allAttributes, a.equals b = true := by
  obtain ⟨_, hlen, hall⟩ := (C26_check_compatible g1 g2 out).1 h
  refine ⟨hall, ?_⟩
  classical
  -- send each attribute of the first grid to a partner
  let f : Attr → Attr := fun a => if ha : ∃ b ∈ g2.allAttributes, a.equals b = true then ha.choose else a
  have hf : ∀ a ∈ g1.allAttributes, f a ∈ g2.allAttributes ∧ a.equals (f a) = true := by
    intro a ha
    have hex := hall a ha
    simp only [f, dif_pos hex]
    exact hex.choose_spec
  have hnod : (g1.allAttributes.map f).Nodup := by
    rw [List.nodup_iff_pairwise_ne, List.pairwise_map]
    refine List.Pairwise.imp_of_mem ?_ hd
    intro a b ha hb hab e
    have h1 := (hf a ha).2
    have h2 := (hf b hb).2
    rw [e] at h1
    have := C28_equals_trans a (f b) b h1 (C28_equals_symm _ _ h2)
    rw [this] at hab; cases hab
  have hsub : (g1.allAttributes.map f).Subperm g2.allAttributes := by
    apply List.Nodup.subperm hnod
    intro x hx
    obtain ⟨a, ha, rfl⟩ := List.mem_map.1 hx
    exact (hf a ha).1
  have hperm := hsub.perm_of_length_le (by simp [hlen])
  intro b hb
  obtain ⟨a, ha, rfl⟩ := List.mem_map.1 (hperm.symm.subset hb)
  exact ⟨a, ha, (hf a ha).2⟩

/-- The attributes listed by the group with the given name, if there is one
(`AllAttributeGroups()[name].Attributes()`). -/
def groupAttrs (d : Dense) (name : String) : Option (List Attr) := (d.groupNamed name).map Group.attrs

/-- Same group names, and in each the same attributes in the same positions, up to `Equals`. -/
def StrictlySame (d1 d2 : Dense) : Prop :=
  (∀ n, (groupAttrs d1 n).isSome ↔ (groupAttrs d2 n).isSome) ∧
  ∀ n l1 l2, groupAttrs d1 n = some l1 → groupAttrs d2 n = some l2 →
    List.Forall₂ (fun a b => a.equals b = true) l1 l2

theorem strictLoop_spec (l1 l2 : List Attr) (h : l1.length = l2.length) :
    ∃ b, strictLoop l1 l2 = Res.ok b ∧
      (b = true ↔ List.Forall₂ (fun a b => a.equals b = true) l1 l2) := by
  induction l1 generalizing l2 with
  | nil =>
    cases l2 with
    | nil => exact ⟨true, rfl, by simp⟩
    | cons _ _ => simp at h
  | cons a as ih =>
    cases l2 with
    | nil => simp at h
    | cons b bs =>
      obtain ⟨c, h1, h2⟩ := ih bs (by simpa using h)
      unfold strictLoop
      by_cases he : a.equals b = true
      · exact ⟨c, by simp [he, h1], by simp [he, h2]⟩
      · exact ⟨false, by simp [he], by simp [he]⟩

theorem groupAttrs_isSome {rows : Nat} {W : Nat → Nat → Option Bytes} {st : St} (I : Inv rows W st)
    (n : String) : (groupAttrs st.d n).isSome ↔ (st.d.agMap.get? n).isSome := by
  unfold groupAttrs Dense.groupNamed
  cases h : st.d.agMap.get? n with
  | none => simp
  | some i =>
    obtain ⟨g, hg⟩ := I.agmap n i h
    simp [hg]

/-- On two `DenseInstances` reached by any histories of calls, when groups with the same name hold
the same number of attributes, `CheckStrictlyCompatible` does not panic and answers true exactly when
the groups have the same names and the same attributes in the same positions, in whatever order the
groups are visited. -/
theorem C26_strict_partial (pg1 pg2 : Nat) (ops1 ops2 : List Op) (st1 st2 : St)
    (hl1 : noLateGroupAdd ops1) (hl2 : noLateGroupAdd ops2)
    (h1 : run pg1 ops1 = Res.ok st1) (h2 : run pg2 ops2 = Res.ok st2)
    (hlen : ∀ n l1 l2, groupAttrs st1.d n = some l1 → groupAttrs st2.d n = some l2 →
      l1.length = l2.length)
    (names : List String) (hn : names.Perm (st1.d.agMap.map Prod.fst)) :
    ∃ b, checkStrictlyCompatible (.dense st1.d) (.dense st2.d) names = Res.ok b ∧
      (b = true ↔ StrictlySame st1.d st2.d) := by
  obtain ⟨I1, _, _⟩ := run_inv pg1 ops1 st1 hl1 h1
  obtain ⟨I2, _, _⟩ := run_inv pg2 ops2 st2 hl2 h2
  have g1 := groupAttrs_isSome I1
  have g2 := groupAttrs_isSome I2
  unfold checkStrictlyCompatible
  simp only
  by_cases c1 : ((st1.d.agMap.map Prod.fst).all fun n => (st2.d.agMap.get? n).isSome) = true
  · rw [if_pos c1]
    by_cases c2 : ((st2.d.agMap.map Prod.fst).all fun n => (st1.d.agMap.get? n).isSome) = true
    · rw [if_pos c2]
      rw [List.all_eq_true] at c1 c2
      have hsame : ∀ n, (groupAttrs st1.d n).isSome ↔ (groupAttrs st2.d n).isSome := by
        intro n
        rw [g1, g2]
        constructor
        · intro h; exact c1 n ((GoMap.isSome_iff_mem _ _).1 h)
        · intro h; exact c2 n ((GoMap.isSome_iff_mem _ _).1 h)
      have key : ∀ ns : List String, (∀ n ∈ ns, n ∈ st1.d.agMap.map Prod.fst) →
          ∃ b, strictGroups st1.d st2.d ns = Res.ok b ∧ (b = true ↔ ∀ n ∈ ns, ∀ l1 l2,
            groupAttrs st1.d n = some l1 → groupAttrs st2.d n = some l2 →
              List.Forall₂ (fun a b => a.equals b = true) l1 l2) := by
        intro ns
        induction ns with
        | nil => intro _; exact ⟨true, rfl, by simp⟩
        | cons n ns ih =>
          intro h
          obtain ⟨b, i1, i2⟩ := ih (fun m hm => h m (by simp [hm]))
          have e1 : (groupAttrs st1.d n).isSome :=
            (g1 n).2 ((GoMap.isSome_iff_mem _ _).2 (h n (by simp)))
          have e2 := (hsame n).1 e1
          unfold groupAttrs at e1 e2
          rw [Option.isSome_map] at e1 e2
          obtain ⟨x1, k1⟩ := Option.isSome_iff_exists.1 e1
          obtain ⟨x2, k2⟩ := Option.isSome_iff_exists.1 e2
          have a1 : groupAttrs st1.d n = some x1.attrs := by simp [groupAttrs, k1]
          have a2 : groupAttrs st2.d n = some x2.attrs := by simp [groupAttrs, k2]
          obtain ⟨c, s1, s2⟩ := strictLoop_spec x1.attrs x2.attrs (hlen n _ _ a1 a2)
          refine ⟨if c then b else false, ?_, ?_⟩
          · simp only [strictGroups, k1, k2, s1, Res.bind_ok]
            cases c
            · rfl
            · simpa using i1
          · have : (∀ m ∈ n :: ns, ∀ l1 l2, groupAttrs st1.d m = some l1 →
                groupAttrs st2.d m = some l2 →
                List.Forall₂ (fun a b => a.equals b = true) l1 l2) ↔ c = true ∧ b = true := by
              rw [s2, i2]
              constructor
              · intro H
                exact ⟨H n (by simp) _ _ a1 a2, fun m hm => H m (by simp [hm])⟩
              · rintro ⟨H1, H2⟩ m hm l1 l2 f1 f2
                rcases List.mem_cons.1 hm with rfl | hm
                · rw [a1] at f1; rw [a2] at f2
                  cases f1; cases f2; exact H1
                · exact H2 m hm l1 l2 f1 f2
            rw [this]
            cases c <;> simp
      obtain ⟨b, k1, k2⟩ := key names (fun n h => hn.subset h)
      refine ⟨b, k1, ?_⟩
      rw [k2]
      constructor
      · intro h
        refine ⟨hsame, ?_⟩
        intro n l1 l2 e1 e2
        refine h n (hn.symm.subset ?_) l1 l2 e1 e2
        rw [← GoMap.isSome_iff_mem, ← g1, e1]; rfl
      · intro h n _ l1 l2 e1 e2
        exact h.2 n l1 l2 e1 e2
    · rw [if_neg c2]
      refine ⟨false, rfl, ?_⟩
      simp only [Bool.false_eq_true, false_iff]
      intro h
      apply c2
      rw [List.all_eq_true]
      intro n hm
      rw [← GoMap.isSome_iff_mem, ← g2, ← h.1, g1] at hm
      exact hm
  · rw [if_neg c1]
    refine ⟨false, rfl, ?_⟩
    simp only [Bool.false_eq_true, false_iff]
    intro h
    apply c1
    rw [List.all_eq_true]
    intro n hm
    rw [← GoMap.isSome_iff_mem, ← g1, h.1, g2] at hm
    exact hm

/-- Grids that are not both `DenseInstances` are never strictly compatible. -/
theorem C26_strict_only_dense (g1 g2 : Grid) (names : List String)
    (h : ∀ d1 d2, ¬ (g1 = .dense d1 ∧ g2 = .dense d2)) :
    checkStrictlyCompatible g1 g2 names = Res.ok false := by
  cases g1 <;> cases g2 <;> simp_all [checkStrictlyCompatible]

section Witness
private def f (p : Nat) (n : String) : Attr := ⟨p, .float n 2⟩

/-- The full claim is false. With attributes [a, b] against [a] the call panics; with [a] against
[a, b] it answers true. -/
theorem C26_strict_fails :
    ((run 4096 [.add (f 0 "a"), .add (f 1 "b")]).bind fun s1 =>
      (run 4096 [.add (f 2 "a")]).map fun s2 =>
        (checkStrictlyCompatible (.dense s1.d) (.dense s2.d) ["FLOAT0"],
          checkStrictlyCompatible (.dense s2.d) (.dense s1.d) ["FLOAT0"],
          groupAttrs s1.d "FLOAT0", groupAttrs s2.d "FLOAT0")) =
    Res.ok (Res.panic, Res.ok true, some [f 0 "a", f 1 "b"], some [f 2 "a"]) := by decide +kernel

/-- Two grids with equal layouts meet the hypotheses of `C26_strict_partial` and are strictly
compatible; their attributes are different pointers. -/
example : ((run 4096 [.add (f 0 "a"), .add (f 1 "b")]).bind fun s1 =>
      (run 4096 [.add (f 2 "a"), .add (f 3 "b")]).map fun s2 =>
        (checkStrictlyCompatible (.dense s1.d) (.dense s2.d) ["FLOAT0"],
          checkCompatible (.dense s1.d) (.dense s2.d), s1.d.agMap.map Prod.fst)) =
    Res.ok (Res.ok true, some [f 0 "a", f 1 "b"], ["FLOAT0"]) := by decide +kernel
end Witness

end Golearn
