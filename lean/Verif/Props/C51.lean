import Verif.Props.C50

/-! # C51: the Gini index of the ID3 rule generator -/

namespace Golearn

section
variable {K : Type} [Field K] [LinearOrder K] [IsStrictOrderedRing K]

/-- The Gini index of a list of labels: one minus the sum of the squares of the proportions. -/
def giniOf (K : Type) [Field K] (ls : List String) : K :=
  1 - (ls.dedup.map fun c => ((ls.count c : K) / ls.length) * ((ls.count c : K) / ls.length)).sum

/-- The whole claim: for every distribution that counts some labels, the Gini index of the labels. -/
def C51_full (K : Type) [Field K] [LinearOrder K] : Prop :=
  ∀ (m : GoMap String Nat) (ls : List String), CountsL m ls → ls ≠ [] → computeGini (K := K) m = giniOf K ls

omit [IsStrictOrderedRing K] in
/-- The code answers one for every distribution: it reads the map of proportions before it stores anything in it. -/
theorem C51_always_one (m : GoMap String Nat) : computeGini (K := K) m = 1 := by
  have h : ∀ (s : GoMap String Nat), s.foldl (fun (p : GoMap String K) q =>
      if (GoMap.get? p q.1).getD 0 = 0 then p else p.set q.1 (1 / (GoMap.get? p q.1).getD 0)) [] = [] := by
    intro s
    induction s with
    | nil => rfl
    | cons q qs ih =>
      rw [List.foldl_cons]
      have : (GoMap.get? ([] : GoMap String K) q.1).getD 0 = 0 := rfl
      rw [if_pos this]
      exact ih
  unfold computeGini
  simp only [h]
  simp

/-- So the claim fails for every distribution of at least one label. -/
theorem C51_never_right (m : GoMap String Nat) (ls : List String) (hne : ls ≠ []) :
    computeGini (K := K) m ≠ giniOf K ls := by
  rw [C51_always_one, giniOf]
  obtain ⟨c, hc⟩ := List.exists_mem_of_ne_nil _ hne
  have hpos : 0 < (ls.dedup.map fun c => ((ls.count c : K) / ls.length) * ((ls.count c : K) / ls.length)).sum := by
    have hp := prop_pos (K := K) hc
    refine lt_of_lt_of_le (mul_pos hp hp) ?_
    refine List.single_le_sum ?_ _ (List.mem_map_of_mem (List.mem_dedup.2 hc))
    intro x hx
    obtain ⟨v, _, rfl⟩ := List.mem_map.1 hx
    exact mul_self_nonneg _
  intro h
  linarith

theorem C51_refuted : ¬ C51_full K := by
  intro h
  refine C51_never_right (K := K) [("a", 2)] ["a", "a"] (by simp) (h _ _ ?_ (by simp))
  refine ⟨by simp, ?_⟩
  intro c
  by_cases hc : c = "a"
  · subst hc; rfl
  · have : "a" ≠ c := fun h => hc h.symm
    simp [GoMap.get?, hc, this]

/-- The average over a split of any rows is one as well. -/
theorem C51_average_is_one (m : GoMap String (GoMap String Nat)) (sv cv : Nat → String) (rows : List Nat)
    (h : CountsBy m sv cv rows) (hne : rows ≠ []) : averageGini (K := K) m = some 1 := by
  have htot := totalOf_counts h
  have hlen : rows.length ≠ 0 := by
    intro h; exact hne (List.length_eq_zero_iff.1 h)
  have hK : ((rows.length : Nat) : K) ≠ 0 := by exact_mod_cast hlen
  unfold averageGini
  rw [sumO_some _ _ (fun p => ((((p.2.map Prod.snd).sum : Nat) : K) / ((rows.length : Nat) : K))) (by
    intro p _
    rw [htot, if_neg hlen, C51_always_one, mul_one])]
  congr 1
  have key : ∀ l : List Nat, (l.map fun x : Nat => (x : K) / (rows.length : K)).sum = ((l.sum : Nat) : K) / rows.length := by
    intro l
    induction l with
    | nil => simp
    | cons a as ih => rw [List.map_cons, List.sum_cons, ih, List.sum_cons, Nat.cast_add, add_div]
  have := key (m.map fun p => (p.2.map Prod.snd).sum)
  rw [List.map_map] at this
  have ht : (m.map fun p => (p.2.map Prod.snd).sum).sum = rows.length := htot
  rw [ht, div_self hK] at this
  exact this

omit [Field K] [LinearOrder K] [IsStrictOrderedRing K] in
theorem pickMin_equal {V : Type} [LinearOrder V] (v : V) (w : V × Rule) (hw : w.1 = v) (l : List (Attr × Option V × U64))
    (h : ∀ t ∈ l, t.2.1 = some v) : pickMin l (some w) = some w := by
  induction l with
  | nil => rfl
  | cons t ts ih =>
    obtain ⟨a, o, x⟩ := t
    have := h (a, o, x) (by simp)
    simp only at this
    subst this
    rw [pickMin, if_neg (by rw [hw]; exact lt_irrefl _)]
    exact ih fun t ht => h t (by simp [ht])

theorem localGini_one {e : RuleEnv K} (E : e.Ok) {g : Grid} {n : Nat} {lab : Nat → String} {cls : Attr}
    (D : TreeData e.fo g n lab cls) {val : U64 → K} {S : U64 → Prop} (X : g.ExactCells e n val S)
    {a : Attr} (ha : a ∈ g.allAttributes) : ∃ t, localGini e g a = Res.ok (some 1, t) := by
  have hne : List.range n ≠ [] := by
    have := D.nonempty
    simp only [ne_eq, List.range_eq_nil]; omega
  obtain ⟨s, s1, s2, s3⟩ := D.rows.read a ha
  by_cases hf : a.isFloat = true
  · obtain ⟨o, ho⟩ := numericEntropy_total E D X ha hf
    have hsplit : ∀ t : U64, ∃ m, distAfterThreshold e.fo g a t = Res.ok m ∧ averageGini (K := K) m = some 1 := by
      intro t
      obtain ⟨m, m1, m2⟩ := splitLoop_counts (fo := e.fo) (g := g) (s := s) (key := thresholdKey e.fo t)
        (sv := g.branch e.fo ⟨a, t⟩) (cv := lab) (List.range n) [] [] (countsBy_nil _ _) (by
          intro r hr
          have hr := List.mem_range.1 hr
          have := branch_key D.typed D.readable (r := ⟨a, t⟩) ha hr
          simp only [hf, if_true] at this
          exact ⟨_, s3 r hr, this, getClass_ok D.rows D.classAttr D.classIn D.label hr⟩)
      rw [List.nil_append] at m2
      refine ⟨m, ?_, C51_average_is_one m _ _ _ m2 hne⟩
      unfold distAfterThreshold
      simp only [s1, Res.orPanic, Res.bind_ok, hf, if_true, D.rows.rows, m1]
    cases o with
    | none =>
      obtain ⟨m, m1, m2⟩ := hsplit posInf
      exact ⟨posInf, by simp only [localGini, hf, if_true, ho, Res.bind_ok, m1, Res.map_ok, m2]⟩
    | some p =>
      obtain ⟨m, m1, m2⟩ := hsplit p.2
      exact ⟨p.2, by simp only [localGini, hf, if_true, ho, Res.bind_ok, m1, Res.map_ok, m2]⟩
  · obtain ⟨m, m1, m2⟩ := splitLoop_counts (fo := e.fo) (g := g) (s := s) (key := a.getString e.fo)
      (sv := g.branch e.fo ⟨a, 0⟩) (cv := lab) (List.range n) [] [] (countsBy_nil _ _) (by
        intro r hr
        have hr := List.mem_range.1 hr
        have := branch_key D.typed D.readable (r := ⟨a, 0⟩) ha hr
        simp only [hf, Bool.false_eq_true, if_false] at this
        exact ⟨_, s3 r hr, this, getClass_ok D.rows D.classAttr D.classIn D.label hr⟩)
    rw [List.nil_append] at m2
    refine ⟨0, ?_⟩
    unfold localGini distAfterSplit
    simp only [hf, Bool.false_eq_true, if_false, s1, Res.orPanic, Res.bind_ok, D.rows.rows, m1, Res.map_ok,
      C51_average_is_one m _ _ _ m2 hne]

/-- What a user sees: whatever the data, the Gini generator picks the first candidate, and the candidates come in the order
in which a map is iterated over. -/
theorem C51_picks_first (e : RuleEnv K) (E : e.Ok) (g : Grid) (n : Nat) (lab : Nat → String) (cls : Attr)
    (D : TreeData e.fo g n lab cls) (val : U64 → K) (S : U64 → Prop) (X : g.ExactCells e n val S) :
    ∃ a rest t, e.cands g.normalAttrs = a :: rest ∧ giniRule e g = Res.ok (some ⟨a, t⟩) := by
  have hne := cands_ne E D
  cases hl : e.cands g.normalAttrs with
  | nil => exact absurd hl hne
  | cons a rest =>
    have hsub : ∀ b ∈ a :: rest, b ∈ g.allAttributes := by
      intro b hb
      rw [← hl] at hb
      exact (List.mem_filter.1 ((cands_mem E D.classAttr b).1 hb)).1
    have hex : ∀ b, ∃ t, b ∈ a :: rest → localGini e g b = Res.ok (some 1, t) := by
      intro b
      by_cases hb : b ∈ a :: rest
      · obtain ⟨t, ht⟩ := localGini_one E D X (hsub b hb)
        exact ⟨t, fun _ => ht⟩
      · exact ⟨0, fun h => absurd h hb⟩
    choose t ht using hex
    refine ⟨a, rest, t a, rfl, ?_⟩
    unfold giniRule giniFrom
    rw [hl]
    simp only
    rw [mapRes_of_ok _ (fun b => (b, some (1 : K), t b)) _ (by
      intro b hb
      rw [ht b hb, Res.map_ok]), Res.map_ok]
    rw [List.map_cons, pickMin, pickMin_equal (1 : K) _ rfl]
    · rfl
    · intro x hx
      obtain ⟨b, _, rfl⟩ := List.mem_map.1 hx
      rfl
end

/-- The index of two labels a and two labels b should be one half, and that of a pure list zero. -/
example : giniOf ℚ ["a", "b", "a", "b"] = 1 / 2 ∧ giniOf ℚ ["a", "a"] = 0 := by
  constructor <;> decide +kernel

end Golearn
