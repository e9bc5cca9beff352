import Verif.Proofs.ChiTable
import Mathlib.Data.Rat.Defs
import Mathlib.Algebra.Order.Ring.Rat

/-! # C63: ChiMerge -/

namespace Golearn

variable {K : Type}

/-- The frequency table of any list of examples (number and class): the values of the entries are the numbers that occur, each once, and
every entry counts the examples with its value, per class. -/
theorem C63_table [DecidableEq K] (examples : List (K × String)) :
    ((tableOf examples).map FreqEntry.value).Nodup ∧
    (∀ v, v ∈ (tableOf examples).map FreqEntry.value ↔ ∃ x ∈ examples, x.1 = v) ∧
    ∀ e ∈ tableOf examples, e.Ok ∧ (∀ c, e.count c = examples.countP fun x => decide (x.1 = e.value ∧ x.2 = c)) ∧
      ∀ c, c ∈ e.freq.map Prod.fst ↔ (e.value, c) ∈ examples := by
  have h := tableOf_spec examples
  refine ⟨h.distinct, ?_, fun e he => ⟨h.ok e he, h.counts e he, h.classes e he⟩⟩
  intro v
  rw [h.values v, List.mem_map]

/-- The statistic is the chi-square sum over the classes of the two entries, with expected counts below one half raised to it. The order of
the classes does not matter. -/
theorem C63_statistic [Field K] [LinearOrder K] (a b : FreqEntry K) (ha : a.Ok) (hb : b.Ok) (cs : List String) (hcs : cs.Nodup)
    (hmem : ∀ c, c ∈ cs ↔ c ∈ a.freq.map Prod.fst ∨ c ∈ b.freq.map Prod.fst) :
    chiStatistic a.freq b.freq = chiSquare cs a b := by
  obtain ⟨a1, a2, a3⟩ := addCounts_spec a.freq ha []
  obtain ⟨b1, b2, b3⟩ := addCounts_spec b.freq hb (addCounts [] a.freq)
  have hnd := b1 (a1 (by simp))
  have hget : ∀ c, ((addCounts (addCounts [] a.freq) b.freq).get? c).getD 0 = a.count c + b.count c := by
    intro c
    rw [b2 c, a2 c]
    simp [GoMap.get?, FreqEntry.count]
  have hp : ((addCounts (addCounts [] a.freq) b.freq).map Prod.fst).Perm cs := by
    rw [List.perm_ext_iff_of_nodup hnd hcs]
    intro c
    rw [b3 c, a3 c, hmem c]
    simp
  have ta := freqTotal_eq a ha cs hcs fun c hc => (hmem c).2 (Or.inl hc)
  have tb := freqTotal_eq b hb cs hcs fun c hc => (hmem c).2 (Or.inr hc)
  unfold chiStatistic chiSquare
  simp only [ta, tb]
  rw [foldl_add_map (fun p : String × Nat => (chiTerm ((a.freq.get? p.1).getD 0) p.2 _ _ : K)),
    foldl_add_map (fun p : String × Nat => (chiTerm ((b.freq.get? p.1).getD 0) p.2 _ _ : K)), zero_add,
    sum_keys _ hnd (fun c n => (chiTerm ((a.freq.get? c).getD 0) n _ _ : K)),
    sum_keys _ hnd (fun c n => (chiTerm ((b.freq.get? c).getD 0) n _ _ : K)),
    (hp.map _).sum_eq, (hp.map _).sum_eq]
  congr 1
  · congr 1
    apply List.map_congr_left
    intro c _
    rw [hget c, chiTerm_eq]
    rfl
  · congr 1
    apply List.map_congr_left
    intro c _
    rw [hget c, chiTerm_eq]
    rfl

/-- The bounds in use: at least two, and more than the lower one. -/
def chiMin (minrows : Int) : Nat := (max 2 minrows).toNat
/-- See `chiMin`. -/
def chiMax (minrows maxrows : Int) : Nat := if max 2 minrows < maxrows then maxrows.toNat else chiMin minrows + 1

/-- `runs p` cuts a list into the maximal pieces in which neighbours are related: the pieces make up the list, none is empty, neighbours in
a piece are related, and the last of a piece and the first of the next are not. -/
theorem C63_runs {α : Type} (p : α → α → Bool) (l : List α) :
    (runs p l).flatten = l ∧ (∀ b ∈ runs p l, b ≠ []) ∧ (∀ b ∈ runs p l, b.IsChain fun x y => p x y = true) ∧
    (runs p l).IsChain fun b c => ∀ x ∈ b.getLast?, ∀ y ∈ c.head?, p x y = false := by
  refine ⟨runs_flatten p l, ?_⟩
  match l with
  | [] => simp [runs]
  | x :: l =>
    induction l generalizing x with
    | nil => simp [runs]
    | cons y l ih =>
      obtain ⟨i1, i2, i3⟩ := ih y
      obtain ⟨b, bs, hb⟩ := runs_cons p y l
      rw [hb] at i1 i2 i3
      cases h : p x y with
      | true =>
        rw [runs_true l h, hb]
        simp only [onHead, List.singleton_append, List.forall_mem_cons] at i1 i2 ⊢
        refine ⟨⟨by simp, i1.2⟩, ⟨List.IsChain.cons_cons h i2.1, i2.2⟩, ?_⟩
        cases bs with
        | nil => simp
        | cons c bs =>
          rw [List.isChain_cons_cons] at i3 ⊢
          refine ⟨?_, i3.2⟩
          intro z hz
          exact i3.1 z (by simpa using hz)
      | false =>
        rw [runs_false l h, hb]
        simp only [List.forall_mem_cons] at i1 i2 ⊢
        refine ⟨⟨by simp, i1⟩, ⟨by simp, i2⟩, ?_⟩
        rw [List.isChain_cons_cons]
        refine ⟨?_, i3⟩
        simp [h]

/-- For every frequency table, all bounds and every significance test: merging ends; every step merges exactly the neighbours with the least
statistic, and is only made if the table is longer than the upper bound or that statistic is not significant; at the end the table is no
longer than the lower bound, or no longer than the upper one with all statistics significant. The result consists of blocks of neighbours
in their order; for every class the number of examples is that of the table at the start. -/
theorem C63_merge [Field K] [LinearOrder K] (below : Nat → K → Bool) (minrows maxrows : Int) (t : List (FreqEntry K))
    (hok : ∀ e ∈ t, e.Ok) :
    ∃ out, chiMergeTable below minrows maxrows t = Res.ok out ∧
      Relation.ReflTransGen (ChiStep (below ((chiClasses t).length - 1)) (chiMin minrows) (chiMax minrows maxrows)) t out ∧
      ChiDone (below ((chiClasses t).length - 1)) (chiMin minrows) (chiMax minrows maxrows) out ∧
      Coarser t out ∧
      (out.map FreqEntry.value).Sublist (t.map FreqEntry.value) ∧
      ∀ c, (out.map fun e => e.count c).sum = (t.map fun e => e.count c).sum := by
  have hmn : (if 2 ≤ minrows then minrows else 2).toNat = chiMin minrows := by
    unfold chiMin
    split
    · rw [max_eq_right (by assumption)]
    · rw [max_eq_left (by omega)]
  have hmx : (if (if 2 ≤ minrows then minrows else 2) < maxrows then maxrows else (if 2 ≤ minrows then minrows else 2) + 1).toNat =
      chiMax minrows maxrows := by
    unfold chiMax chiMin
    by_cases h : 2 ≤ minrows
    · rw [if_pos h, max_eq_right h]; split <;> omega
    · rw [if_neg h, max_eq_left (by omega)]; split <;> omega
  obtain ⟨out, h1, h2, h3, h4⟩ := chiLoop_spec (below ((chiClasses t).length - 1)) (chiMin minrows) (chiMax minrows maxrows)
    (by unfold chiMin; omega) t.length t le_rfl hok
  have hc := coarser_of_steps h2
  refine ⟨out, ?_, h2, h3, hc, ?_, ?_⟩
  · unfold chiMergeTable
    simp only [hmn, hmx]
    exact h1
  · obtain ⟨bs, e, hf⟩ := hc
    subst e
    exact forall₂_merged_values hf
  · intro c
    obtain ⟨bs, e, hf⟩ := hc
    subst e
    clear h1 h2 h3 h4 hok
    induction hf with
    | nil => rfl
    | cons h1 _ ih => rw [List.map_cons, List.sum_cons, ih, h1.2.1 c, List.flatten_cons, List.map_append, List.sum_append]

/-- The classes of all entries of the table, each once: their number less one is the number of degrees of freedom. -/
theorem C63_classes (t : List (FreqEntry K)) (hok : ∀ e ∈ t, e.Ok) :
    ((chiClasses t).map Prod.fst).Nodup ∧ (∀ c, c ∈ (chiClasses t).map Prod.fst ↔ ∃ e ∈ t, c ∈ e.freq.map Prod.fst) ∧
    ∀ c, ((chiClasses t).get? c).getD 0 = (t.map fun e => e.count c).sum := by
  have key : ∀ (m : GoMap String Nat), (m.map Prod.fst).Nodup → ((t.foldl (fun m e => addCounts m e.freq) m).map Prod.fst).Nodup ∧
      (∀ c, c ∈ (t.foldl (fun m e => addCounts m e.freq) m).map Prod.fst ↔ c ∈ m.map Prod.fst ∨ ∃ e ∈ t, c ∈ e.freq.map Prod.fst) ∧
      ∀ c, ((t.foldl (fun m e => addCounts m e.freq) m).get? c).getD 0 = (m.get? c).getD 0 + (t.map fun e => e.count c).sum := by
    induction t with
    | nil => intro m hm; exact ⟨hm, by simp, by simp⟩
    | cons e t ih =>
      intro m hm
      obtain ⟨a1, a2, a3⟩ := addCounts_spec e.freq (hok e (by simp)) m
      obtain ⟨i1, i2, i3⟩ := ih (fun x hx => hok x (by simp [hx])) (addCounts m e.freq) (a1 hm)
      refine ⟨i1, ?_, ?_⟩
      · intro c
        rw [List.foldl_cons, i2 c, a3 c]
        simp [or_assoc]
      · intro c
        rw [List.foldl_cons, i3 c, a2 c, List.map_cons, List.sum_cons, Nat.add_assoc]
        rfl
  obtain ⟨h1, h2, h3⟩ := key [] (by simp)
  exact ⟨h1, fun c => by rw [chiClasses, h2 c]; simp, fun c => by rw [chiClasses, h3 c]; simp [GoMap.get?]⟩

/-- For examples in ascending order the intervals of the result cover the numbers: the entry of an interval counts, per class, the examples
from its value up to the next one. -/
theorem C63_intervals [Field K] [LinearOrder K] (below : Nat → K → Bool) (minrows maxrows : Int) (examples : List (K × String))
    (hasc : examples.Pairwise fun x y => x.1 ≤ y.1) :
    ∃ out, chiMergeTable below minrows maxrows (tableOf examples) = Res.ok out ∧ CountsIntervals examples out ∧
      ∀ x, examples.head? = some x → (out.map FreqEntry.value).head? = some x.1 := by
  obtain ⟨out, h1, h2, h3, h4, h5, h6⟩ := C63_merge below minrows maxrows (tableOf examples) (tableOf_spec examples).ok
  refine ⟨out, h1, coarser_intervals h4 (tableOf_intervals examples hasc), ?_⟩
  intro x hx
  match examples, hx with
  | y :: ys, hx =>
    simp only [List.head?_cons, Option.some.injEq] at hx
    subst hx
    have hhead : ((tableOf (y :: ys)).map FreqEntry.value).head? = some y.1 := by
      have hs := tableOf_spec (y :: ys)
      have ha := tableOf_ascending _ hasc
      have hy : y.1 ∈ (tableOf (y :: ys)).map FreqEntry.value := (hs.values _).2 (by simp)
      cases hv : (tableOf (y :: ys)).map FreqEntry.value with
      | nil => rw [hv] at hy; simp at hy
      | cons v vs =>
        have hmin : y.1 ≤ v := by
          have : v ∈ (y :: ys).map Prod.fst := (hs.values v).1 (by rw [hv]; simp)
          obtain ⟨z, hz, e⟩ := List.mem_map.1 this
          rcases List.mem_cons.1 hz with rfl | hz
          · exact e.le
          · rw [← e]; exact (List.pairwise_cons.1 hasc).1 z hz
        rw [hv] at ha hy
        rcases List.mem_cons.1 hy with e | hy
        · rw [e]; rfl
        · exact absurd ((List.pairwise_cons.1 ha).1 _ hy) (not_lt.2 hmin)
    obtain ⟨bs, e, hf⟩ := h4
    rw [← e] at hhead
    cases hf with
    | nil => simp at hhead
    | cons m1 m2 =>
      obtain ⟨⟨z, rest, e1, e2⟩, _⟩ := m1
      subst e1
      simp only [List.flatten_cons, List.cons_append, List.map_cons, List.head?_cons, Option.some.injEq] at hhead ⊢
      rw [e2, hhead]

/-- Five examples of two classes; three entries with the values 1, 2 and 4; the statistic of the first two is lower, and they are
merged. -/
example : ([(1, "a"), (1, "a"), (2, "a"), (4, "b"), (4, "b")] : List (ℚ × String)).Pairwise (fun x y => x.1 ≤ y.1) ∧
    chiMergeTable (fun _ x => decide (x < 1)) 2 3 (tableOf ([(1, "a"), (1, "a"), (2, "a"), (4, "b"), (4, "b")] : List (ℚ × String))) =
      Res.ok [⟨1, [("a", 3)]⟩, ⟨4, [("b", 2)]⟩] := by
  decide +kernel

/-- The claim that at least `MinRows` intervals remain (filters/chimerge.go:43: "the minimum number of rows required"). -/
def KeepsMinRows (K : Type) [Field K] [LinearOrder K] : Prop :=
  ∀ (below : Nat → K → Bool) (minrows maxrows : Int) (t out : List (FreqEntry K)), (∀ e ∈ t, e.Ok) → minrows ≤ t.length →
    chiMergeTable below minrows maxrows t = Res.ok out → minrows ≤ out.length

/-- It fails: all neighbours with the least statistic are merged in one step. Three values of one class become one interval. -/
theorem C63_min_rows_refuted : ¬ KeepsMinRows ℚ := by
  intro h
  have := h (fun _ x => decide (x < 1)) 2 3 (tableOf [(1, "a"), (2, "a"), (3, "a")]) [⟨1, [("a", 3)]⟩]
    (tableOf_spec _).ok (by decide +kernel) (by decide +kernel)
  simp at this

end Golearn
