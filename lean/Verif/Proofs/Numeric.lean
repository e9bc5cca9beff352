import Verif.Proofs.Entropy
import Mathlib.Data.List.Pairwise

/-! # Lemmas about thresholds for numeric attributes -/

namespace Golearn

variable {K : Type} [Field K] [LinearOrder K] [IsStrictOrderedRing K]

omit [IsStrictOrderedRing K] in
theorem entropyOf_perm (lg : K → K) {l l' : List String} (h : l.Perm l') : entropyOf lg l = entropyOf lg l' := by
  unfold entropyOf
  congr 1
  have hp : l.dedup.Perm l'.dedup := h.dedup
  rw [h.length_eq, (hp.map fun c => (l.count c : K) / l'.length * lg ((l.count c : K) / l'.length)).sum_eq]
  congr 1
  apply List.map_congr_left
  intro c _
  rw [h.count_eq]

/-- The weighted entropy of two groups. -/
def twoEntropy (lg : K → K) (a b : List String) (n : Nat) : K :=
  (a.length : K) / n * entropyOf lg a + (b.length : K) / n * entropyOf lg b

theorem sum_counts_cls {cls ls : List String} (hn : cls.Nodup) (hm : ∀ c ∈ ls, c ∈ cls) {s : String → Nat}
    (hs : ∀ c, s c = ls.count c) : (cls.map s).sum = ls.length := by
  have e : cls.map s = cls.map fun c => ls.count c := List.map_congr_left fun c _ => hs c
  rw [e, ← sum_count_dedup ls]
  have hp : (cls.filter fun c => decide (c ∈ ls)).Perm ls.dedup := by
    refine (List.perm_ext_iff_of_nodup (hn.filter _) (List.nodup_dedup ls)).2 ?_
    intro c
    rw [List.mem_filter, List.mem_dedup, decide_eq_true_eq]
    exact ⟨fun h => h.2, fun h => ⟨hm c h, h⟩⟩
  rw [← (hp.map fun c => ls.count c).sum_eq]
  clear e hs hp hn hm
  induction cls with
  | nil => rfl
  | cons c cs ih =>
    rw [List.map_cons, List.sum_cons, ih, List.filter_cons]
    by_cases h : c ∈ ls
    · simp [h]
    · simp [h, List.count_eq_zero.2 h]

theorem sideEntropy_spec {lg : K → K} (hlg : Logarithm lg) {cls ls : List String} (hn : cls.Nodup)
    (hm : ∀ c ∈ ls, c ∈ cls) {s : String → Nat} (hs : ∀ c, s c = ls.count c) {n : Nat} (hn0 : n ≠ 0) :
    sideEntropy lg cls s n = if ls = [] then none else some ((ls.length : K) / n * entropyOf lg ls) := by
  unfold sideEntropy
  rw [sum_counts_cls hn hm hs]
  by_cases he : ls = []
  · subst he
    simp only [List.length_nil, xlog, true_or, if_true, Option.map_none]
    have hb : ∀ o : Option K, (o.bind fun _ => (none : Option K)) = none := fun o => by cases o <;> rfl
    exact hb _
  · have hl : ls.length ≠ 0 := fun h => he (List.length_eq_zero_iff.1 h)
    have hp : (cls.filter fun c => decide (s c ≠ 0)).Perm ls.dedup := by
      refine (List.perm_ext_iff_of_nodup (hn.filter _) (List.nodup_dedup ls)).2 ?_
      intro c
      rw [List.mem_filter, List.mem_dedup, decide_eq_true_eq, hs c]
      constructor
      · intro h; exact List.count_pos_iff.1 (Nat.pos_of_ne_zero h.2)
      · intro h; exact ⟨hm c h, (Nat.pos_iff_ne_zero.1 (List.count_pos_iff.2 h))⟩
    have hsum : sumO ((cls.filter fun c => decide (s c ≠ 0)).map fun c => xlog lg (s c) n) = some (plog lg ls n) := by
      rw [sumO_perm (hp.map fun c => xlog lg (s c) n)]
      apply sumO_some
      intro c hc
      have : ls.count c ≠ 0 := by
        have := List.count_pos_iff.2 (List.mem_dedup.1 hc); omega
      simp only [xlog, hs c, this, hn0, or_self, if_false]
    rw [hsum, Option.bind_some, if_neg he]
    simp only [xlog, hl, hn0, or_self, if_false, Option.map_some]
    rw [group_entropy hlg he hn0]

theorem splitEntropyFast_spec {lg : K → K} (hlg : Logarithm lg) {cls a b : List String} (hn : cls.Nodup)
    (ha : ∀ c ∈ a, c ∈ cls) (hb : ∀ c ∈ b, c ∈ cls) {l r : String → Nat} (hl : ∀ c, l c = a.count c)
    (hr : ∀ c, r c = b.count c) (hne : a ≠ [] ∧ b ≠ []) :
    splitEntropyFast lg cls l r = some (twoEntropy lg a b (a.length + b.length)) := by
  have h0 : a.length + b.length ≠ 0 := by
    have := List.length_pos_of_ne_nil hne.1; omega
  unfold splitEntropyFast
  rw [sum_counts_cls hn ha hl, sum_counts_cls hn hb hr, sideEntropy_spec hlg hn ha hl h0,
    sideEntropy_spec hlg hn hb hr h0, if_neg hne.1, if_neg hne.2]
  simp only [sumO, Option.bind_some, Option.map_some, add_zero]
  rfl

theorem splitEntropyFast_none {lg : K → K} (hlg : Logarithm lg) {cls a b : List String} (hn : cls.Nodup)
    (ha : ∀ c ∈ a, c ∈ cls) (hb : ∀ c ∈ b, c ∈ cls) {l r : String → Nat} (hl : ∀ c, l c = a.count c)
    (hr : ∀ c, r c = b.count c) (hne : a = [] ∨ b = []) :
    splitEntropyFast lg cls l r = none := by
  unfold splitEntropyFast
  rw [sum_counts_cls hn ha hl, sum_counts_cls hn hb hr]
  by_cases h0 : a.length + b.length = 0
  · have : sideEntropy lg cls l (a.length + b.length) = none := by
      unfold sideEntropy
      rw [h0]
      simp only [xlog, or_true, if_true, Option.map_none]
      cases sumO ((cls.filter fun c => decide (l c ≠ 0)).map fun _ => (none : Option K)) <;> rfl
    rw [this]; rfl
  · rw [sideEntropy_spec hlg hn ha hl h0, sideEntropy_spec hlg hn hb hr h0]
    rcases hne with h | h
    · rw [if_pos h]; rfl
    · rw [if_pos h]
      cases (if a = [] then none else some ((a.length : K) / (a.length + b.length : Nat) * entropyOf lg a)) <;> rfl

/-! ## Grouping in two -/

omit [IsStrictOrderedRing K] in
/-- The conditional entropy for two groups. -/
theorem condEntropy_two (lg : K → K) {lab : Nat → String} {n : Nat} {p : Nat → Bool}
    (h0 : ∃ q, q < n ∧ p q = false) (h1 : ∃ q, q < n ∧ p q = true) :
    condEntropy lg lab (fun r => if p r then "1" else "0") n =
      twoEntropy lg (((List.range n).filter fun r => !p r).map lab) (((List.range n).filter p).map lab) n := by
  have hd : (((List.range n).map fun r => if p r then "1" else "0").dedup).Perm ["0", "1"] := by
    refine (List.perm_ext_iff_of_nodup (List.nodup_dedup _) (by decide)).2 ?_
    intro c
    rw [List.mem_dedup, List.mem_map]
    constructor
    · rintro ⟨r, _, rfl⟩
      cases p r <;> simp
    · intro hc
      simp only [List.mem_cons, List.not_mem_nil, or_false] at hc
      rcases hc with rfl | rfl
      · obtain ⟨q, hq, h⟩ := h0
        exact ⟨q, List.mem_range.2 hq, by simp [h]⟩
      · obtain ⟨q, hq, h⟩ := h1
        exact ⟨q, List.mem_range.2 hq, by simp [h]⟩
  unfold condEntropy
  rw [(hd.map _).sum_eq]
  have e0 : labelsAt lab (fun r => if p r then "1" else "0") n "0" = ((List.range n).filter fun r => !p r).map lab := by
    unfold labelsAt
    congr 1
    apply List.filter_congr
    intro r _
    cases h : p r <;> simp [h]
  have e1 : labelsAt lab (fun r => if p r then "1" else "0") n "1" = ((List.range n).filter p).map lab := by
    unfold labelsAt
    congr 1
    apply List.filter_congr
    intro r _
    cases h : p r <;> simp [h]
  simp only [List.map_cons, List.map_nil, List.sum_cons, List.sum_nil, add_zero, e0, e1]
  rfl

omit [IsStrictOrderedRing K] in
theorem twoEntropy_perm (lg : K → K) {a a' b b' : List String} (ha : a.Perm a') (hb : b.Perm b') (n : Nat) :
    twoEntropy lg a b n = twoEntropy lg a' b' n := by
  unfold twoEntropy
  rw [ha.length_eq, hb.length_eq, entropyOf_perm lg ha, entropyOf_perm lg hb]

/-- The conditional entropy from any list of the rows' values with their labels. -/
theorem condEntropy_refs (lg : K → K) {lab : Nat → String} {x : Nat → U64} {n : Nat} {refs : List (U64 × String)}
    (hp : refs.Perm ((List.range n).map fun r => (x r, lab r))) {p : U64 → Bool}
    (h0 : ∃ q, q < n ∧ p (x q) = false) (h1 : ∃ q, q < n ∧ p (x q) = true) :
    condEntropy lg lab (fun r => if p (x r) then "1" else "0") n =
      twoEntropy lg ((refs.filter fun a => !p a.1).map Prod.snd) ((refs.filter fun a => p a.1).map Prod.snd) n := by
  rw [condEntropy_two lg (p := fun r => p (x r)) h0 h1]
  apply twoEntropy_perm
  · have := (hp.filter fun a => !p a.1).map Prod.snd
    rw [List.filter_map, List.map_map] at this
    exact this.symm
  · have := (hp.filter fun a => p a.1).map Prod.snd
    rw [List.filter_map, List.map_map] at this
    exact this.symm

omit [Field K] [IsStrictOrderedRing K] in
/-- In a sorted list the elements up to a bound come first. -/
theorem sorted_cut {α : Type} (f : α → K) (l : List α) (hs : l.Pairwise fun a b => f a ≤ f b) (t : K) :
    ∃ k, k ≤ l.length ∧ l.filter (fun a => decide (¬ t < f a)) = l.take k ∧ l.filter (fun a => decide (t < f a)) = l.drop k := by
  induction l with
  | nil => exact ⟨0, by simp⟩
  | cons a as ih =>
    obtain ⟨h1, h2⟩ := List.pairwise_cons.1 hs
    by_cases h : t < f a
    · refine ⟨0, by simp, ?_, ?_⟩
      · rw [List.take_zero, List.filter_eq_nil_iff]
        intro b hb
        rcases List.mem_cons.1 hb with rfl | hb
        · simp [h]
        · simpa using lt_of_lt_of_le h (h1 b hb)
      · rw [List.drop_zero, List.filter_eq_self]
        intro b hb
        rcases List.mem_cons.1 hb with rfl | hb
        · simpa using h
        · simpa using lt_of_lt_of_le h (h1 b hb)
    · obtain ⟨k, k0, k1, k2⟩ := ih h2
      refine ⟨k + 1, by simpa using k0, ?_, ?_⟩
      · rw [List.filter_cons_of_pos (by simpa using h), List.take_succ_cons, k1]
      · rw [List.filter_cons_of_neg (by simpa using h), List.drop_succ_cons, k2]

/-! ## The scan -/

section scan
variable (e : RuleEnv K) (refs : List (U64 × String))

/-- The midpoint after position `i`. -/
def midAt (i : Nat) : U64 := e.mid (refs.getD i (0, "")).1 (refs.getD (i + 1) (0, "")).1

/-- The entropy of the split after position `i`. -/
def cutEntropy (i : Nat) : K :=
  twoEntropy e.lg ((refs.take (i + 1)).map Prod.snd) ((refs.drop (i + 1)).map Prod.snd) refs.length

/-- What is known about the best split after looking at the first `i`. -/
def BestSoFar (i : Nat) (best : Option (K × U64)) : Prop :=
  (i = 0 ∧ best = none) ∨
  ∃ j, j < i ∧ best = some (cutEntropy e refs j, midAt e refs j) ∧ ∀ k, k < i → cutEntropy e refs j ≤ cutEntropy e refs k
end scan

omit [IsStrictOrderedRing K] in
theorem bestSoFar_step {e : RuleEnv K} {refs : List (U64 × String)} {i : Nat} {best : Option (K × U64)}
    (h : BestSoFar e refs i best) :
    BestSoFar e refs (i + 1) (match (generalizing := false) best with
      | none => some (cutEntropy e refs i, midAt e refs i)
      | some p => if cutEntropy e refs i < p.1 then some (cutEntropy e refs i, midAt e refs i) else best) := by
  right
  rcases h with ⟨rfl, rfl⟩ | ⟨j, hj, rfl, hmin⟩
  · refine ⟨0, by omega, rfl, ?_⟩
    intro k hk
    have : k = 0 := by omega
    rw [this]
  · simp only
    by_cases hlt : cutEntropy e refs i < cutEntropy e refs j
    · rw [if_pos hlt]
      refine ⟨i, by omega, rfl, ?_⟩
      intro k hk
      by_cases hki : k = i
      · rw [hki]
      · exact (hlt.le).trans (hmin k (by omega))
    · rw [if_neg hlt]
      refine ⟨j, by omega, rfl, ?_⟩
      intro k hk
      by_cases hki : k = i
      · rw [hki]; exact not_lt.1 hlt
      · exact hmin k (by omega)

theorem getElem?_getD {α : Type} (l : List α) (i : Nat) (d : α) (h : i < l.length) : l[i]? = some (l.getD i d) := by
  simp [List.getD, h]

/-- For strictly increasing values the scan looks at every position once. -/
theorem scanLoop_strict {e : RuleEnv K} (hlg : Logarithm e.lg) {cls : List String} (hcls : cls.Nodup)
    {refs : List (U64 × String)} (hm : ∀ a ∈ refs, a.2 ∈ cls) {val : U64 → K} {D : U64 → Prop} (X : ExactOn e val D)
    (hD : ∀ a ∈ refs, D a.1) (hs : refs.Pairwise fun a b => val a.1 < val b.1) :
    ∀ fuel i prev l r best, refs.length < i + fuel → (i + 1 ≤ refs.length ∨ refs.length = 0 ∧ i = 0) →
      (prev = if i = 0 then none else some (midAt e refs (i - 1))) →
      (∀ c, l c = ((refs.take i).map Prod.snd).count c) → (∀ c, r c = ((refs.drop i).map Prod.snd).count c) →
      BestSoFar e refs i best →
      ∃ out, scanLoop e cls refs fuel i prev (refs.drop i) l r best = Res.ok out ∧
        BestSoFar e refs (refs.length - 1) out := by
  intro fuel
  induction fuel with
  | zero => intro i prev l r best h1 h2; omega
  | succ fuel ih =>
    intro i prev l r best hf hi hprev hl hr hb
    by_cases hlast : i + 1 < refs.length
    · have g1 := getElem?_getD refs i (0, "") (by omega)
      have g2 := getElem?_getD refs (i + 1) (0, "") hlast
      set a := refs.getD i (0, "") with ha
      set b := refs.getD (i + 1) (0, "") with hbdef
      have ha' : refs[i]'(by omega) = a := by rw [List.getElem?_eq_getElem (by omega)] at g1; exact Option.some.inj g1
      have hb' : refs[i + 1] = b := by rw [List.getElem?_eq_getElem hlast] at g2; exact Option.some.inj g2
      have hlt : val a.1 < val b.1 := by
        rw [← ha', ← hb']
        exact List.pairwise_iff_getElem.1 hs i (i + 1) (by omega) hlast (by omega)
      have ham : a ∈ refs := ha' ▸ List.getElem_mem _
      have hbm : b ∈ refs := hb' ▸ List.getElem_mem _
      have hv : midAt e refs i = e.mid a.1 b.1 := rfl
      obtain ⟨m1, m2⟩ := X.between a.1 b.1 (hD a ham) (hD b hbm) hlt
      have hmid : OrMid e.mid D (e.mid a.1 b.1) := Or.inr ⟨_, _, hD a ham, hD b hbm, rfl⟩
      -- the value is not the previous one
      have hne : ∀ p, prev = some p → e.feq (e.mid a.1 b.1) p = false := by
        intro p hpp
        by_cases h0 : i = 0
        · rw [hprev, if_pos h0] at hpp
          cases hpp
        · rw [hprev, if_neg h0] at hpp
          cases hpp
          have gp := getElem?_getD refs (i - 1) (0, "") (by omega)
          set p := refs.getD (i - 1) (0, "") with hp
          have hp' : refs[i - 1]'(by omega) = p := by
            rw [List.getElem?_eq_getElem (by omega)] at gp; exact Option.some.inj gp
          have hpm : p ∈ refs := hp' ▸ List.getElem_mem _
          have hpa : val p.1 < val a.1 := by
            rw [← ha', ← hp']
            exact List.pairwise_iff_getElem.1 hs (i - 1) i (by omega) (by omega) (by omega)
          have hmp : midAt e refs (i - 1) = e.mid p.1 a.1 := by
            unfold midAt
            rw [Nat.sub_add_cancel (by omega)]
          obtain ⟨n1, n2⟩ := X.between p.1 a.1 (hD p hpm) (hD a ham) hpa
          cases hfe : e.feq (e.mid a.1 b.1) (midAt e refs (i - 1)) with
          | false => rfl
          | true =>
            rw [hmp] at hfe
            have := (X.feq _ _ hmid (Or.inr ⟨_, _, hD p hpm, hD a ham, rfl⟩)).1 hfe
            linarith
      -- exactly one element moves
      have hdrop : refs.drop i = a :: refs.drop (i + 1) := by
        rw [← ha']; exact List.drop_eq_getElem_cons (by omega)
      have hdrop2 : refs.drop (i + 1) = b :: refs.drop (i + 2) := by
        rw [← hb']; exact List.drop_eq_getElem_cons hlast
      have t1 : e.fo.gt (e.mid a.1 b.1) a.1 = true := (X.gt _ _ hmid (Or.inl (hD a ham))).2 m1
      have t2 : e.fo.gt (e.mid a.1 b.1) b.1 = false := by
        cases h : e.fo.gt (e.mid a.1 b.1) b.1 with
        | false => rfl
        | true =>
          have := (X.gt _ _ hmid (Or.inl (hD b hbm))).1 h
          exact absurd this (not_lt.2 m2.le)
      have hmoved : (refs.drop i).takeWhile (fun x => e.fo.gt (e.mid a.1 b.1) x.1) = [a] := by
        rw [hdrop, List.takeWhile_cons, t1, hdrop2, List.takeWhile_cons, t2]; rfl
      have hl' : ∀ c, bump l a.2 c = ((refs.take (i + 1)).map Prod.snd).count c := by
        intro c
        rw [List.take_succ_eq_append_getElem (by omega), List.map_append, List.count_append, ha']
        simp only [bump, hl c, List.map_cons, List.map_nil, List.count_cons, List.count_nil]
        by_cases hc : c = a.2
        · subst hc; simp
        · have : a.2 ≠ c := fun h => hc h.symm
          simp [hc, this]
      have hr' : ∀ c, drop1 r a.2 c = ((refs.drop (i + 1)).map Prod.snd).count c := by
        intro c
        have := hr c
        rw [hdrop, List.map_cons, List.count_cons] at this
        simp only [drop1, this]
        by_cases hc : c = a.2
        · subst hc; simp
        · have : a.2 ≠ c := fun h => hc h.symm
          simp [hc, this]
      have hsplit : splitEntropyFast e.lg cls (bump l a.2) (drop1 r a.2) = some (cutEntropy e refs i) := by
        rw [splitEntropyFast_spec hlg hcls (a := (refs.take (i + 1)).map Prod.snd) (b := (refs.drop (i + 1)).map Prod.snd)
          ?_ ?_ hl' hr' ?_]
        · unfold cutEntropy
          congr 2
          rw [List.length_map, List.length_map, List.length_take, List.length_drop]
          omega
        · intro c hc
          obtain ⟨x, hx, rfl⟩ := List.mem_map.1 hc
          exact hm x (List.mem_of_mem_take hx)
        · intro c hc
          obtain ⟨x, hx, rfl⟩ := List.mem_map.1 hc
          exact hm x (List.mem_of_mem_drop hx)
        · constructor
          · intro h
            have := congrArg List.length h
            simp only [List.length_map, List.length_take, List.length_nil] at this
            omega
          · rw [hdrop2]; simp
      rw [scanLoop, g1, g2]
      simp only
      rw [if_neg (by
        cases hq : prev with
        | none => exact Bool.false_ne_true
        | some p => exact fun h => absurd ((hne p hq).symm.trans h) Bool.false_ne_true)]
      simp only [hmoved, List.foldl_cons, List.foldl_nil, hsplit, List.length_singleton]
      rw [List.drop_drop]
      refine ih (i + 1) _ _ _ _ (by omega) (Or.inl (by omega)) ?_ hl' hr' ?_
      · simp [hv]
      · have := bestSoFar_step hb
        rw [hv] at this
        cases best <;> exact this
    · have hnone : refs[i + 1]? = none := List.getElem?_eq_none (by omega)
      refine ⟨best, ?_, ?_⟩
      · rw [scanLoop, hnone]
        cases refs[i]? <;> rfl
      · have : refs.length - 1 = i := by omega
        rw [this]; exact hb

end Golearn
