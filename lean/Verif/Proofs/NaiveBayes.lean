import Verif.Spec.NaiveBayes
import Verif.Proofs.PredLoop
import Verif.Proofs.Counts
import Verif.Proofs.ChiTable
import Verif.Proofs.RuleGen
import Verif.Props.C27
import Verif.Props.C28
import Verif.Proofs.KnnSearch
import Mathlib.Tactic.FieldSimp
import Mathlib.Tactic.Linarith

/-! # Naive Bayes: lemmas -/

namespace Golearn

theorem features_eq (g : Grid) : attrDifference g.allAttributes g.allClassAttributes = g.nonClass :=
  C27_difference _ _

/-! ## Training -/

/-- The counter of feature `i` of class `c`. -/
def docCount (m : GoMap String (List Nat)) (c : String) (i : Nat) : Nat := ((m.get? c).getD []).getD i 0

/-- All slices of the map have `f` entries. -/
def SizedDocs (f : Nat) (m : GoMap String (List Nat)) : Prop := ∀ c t, m.get? c = some t → t.length = f

theorem nbFeatures_spec (f : Nat) (cls : String) (vals : List Bytes) (hv : ∀ v ∈ vals, ∃ b, v = [b]) (j : Nat)
    (hj : j + vals.length ≤ f) (m : GoMap String (List Nat)) (hm : SizedDocs f m) :
    ∃ m', nbFeatures f cls vals j m = Res.ok m' ∧ SizedDocs f m' ∧
      (∀ c, (m'.get? c).isSome ↔ (m.get? c).isSome ∨ c = cls ∧ ∃ v ∈ vals, v.headD 0#8 ≠ 0#8) ∧
      ∀ c i, docCount m' c i = docCount m c i +
        if c = cls ∧ j ≤ i ∧ (vals.getD (i - j) []).headD 0#8 ≠ 0#8 then 1 else 0 := by
  induction vals generalizing j m with
  | nil => exact ⟨m, rfl, hm, by simp, by simp⟩
  | cons v vs ih =>
    obtain ⟨b, rfl⟩ := hv v List.mem_cons_self
    rw [List.length_cons] at hj
    have hshift : ∀ i, j + 1 ≤ i → ([b] :: vs).getD (i - j) [] = vs.getD (i - (j + 1)) [] := by
      intro i hi
      rw [show i - j = (i - (j + 1)) + 1 by omega, List.getD_cons_succ]
    by_cases hb : b = 0#8
    · obtain ⟨m', h1, h2, h3, h4⟩ := ih (fun v hv' => hv v (List.mem_cons_of_mem _ hv')) (j + 1) (by omega) m hm
      refine ⟨m', ?_, h2, ?_, ?_⟩
      · subst hb
        simpa [nbFeatures] using h1
      · intro c
        rw [h3]
        simp [hb]
      · intro c i
        rw [h4]
        congr 1
        by_cases hi : j + 1 ≤ i
        · rw [hshift i hi]
          simp [hi, show j ≤ i by omega]
        · rw [if_neg (by omega)]
          by_cases hij : i = j
          · rw [if_neg]
            rintro ⟨_, _, h⟩
            rw [hij, Nat.sub_self, List.getD_cons_zero] at h
            exact h (by simpa using hb)
          · rw [if_neg]
            rintro ⟨_, h, _⟩
            omega
    · have hpos : 0 < b.toNat := by
        rcases Nat.eq_zero_or_pos b.toNat with h | h
        · exact absurd (BitVec.eq_of_toNat_eq (by rw [h]; rfl)) hb
        · exact h
      set t := (m.get? cls).getD (List.replicate f 0) with ht
      have htl : t.length = f := by
        rw [ht]
        cases hc : m.get? cls with
        | none => simp
        | some t' => simpa using hm cls t' hc
      have hjt : j < t.length := by omega
      have hdt : ∀ i, docCount m cls i = t.getD i 0 := by
        intro i
        rw [docCount, ht]
        cases hc : m.get? cls with
        | none => simp [List.getD_eq_getElem?_getD, List.getElem?_replicate]; split <;> rfl
        | some t' => simp
      obtain ⟨m', h1, h2, h3, h4⟩ := ih (fun v hv' => hv v (List.mem_cons_of_mem _ hv')) (j + 1) (by omega)
        (m.set cls (t.set j (t[j] + 1))) (by
          intro c t' hc
          rw [GoMap.get?_set] at hc
          by_cases hcc : cls = c
          · rw [if_pos hcc, Option.some.injEq] at hc
            rw [← hc, List.length_set]; exact htl
          · rw [if_neg hcc] at hc
            exact hm c t' hc)
      refine ⟨m', ?_, h2, ?_, ?_⟩
      · simp only [nbFeatures]
        rw [if_pos hpos, ← ht, List.getElem?_eq_getElem hjt]
        exact h1
      · intro c
        rw [h3, GoMap.get?_set]
        by_cases hcc : cls = c
        · subst hcc
          simp [hb]
        · rw [if_neg hcc]
          simp [Ne.symm hcc]
      · intro c i
        rw [h4]
        have hset : docCount (m.set cls (t.set j (t[j] + 1))) c i = docCount m c i + if c = cls ∧ i = j then 1 else 0 := by
          by_cases hcc : cls = c
          · subst hcc
            rw [hdt i, docCount, GoMap.get?_set, if_pos rfl, Option.getD_some]
            simp only [List.getD_eq_getElem?_getD, List.getElem?_set]
            by_cases hij : j = i
            · subst hij
              simp [hjt]
            · simp [hij, Ne.symm hij]
          · rw [docCount, GoMap.get?_set, if_neg hcc, docCount]
            simp [Ne.symm hcc]
        rw [hset, Nat.add_assoc]
        congr 1
        by_cases hi : j + 1 ≤ i
        · rw [hshift i hi, if_neg (show ¬(c = cls ∧ i = j) by omega)]
          simp [hi, show j ≤ i by omega]
        · rw [if_neg (show ¬(c = cls ∧ j + 1 ≤ i ∧ _) from fun h => hi h.2.1)]
          by_cases hij : i = j
          · subst hij
            simp [hb]
          · rw [if_neg (show ¬(c = cls ∧ i = j) from fun h => hij h.2), if_neg]
            rintro ⟨_, h, _⟩
            omega

/-- The counters after some rows. -/
structure Counted (g : Grid) (k : Nat → String) (cols : List Attr) (done : List Nat) (s : NBCounts) : Prop where
  inst : CountsL s.inst (done.map k)
  sized : SizedDocs cols.length s.docs
  some : ∀ c, (s.docs.get? c).isSome ↔ ∃ r ∈ done, k r = c ∧ ∃ a ∈ cols, g.hasFeature a r = true
  docs : ∀ c i a, cols[i]? = .some a → docCount s.docs c i = (done.filter fun r => k r == c && g.hasFeature a r).length

theorem counted_start (g : Grid) (k : Nat → String) (cols : List Attr) : Counted g k cols [] ⟨[], []⟩ where
  inst := countsL_nil
  sized := by intro c t h; simp [GoMap.get?] at h
  some := by simp [GoMap.get?]
  docs := by simp [docCount, GoMap.get?]

theorem counted_rows {fo : FloatOps} {g : Grid} {n : Nat} {k : Nat → String} {cols : List Attr}
    {vals : Nat → Res (List Bytes)} (hvals : ∀ r, r < n → vals r = Res.ok (cols.map fun a => g.cell a r))
    (hb : ∀ a ∈ cols, ∀ r, r < n → ∃ b, g.cell a r = [b]) (hk : ∀ r, r < n → getClass fo g r = Res.ok (k r))
    (order : List Nat) (hlt : ∀ r ∈ order, r < n) (done : List Nat) (s : NBCounts) (C : Counted g k cols done s) :
    ∃ s', mapOver vals (nbCallback fo g cols.length) s order = Res.ok (s', false) ∧ Counted g k cols (done ++ order) s' := by
  induction order generalizing done s with
  | nil => exact ⟨s, rfl, by simpa using C⟩
  | cons r rs ih =>
    have hr := hlt r List.mem_cons_self
    obtain ⟨m', h1, h2, h3, h4⟩ := nbFeatures_spec cols.length (k r) (cols.map fun a => g.cell a r) (by
        intro v hv
        obtain ⟨a, ha, rfl⟩ := List.mem_map.1 hv
        exact hb a ha r hr) 0 (by simp) s.docs C.sized
    have C' : Counted g k cols (done ++ [r]) ⟨incr s.inst (k r), m'⟩ := by
      refine ⟨?_, h2, ?_, ?_⟩
      · rw [List.map_append]
        exact countsL_incr C.inst (k r)
      · intro c
        show (m'.get? c).isSome ↔ _
        rw [h3, C.some]
        constructor
        · rintro (⟨x, hx, h⟩ | ⟨rfl, v, hv, hne⟩)
          · exact ⟨x, List.mem_append_left _ hx, h⟩
          · obtain ⟨a, ha, rfl⟩ := List.mem_map.1 hv
            exact ⟨r, by simp, rfl, a, ha, by simpa [Grid.hasFeature] using hne⟩
        · rintro ⟨x, hx, hkx, a, ha, hf⟩
          rcases List.mem_append.1 hx with hx | hx
          · exact Or.inl ⟨x, hx, hkx, a, ha, hf⟩
          · rw [List.mem_singleton] at hx
            subst hx
            refine Or.inr ⟨hkx.symm, _, List.mem_map.2 ⟨a, ha, rfl⟩, by simpa [Grid.hasFeature] using hf⟩
      · intro c i a ha
        show docCount m' c i = _
        rw [h4, C.docs c i a ha, List.filter_append, List.length_append]
        congr 1
        have hget : (cols.map fun a => g.cell a r).getD (i - 0) [] = g.cell a r := by
          rw [Nat.sub_zero, List.getD_eq_getElem?_getD, List.getElem?_map, ha]
          rfl
        rw [hget]
        by_cases hc : c = k r
        · subst hc
          by_cases hf : g.hasFeature a r = true
          · rw [if_pos ⟨rfl, Nat.zero_le _, by simpa [Grid.hasFeature] using hf⟩]
            simp [hf]
          · rw [if_neg (fun h => hf (by simpa [Grid.hasFeature] using h.2.2))]
            simp [hf]
        · rw [if_neg (fun h => hc h.1)]
          have : (k r == c) = false := by simpa using Ne.symm hc
          simp [this]
    obtain ⟨s', i1, i2⟩ := ih (fun x hx => hlt x (List.mem_cons_of_mem _ hx)) (done ++ [r]) _ C'
    refine ⟨s', ?_, by simpa using i2⟩
    simp only [mapOver, hvals r hr, Res.bind_ok, nbCallback, hk r hr, h1, Res.map_ok, i1]

section
variable {K : Type} [Field K] [LinearOrder K]

theorem nbConds_ok (f : Nat) (s : NBCounts) (L : String → List K) (cs : List String) (h : ∀ c ∈ cs, nbCond f s c = Res.ok (L c))
    (m : GoMap String (List K)) :
    ∃ m', nbConds f s cs m = Res.ok m' ∧ ∀ c, m'.get? c = if c ∈ cs then some (L c) else m.get? c := by
  induction cs generalizing m with
  | nil => exact ⟨m, rfl, by simp⟩
  | cons x xs ih =>
    obtain ⟨m', h1, h2⟩ := ih (fun c hc => h c (List.mem_cons_of_mem _ hc)) (m.set x (L x))
    refine ⟨m', ?_, ?_⟩
    · simp only [nbConds, h x List.mem_cons_self, Res.bind_ok, h1]
    · intro c
      rw [h2, GoMap.get?_set]
      by_cases hc : c ∈ xs
      · simp [hc]
      · by_cases hx : x = c
        · subst hx; simp
        · simp [hc, hx, Ne.symm hx]

theorem nbConds_panic (f : Nat) (s : NBCounts) (cs : List String)
    (h : ∀ c ∈ cs, (∃ l : List K, nbCond f s c = Res.ok l) ∨ nbCond (K := K) f s c = Res.panic)
    (hp : ∃ c ∈ cs, nbCond (K := K) f s c = Res.panic) (m : GoMap String (List K)) : nbConds f s cs m = Res.panic := by
  induction cs generalizing m with
  | nil => obtain ⟨c, hc, _⟩ := hp; cases hc
  | cons x xs ih =>
    rcases h x List.mem_cons_self with ⟨l, hl⟩ | hx
    · simp only [nbConds, hl, Res.bind_ok]
      refine ih (fun c hc => h c (List.mem_cons_of_mem _ hc)) ?_ _
      obtain ⟨c, hc, hcp⟩ := hp
      rcases List.mem_cons.1 hc with rfl | hc
      · rw [hl] at hcp; cases hcp
      · exact ⟨c, hc, hcp⟩
    · simp only [nbConds, hx, Res.bind_panic]

theorem count_perm {n : Nat} {order : List Nat} (ho : order.Perm (List.range n)) (p : Nat → Bool) :
    (order.filter p).length = countRows n p := (ho.filter p).length_eq

/-- What the counters hold after all rows. -/
theorem nbCond_spec {g : Grid} {n : Nat} {k : Nat → String} {cols : List Attr} {order : List Nat} {s : NBCounts}
    (ho : order.Perm (List.range n)) (C : Counted g k cols order s) (c : String) (hc : c ∈ order.map k) :
    ((∃ r, r < n ∧ k r = c ∧ ∃ a ∈ cols, g.hasFeature a r = true) →
      nbCond cols.length s c = Res.ok (cols.map (smoothed (K := K) g n k c))) ∧
    ((¬ ∃ r, r < n ∧ k r = c ∧ ∃ a ∈ cols, g.hasFeature a r = true) → cols ≠ [] →
      nbCond (K := K) cols.length s c = Res.panic) := by
  have hmem : ∀ r, r ∈ order ↔ r < n := fun r => by rw [ho.mem_iff, List.mem_range]
  have hinst : (s.inst.get? c).getD 0 = docsIn n k c := by
    rw [C.inst.2 c, if_pos hc, Option.getD_some, List.count, List.countP_map, List.countP_eq_length_filter]
    exact count_perm ho _
  constructor
  · rintro ⟨r, hr, h⟩
    have hs := (C.some c).2 ⟨r, (hmem r).2 hr, h⟩
    obtain ⟨t, ht⟩ := Option.isSome_iff_exists.1 hs
    have htl := C.sized c t ht
    have hrange : cols.map (smoothed (K := K) g n k c) =
        (List.range cols.length).map fun j => smoothed (K := K) g n k c (cols.getD j ⟨0, .bin ""⟩) := by
      apply List.ext_getElem
      · simp
      · intro i h1 h2
        simp only [List.length_map] at h1
        simp [List.getD_eq_getElem?_getD, h1]
    rw [hrange]
    refine mapRes_of_ok _ _ _ ?_
    intro j hj
    have hjl := List.mem_range.1 hj
    rw [ht, Option.getD_some, List.getElem?_eq_getElem (by omega)]
    have hd := C.docs c j cols[j] (List.getElem?_eq_getElem hjl)
    rw [docCount, ht, Option.getD_some, List.getD_eq_getElem?_getD, List.getElem?_eq_getElem (by omega),
      Option.getD_some, count_perm ho] at hd
    simp only
    rw [hinst, hd]
    simp [smoothed, docsWith, List.getD_eq_getElem?_getD, hjl]
  · intro hno hne
    have hs : s.docs.get? c = none := by
      rw [← Option.not_isSome_iff_eq_none, C.some c]
      rintro ⟨r, hr, h⟩
      exact hno ⟨r, (hmem r).1 hr, h⟩
    obtain ⟨a, as, rfl⟩ := List.exists_cons_of_ne_nil hne
    simp only [nbCond, hs, Option.getD_none, List.getElem?_nil, List.length_cons, List.range_succ_eq_map, mapRes, Res.bind_panic]

/-! ## Scores -/

theorem nbScoreLoop_spec (log : K → K) (count : Nat) (f : Attr → K) (val : Attr → Bytes) (cols : List Attr)
    (hv : ∀ a ∈ cols, ∃ b, val a = [b]) (pre : List K) (acc : K) :
    nbScoreLoop log count (pre ++ cols.map f) (cols.map val) pre.length acc =
      Res.ok (acc + (cols.map fun a => log (nbTerm count (f a) ((val a).headD 0#8 != 0#8))).sum) := by
  induction cols generalizing pre acc with
  | nil => simp [nbScoreLoop]
  | cons a as ih =>
    obtain ⟨b, hb⟩ := hv a List.mem_cons_self
    have := ih (fun x hx => hv x (List.mem_cons_of_mem _ hx)) (pre ++ [f a])
      (acc + log (nbTerm count (f a) (decide (0 < b.toNat))))
    rw [List.append_assoc, List.singleton_append, List.length_append, List.length_singleton] at this
    have hget : (pre ++ f a :: List.map f as)[pre.length]? = some (f a) := by simp
    simp only [List.map_cons, nbScoreLoop, hb, hget]
    rw [this, List.sum_cons, add_assoc]
    have hbit : decide (0 < b.toNat) = (b != 0#8) := by
      rw [Bool.eq_iff_iff, decide_eq_true_iff, bne_iff_ne]
      constructor
      · rintro h rfl; exact absurd h (by decide)
      · intro h
        rcases Nat.eq_zero_or_pos b.toNat with h0 | h0
        · exact absurd (BitVec.eq_of_toNat_eq (by rw [h0]; rfl)) h
        · exact h0
    rw [hbit]
    rfl

/-- The loop over the classes is the search for the greatest score. -/
theorem nbBest_eq (log : K → K) (nb : NB K) (vector : List Bytes) (S : String → K) (cs : List String)
    (h : ∀ c ∈ cs, nbScore log nb vector c = Res.ok (S c)) (best : String × K) :
    nbBest log nb vector cs best = Res.ok (argmaxLoop S cs best) := by
  induction cs generalizing best with
  | nil => rfl
  | cons c cs ih =>
    simp only [nbBest, h c List.mem_cons_self, Res.bind_ok, argmaxLoop]
    exact ih (fun x hx => h x (List.mem_cons_of_mem _ hx)) _

variable [IsStrictOrderedRing K]

theorem smoothed_eq_one (g : Grid) (n : Nat) (k : Nat → String) (c : String) (a : Attr) :
    smoothed (K := K) g n k c a = 1 ↔ docsWith g n k c a = docsIn n k c := by
  unfold smoothed
  have h : ((docsIn n k c + 1 : Nat) : K) ≠ 0 := by
    exact_mod_cast Nat.succ_ne_zero (docsIn n k c)
  rw [div_eq_one_iff_eq h]
  constructor
  · intro e
    have : docsWith g n k c a + 1 = docsIn n k c + 1 := by exact_mod_cast e
    omega
  · intro e; rw [e]

theorem nbTerm_eq (g : Grid) (n : Nat) (k : Nat → String) (c : String) (a : Attr) (has : Bool) :
    nbTerm (docsIn n k c) (smoothed (K := K) g n k c a) has = likelihood g n k c a has := by
  unfold nbTerm likelihood
  cases has with
  | true => rfl
  | false =>
    simp only [Bool.false_eq_true, if_false]
    by_cases h : docsWith g n k c a = docsIn n k c
    · rw [if_pos h, if_pos ((smoothed_eq_one g n k c a).2 h)]
    · rw [if_neg h, if_neg (fun e => h ((smoothed_eq_one g n k c a).1 e))]

theorem docsWith_le (g : Grid) (n : Nat) (k : Nat → String) (c : String) (a : Attr) : docsWith g n k c a ≤ docsIn n k c := by
  unfold docsWith docsIn countRows
  rw [← List.countP_eq_length_filter, ← List.countP_eq_length_filter]
  refine List.countP_mono_left fun r _ h => ?_
  rw [Bool.and_eq_true] at h
  exact h.1
end

/-! ## Grids -/

/-- Resolving attributes that have equal ones in the grid, and reading the columns. -/
theorem finds_spec {g : Grid} {n : Nat} (P : g.Presents n) {as : List Attr} (hf : g.Finds as) :
    ∃ sp : Attr → Spec, g.resolveUnsorted as = Res.ok (as.map sp) ∧
      (∀ a ∈ as, g.getAttribute a = Res.ok (sp a) ∧ (∃ b ∈ g.allAttributes, g.getAttribute b = Res.ok (sp a)) ∧
        (a ∈ g.allAttributes → (sp a).attr = a) ∧ ∀ r, g.cell (sp a).attr r = g.cell a r) := by
  classical
  have hex : ∀ a, ∃ s, a ∈ as → g.getAttribute a = Res.ok s ∧ (∃ b ∈ g.allAttributes, g.getAttribute b = Res.ok s) ∧
      (a ∈ g.allAttributes → s.attr = a) ∧ ∀ r, g.cell s.attr r = g.cell a r := by
    intro a
    by_cases ha : a ∈ as
    · obtain ⟨b, hb, he, hg⟩ := hf a ha
      obtain ⟨s, h1, h2, _⟩ := P.read b hb
      refine ⟨s, fun _ => ⟨hg.trans h1, ⟨b, hb, h1⟩, ?_, ?_⟩⟩
      · intro ha'
        obtain ⟨s', h1', h2', _⟩ := P.read a ha'
        rw [hg, h1] at h1'
        cases h1'
        exact h2'
      · intro r
        unfold Grid.cell
        rw [h2, hg]
    · exact ⟨⟨none, 0, a⟩, fun h => absurd h ha⟩
  choose sp hsp using hex
  refine ⟨sp, ?_, hsp⟩
  unfold Grid.resolveUnsorted
  apply mapRes_of_ok
  intro a ha
  rw [(hsp a ha).1]

theorem features_sub (g : Grid) : ∀ a ∈ g.nonClass, a ∈ g.allAttributes := fun _ ha => (List.mem_filter.1 ha).1

theorem finds_self {g : Grid} {as : List Attr} (h : ∀ a ∈ as, a ∈ g.allAttributes) : g.Finds as :=
  fun a ha => ⟨a, h a ha, C28_equals_refl a, rfl⟩

/-- The counters at the end of the loop over the rows. -/
theorem nb_counts {fo : FloatOps} {g : Grid} {n : Nat} {k : Nat → String} (D : BinaryData fo g n k)
    {srt : List Spec → List Spec} (hsrt : ∀ l, (srt l).Perm l) {order : List Nat} (ho : g.RowOrder order) :
    ∃ specs s, g.resolve srt g.nonClass = Res.ok specs ∧ (specs.map Spec.attr).Perm g.nonClass ∧
      (∀ fs, (∀ sp : Attr → Spec, srt (g.nonClass.map sp) = fs.map sp) → (∀ a ∈ fs, a ∈ g.nonClass) →
        specs.map Spec.attr = fs) ∧
      keepState (g.mapOverRows specs order (nbCallback fo g g.nonClass.length) ⟨[], []⟩) ⟨[], []⟩ = Res.ok s ∧
      Counted g k (specs.map Spec.attr) order s := by
  have P := D.table
  obtain ⟨sp, h1, h2⟩ := finds_spec P (finds_self (features_sub g))
  have hattr : ∀ a ∈ g.nonClass, (sp a).attr = a := fun a ha => (h2 a ha).2.2.1 (features_sub g a ha)
  have hperm := hsrt (g.nonClass.map sp)
  have hmap : ∀ l : List Attr, (∀ a ∈ l, a ∈ g.nonClass) → (l.map sp).map Spec.attr = l := by
    intro l hl
    rw [List.map_map]
    conv_rhs => rw [← List.map_id l]
    exact List.map_congr_left fun a ha => hattr a (hl a ha)
  have hcols : ((srt (g.nonClass.map sp)).map Spec.attr).Perm g.nonClass := by
    have := hperm.map Spec.attr
    rwa [hmap _ fun _ h => h] at this
  obtain ⟨c, c1, c2, c3⟩ := D.cls
  have hrow := P.order order ho
  obtain ⟨i1, i2⟩ := P.iter (srt (g.nonClass.map sp)) (by
    intro s hs
    obtain ⟨a, ha, rfl⟩ := List.mem_map.1 (hperm.mem_iff.1 hs)
    exact (h2 a ha).2.1)
  obtain ⟨s', l1, l2⟩ := counted_rows (fo := fo) (k := k) (cols := (srt (g.nonClass.map sp)).map Spec.attr)
    (vals := g.rowVals (srt (g.nonClass.map sp))) (by
      intro r hr
      rw [i2 r hr, List.map_map]
      rfl) (fun a ha r hr => D.bytes a (hcols.mem_iff.1 ha) r hr)
    (fun r hr => getClass_ok P c1 c2 c3 hr) order (fun r hr => List.mem_range.1 (hrow.mem_iff.1 hr)) []
    ⟨[], []⟩ (counted_start g k _)
  refine ⟨srt (g.nonClass.map sp), s', ?_, hcols, ?_, ?_, by simpa using l2⟩
  · simp only [Grid.resolve, h1, Res.map_ok]
  · intro fs hfs hsub
    rw [hfs sp, hmap fs hsub]
  · rw [hcols.length_eq] at l1
    simp only [Grid.mapOverRows, i1, Res.bind_ok, l1, keepState]

section
variable {K : Type} [Field K] [LinearOrder K]

/-- What `Fit` does after the loop over the rows. -/
theorem nbFit_eq {fo : FloatOps} {g : Grid} {n : Nat} {k : Nat → String} (D : BinaryData fo g n k)
    {srt : List Spec → List Spec} {order : List Nat} (ordC : List String → List String) (old : GoMap String (List K))
    {specs : List Spec} {s : NBCounts} (h1 : g.resolve srt g.nonClass = Res.ok specs)
    (h2 : keepState (g.mapOverRows specs order (nbCallback fo g g.nonClass.length) ⟨[], []⟩) ⟨[], []⟩ = Res.ok s) :
    nbFit fo srt order ordC old g = (nbConds g.nonClass.length s (ordC (s.inst.map Prod.fst)) old).map fun cp =>
      ⟨cp, s.inst, n, g.nonClass.length, g.nonClass⟩ := by
  obtain ⟨c, c1, _⟩ := D.cls
  have hany : (g.nonClass.any fun a => !a.isBin) = false := by
    rw [List.any_eq_false]
    intro a ha
    simp [D.binary a ha]
  unfold nbFit
  simp only [features_eq, hany, h1, Res.bind_ok, h2, D.table.rows]
  simp [c1]
end

end Golearn
