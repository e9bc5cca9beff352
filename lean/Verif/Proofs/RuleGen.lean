import Verif.Proofs.Numeric
import Verif.Props.C27

/-! # Lemmas about rule generators -/

namespace Golearn

variable {K : Type} [Field K] [LinearOrder K] [IsStrictOrderedRing K]

/-! ## Reading the values with their classes -/

/-- The bit pattern in a float cell. -/
def Grid.bitsAt (g : Grid) (a : Attr) (r : Nat) : U64 :=
  match unpackFloatBits (g.cell a r) with
  | .ok u => u
  | _ => 0

theorem mapOver_inv {σ : Type} (I : σ → Prop) (vals : Nat → Res (List Bytes)) (w : Nat → List Bytes)
    (cb : σ → List Bytes → Nat → Res (σ × Ctl)) (f : σ → Nat → σ) (order : List Nat)
    (hv : ∀ r ∈ order, vals r = Res.ok (w r))
    (hcb : ∀ s, I s → ∀ r ∈ order, cb s (w r) r = Res.ok (f s r, Ctl.cont) ∧ I (f s r)) (s : σ) (hs : I s) :
    mapOver vals cb s order = Res.ok (order.foldl f s, false) := by
  induction order generalizing s with
  | nil => rfl
  | cons r rs ih =>
    simp only [mapOver, hv r (by simp), Res.bind_ok, (hcb s hs r (by simp)).1, List.foldl_cons]
    exact ih (fun q hq => hv q (by simp [hq])) (fun s hs q hq => hcb s hs q (by simp [hq])) _ (hcb s hs r (by simp)).2

theorem foldl_set {α : Type} (f : Nat → α) (order : List Nat) : ∀ l : List α,
    (order.foldl (fun l r => l.set r (f r)) l).length = l.length ∧
    ∀ i, i < l.length → (order.foldl (fun l r => l.set r (f r)) l)[i]? = if i ∈ order then some (f i) else l[i]? := by
  induction order with
  | nil => intro l; simp
  | cons r rs ih =>
    intro l
    obtain ⟨h1, h2⟩ := ih (l.set r (f r))
    rw [List.foldl_cons]
    refine ⟨by rw [h1, List.length_set], ?_⟩
    intro i hi
    rw [h2 i (by rw [List.length_set]; exact hi)]
    by_cases hm : i ∈ rs
    · simp [hm]
    · by_cases hr : i = r
      · subst hr; simp [hm, List.getElem?_set_self hi]
      · have : r ≠ i := fun h => hr h.symm
        simp [hm, hr, List.getElem?_set_ne this]

/-- The list of the classes seen. -/
theorem foldl_classes (lab : Nat → String) (order : List Nat) : ∀ l : List String, l.Nodup →
    (order.foldl (fun l r => if lab r ∈ l then l else l ++ [lab r]) l).Nodup ∧
    ∀ c, c ∈ order.foldl (fun l r => if lab r ∈ l then l else l ++ [lab r]) l ↔ c ∈ l ∨ c ∈ order.map lab := by
  induction order with
  | nil => intro l hl; exact ⟨hl, by simp⟩
  | cons r rs ih =>
    intro l hl
    rw [List.foldl_cons]
    by_cases h : lab r ∈ l
    · rw [if_pos h]
      obtain ⟨h1, h2⟩ := ih l hl
      refine ⟨h1, ?_⟩
      intro c
      rw [h2 c, List.map_cons, List.mem_cons]
      constructor
      · rintro (h | h)
        · exact Or.inl h
        · exact Or.inr (Or.inr h)
      · rintro (h | rfl | h)
        · exact Or.inl h
        · exact Or.inl ‹_›
        · exact Or.inr h
    · rw [if_neg h]
      obtain ⟨h1, h2⟩ := ih (l ++ [lab r]) (by
        rw [List.nodup_append]
        refine ⟨hl, by simp, ?_⟩
        intro a ha b hb hab
        rw [List.mem_singleton] at hb
        exact h (hb ▸ hab ▸ ha))
      refine ⟨h1, ?_⟩
      intro c
      rw [h2 c, List.mem_append, List.mem_singleton, List.map_cons, List.mem_cons, or_assoc]

omit [Field K] [LinearOrder K] [IsStrictOrderedRing K] in
/-- What is sorted for a numeric attribute: the values of the rows with their labels. -/
theorem numericRefs_ok {fo : FloatOps} (sortRefs : List (U64 × String) → List (U64 × String)) {order : List Nat} {g : Grid}
    (hord : g.RowOrder order) {n : Nat} {lab : Nat → String} {cls : Attr} (D : TreeData fo g n lab cls) {a : Attr}
    (ha : a ∈ g.allAttributes) (hf : a.isFloat = true) :
    ∃ cs, numericRefs fo sortRefs order g a = Res.ok (sortRefs ((List.range n).map fun r => (g.bitsAt a r, lab r)), cs) ∧
      cs.Nodup ∧ ∀ r, r < n → lab r ∈ cs := by
  obtain ⟨s, s1, s2, _⟩ := D.rows.read a ha
  obtain ⟨i1, i2⟩ := D.rows.iter [s] (by
    intro t ht
    rw [List.mem_singleton] at ht
    subst ht; exact ⟨a, ha, s1⟩)
  have ho := D.rows.order _ (hord)
  have hlt : ∀ r ∈ order, r < n := fun r hr => List.mem_range.1 (ho.mem_iff.1 hr)
  set F : List (U64 × String) × List String → Nat → List (U64 × String) × List String :=
    fun st r => (st.1.set r (g.bitsAt a r, lab r), if lab r ∈ st.2 then st.2 else st.2 ++ [lab r]) with hF
  have hmap : g.mapOverRows [s] (order) (refsCallback fo g) (List.replicate g.size.2 ((0 : U64), ""), []) =
      Res.ok ((order).foldl F (List.replicate g.size.2 ((0 : U64), ""), []), false) := by
    unfold Grid.mapOverRows
    rw [i1, Res.bind_ok]
    refine mapOver_inv (fun st => st.1.length = n) _ (fun r => [g.cell a r]) _ F _ ?_ ?_ _ ?_
    · intro r hr
      rw [i2 r (hlt r hr)]
      simp only [List.map_cons, List.map_nil, s2]
    · intro st hst r hr
      obtain ⟨u, hu⟩ := unpack_typed D.typed ha hf (hlt r hr)
      have hb : g.bitsAt a r = u := by unfold Grid.bitsAt; rw [hu]
      constructor
      · simp only [refsCallback, getClass_ok D.rows D.classAttr D.classIn D.label (hlt r hr), Res.bind_ok, hu,
          hst, hlt r hr, if_true, hF, hb]
      · rw [hF]; simpa using hst
    · simp [D.rows.rows]
  have hfst : ∀ (o : List Nat) (st : List (U64 × String) × List String),
      o.foldl F st = (o.foldl (fun l r => l.set r (g.bitsAt a r, lab r)) st.1,
        o.foldl (fun l r => if lab r ∈ l then l else l ++ [lab r]) st.2) := by
    intro o
    induction o with
    | nil => intro st; rfl
    | cons r rs ih => intro st; rw [List.foldl_cons, ih]; rfl
  rw [hfst] at hmap
  set L := (order).foldl (fun l r => l.set r (g.bitsAt a r, lab r)) (List.replicate g.size.2 ((0 : U64), "")) with hL
  set C := (order).foldl (fun l r => if lab r ∈ l then l else l ++ [lab r]) ([] : List String) with hC
  have hLeq : L = (List.range n).map fun r => (g.bitsAt a r, lab r) := by
    obtain ⟨l1, l2⟩ := foldl_set (fun r => (g.bitsAt a r, lab r)) (order) (List.replicate g.size.2 ((0 : U64), ""))
    rw [List.length_replicate, D.rows.rows] at l1 l2
    apply List.ext_getElem?
    intro i
    by_cases hi : i < n
    · have := l2 i hi
      rw [if_pos (ho.mem_iff.2 (List.mem_range.2 hi))] at this
      rw [hL, D.rows.rows, this]
      simp [hi]
    · rw [List.getElem?_eq_none (by rw [hL, D.rows.rows]; omega), List.getElem?_eq_none (by simp; omega)]
  obtain ⟨c1, c2⟩ := foldl_classes lab (order) [] (by simp)
  refine ⟨C, ?_, c1, ?_⟩
  · unfold numericRefs
    simp only [s1, Res.orPanic, Res.bind_ok, Res.map_ok, hmap, keepState, hLeq]
  · intro r hr
    exact (c2 _).2 (Or.inr (List.mem_map_of_mem (ho.mem_iff.2 (List.mem_range.2 hr))))

omit [IsStrictOrderedRing K] in
/-- The scan of a numeric attribute starts from the values of the rows with their labels, in increasing order if the
comparison is one. -/
theorem numericEntropy_scan {e : RuleEnv K} (E : e.Ok) {g : Grid} {n : Nat} {lab : Nat → String} {cls : Attr}
    (D : TreeData e.fo g n lab cls) {a : Attr} (ha : a ∈ g.allAttributes) (hf : a.isFloat = true) :
    ∃ cs refs, cs.Nodup ∧ refs.Perm ((List.range n).map fun r => (g.bitsAt a r, lab r)) ∧
      (WeakOrderOn e.fo.gt ((List.range n).map (g.bitsAt a)) → refs.Pairwise fun p q => e.fo.gt p.1 q.1 = false) ∧
      (∀ p ∈ refs, p.2 ∈ cs) ∧
      numericEntropy e g a = scanLoop e cs refs (2 * refs.length + 1) 0 none refs (fun _ => 0)
        (refs.foldl (fun s x => bump s x.2) fun _ => 0) none := by
  obtain ⟨cs, h1, h2, h3⟩ := numericRefs_ok e.sortRefs (E.rowOrder g) D ha hf
  obtain ⟨p1, p2⟩ := E.sort ((List.range n).map fun r => (g.bitsAt a r, lab r))
  refine ⟨cs, _, h2, p1, fun h => p2 (by rw [List.map_map]; exact h), ?_, ?_⟩
  · intro p hp
    obtain ⟨r, hr, rfl⟩ := List.mem_map.1 (p1.mem_iff.1 hp)
    exact h3 r (List.mem_range.1 hr)
  · unfold numericEntropy
    rw [h1, Res.bind_ok]

/-! ## The scan ends -/

omit [IsStrictOrderedRing K] in
theorem scanLoop_total {e : RuleEnv K} {cs : List String} {refs : List (U64 × String)}
    (hr : ∀ (i : Nat) p q, refs[i]? = some p → refs[i + 1]? = some q → e.feq (e.mid p.1 q.1) (e.mid p.1 q.1) = true) :
    ∀ fuel i prev rest l r best,
      (refs.length ≤ i + 1 ∨ 2 * (refs.length - 1 - i) + 1 ≤ fuel ∨ 2 * (refs.length - 1 - i) ≤ fuel ∧ ∃ p q v, refs[i]? = some p ∧
        refs[i + 1]? = some q ∧ prev = some v ∧ e.feq (e.mid p.1 q.1) v = true) →
      ∃ out, scanLoop e cs refs (fuel + 1) i prev rest l r best = Res.ok out := by
  intro fuel
  induction fuel with
  | zero =>
    intro i prev rest l r best h
    have h1 : refs.length ≤ i + 1 := by
      rcases h with h | h | h <;> omega
    rw [scanLoop, List.getElem?_eq_none h1]
    exact ⟨best, by cases refs[i]? <;> rfl⟩
  | succ fuel ih =>
    intro i prev rest l r best h
    rw [scanLoop]
    cases hp : refs[i]? with
    | none => exact ⟨best, rfl⟩
    | some p =>
      cases hq : refs[i + 1]? with
      | none => exact ⟨best, rfl⟩
      | some q =>
        have hi : i + 1 < refs.length := by
          by_contra hc
          rw [List.getElem?_eq_none (by omega)] at hq
          cases hq
        have other : ∀ rest' l' r' best',
            2 * (refs.length - 1 - i) + 1 ≤ fuel + 1 →
            ∃ out, scanLoop e cs refs (fuel + 1) (i + (rest.takeWhile fun x => e.fo.gt (e.mid p.1 q.1) x.1).length)
              (some (e.mid p.1 q.1)) rest' l' r' best' = Res.ok out := by
          intro rest' l' r' best' h
          apply ih
          by_cases hm : (rest.takeWhile fun x => e.fo.gt (e.mid p.1 q.1) x.1).length = 0
          · rw [hm]
            exact Or.inr (Or.inr ⟨by omega, p, q, _, hp, hq, rfl, hr i p q hp hq⟩)
          · omega
        simp only
        cases hprev : prev with
        | none =>
          simp only [Bool.false_eq_true, if_false]
          apply other
          rcases h with h | h | ⟨_, p', q', v, _, _, h3, _⟩
          · omega
          · exact h
          · rw [hprev] at h3; cases h3
        | some v =>
          by_cases hc : e.feq (e.mid p.1 q.1) v = true
          · simp only [hc, if_true]
            apply ih
            rcases h with h | h | h <;> omega
          · simp only [hc, if_false]
            apply other
            rcases h with h | h | ⟨_, p', q', v', h1, h2, h3, h4⟩
            · omega
            · exact h
            · rw [hp] at h1; rw [hq] at h2; rw [hprev] at h3
              cases h1; cases h2; cases h3
              exact absurd h4 hc

omit [IsStrictOrderedRing K] in
/-- The scan of exact numbers ends. -/
theorem numericEntropy_total {e : RuleEnv K} (E : e.Ok) {g : Grid} {n : Nat} {lab : Nat → String} {cls : Attr}
    (D : TreeData e.fo g n lab cls) {val : U64 → K} {S : U64 → Prop} (X : g.ExactCells e n val S)
    {a : Attr} (ha : a ∈ g.allAttributes) (hf : a.isFloat = true) : ∃ o, numericEntropy e g a = Res.ok o := by
  obtain ⟨cs, refs, _, r1, _, _, r4⟩ := numericEntropy_scan E D ha hf
  have hS : ∀ p ∈ refs, S p.1 := by
    intro p hp
    obtain ⟨r, hr, rfl⟩ := List.mem_map.1 (r1.mem_iff.1 hp)
    obtain ⟨u, hu, hs⟩ := X.2 a ha hf r (List.mem_range.1 hr)
    simpa only [Grid.bitsAt, hu] using hs
  rw [r4]
  apply scanLoop_total
  · intro i p q hp hq
    have : OrMid e.mid S (e.mid p.1 q.1) := Or.inr
      ⟨_, _, hS p (List.mem_of_getElem? hp), hS q (List.mem_of_getElem? hq), rfl⟩
    exact (X.1.feq _ _ this this).2 rfl
  · omega

/-! ## The threshold it finds -/

omit [Field K] [LinearOrder K] [IsStrictOrderedRing K] in
theorem foldl_bump (refs : List (U64 × String)) (s : String → Nat) (c : String) :
    refs.foldl (fun s x => bump s x.2) s c = s c + (refs.map Prod.snd).count c := by
  induction refs generalizing s with
  | nil => simp
  | cons p ps ih =>
    rw [List.foldl_cons, ih, List.map_cons, List.count_cons]
    unfold bump
    by_cases h : c = p.2
    · subst h; simp; omega
    · have : p.2 ≠ c := fun h' => h h'.symm
      simp [h, this]

omit [LinearOrder K] [IsStrictOrderedRing K] in
theorem condEntropy_congr (lg : K → K) {lab key key' : Nat → String} {n : Nat} (h : ∀ q, q < n → key q = key' q) :
    condEntropy lg lab key n = condEntropy lg lab key' n := by
  have h1 : (List.range n).map key = (List.range n).map key' :=
    List.map_congr_left fun r hr => h r (List.mem_range.1 hr)
  have h2 : ∀ v, labelsAt lab key n v = labelsAt lab key' n v := by
    intro v
    unfold labelsAt
    congr 1
    apply List.filter_congr
    intro r hr
    rw [h r (List.mem_range.1 hr)]
  unfold condEntropy
  rw [h1]
  simp only [h2]

/-- Without repeated numbers the scan finds the threshold with the smallest entropy. -/
theorem numericEntropy_best {e : RuleEnv K} (E : e.Ok) {g : Grid} {n : Nat} {lab : Nat → String} {cls : Attr}
    (D : TreeData e.fo g n lab cls) {val : U64 → K} {S : U64 → Prop} (X : g.ExactCells e n val S) (N : g.NoRepeats n val)
    {a : Attr} (ha : a ∈ g.allAttributes) (hf : a.isFloat = true) :
    ∃ o, numericEntropy e g a = Res.ok o ∧ (o = none → n < 2) ∧
      ∀ s t, o = some (s, t) → s = condEntropy e.lg lab (g.branch e.fo ⟨a, t⟩) n ∧
        (∀ q, q < n → g.branch e.fo ⟨a, t⟩ q = g.above val a (val t) q) ∧
        (∃ q, q < n ∧ g.branch e.fo ⟨a, t⟩ q = "0") ∧ (∃ q, q < n ∧ g.branch e.fo ⟨a, t⟩ q = "1") ∧
        ∀ x, (∃ q, q < n ∧ g.above val a x q = "0") → (∃ q, q < n ∧ g.above val a x q = "1") →
          s ≤ condEntropy e.lg lab (g.above val a x) n := by
  obtain ⟨cs, refs, c1, r1, r2, r3, r4⟩ := numericEntropy_scan E D ha hf
  have hlen : refs.length = n := by rw [r1.length_eq]; simp
  have hcell : ∀ q, q < n → unpackFloatBits (g.cell a q) = Res.ok (g.bitsAt a q) ∧ S (g.bitsAt a q) := by
    intro q hq
    obtain ⟨u, hu, hs⟩ := X.2 a ha hf q hq
    simp only [Grid.bitsAt, hu]
    exact ⟨trivial, hs⟩
  have hnum : ∀ q, q < n → g.number val a q = val (g.bitsAt a q) := by
    intro q hq
    unfold Grid.number
    rw [(hcell q hq).1]
  have hS : ∀ p ∈ refs, S p.1 := by
    intro p hp
    obtain ⟨r, hr, rfl⟩ := List.mem_map.1 (r1.mem_iff.1 hp)
    exact (hcell r (List.mem_range.1 hr)).2
  have hle : refs.Pairwise fun p q => val p.1 ≤ val q.1 := by
    refine List.Pairwise.imp_of_mem ?_ (r2 ?_)
    swap
    · have hm : ∀ u ∈ (List.range n).map (g.bitsAt a), OrMid e.mid S u := by
        intro u hu
        obtain ⟨q, hq, rfl⟩ := List.mem_map.1 hu
        exact Or.inl (hcell q (List.mem_range.1 hq)).2
      intro x hx y hy z hz
      have hx := hm x hx
      have hy := hm y hy
      have hz := hm z hz
      rw [← Bool.not_eq_true, X.1.gt x y hx hy, X.1.gt y x hy hx, X.1.gt x z hx hz, X.1.gt y z hy hz]
      refine ⟨fun h => not_lt.2 h.le, fun h => ?_⟩
      rcases lt_or_ge (val y) (val x) with h' | h'
      · exact Or.inl h'
      · exact Or.inr (h.trans_le h')
    intro p q hp hq h
    by_contra hc
    rw [(X.1.gt _ _ (Or.inl (hS p hp)) (Or.inl (hS q hq))).2 (not_le.1 hc)] at h
    cases h
  have hne : (refs.map fun p => val p.1).Nodup := by
    rw [(r1.map fun p => val p.1).nodup_iff, List.map_map]
    refine List.Nodup.map_on ?_ List.nodup_range
    intro r hr s hs h
    have hr := List.mem_range.1 hr
    have hs := List.mem_range.1 hs
    refine N a ha hf r s hr hs ?_
    rw [hnum r hr, hnum s hs]; exact h
  have hstrict : refs.Pairwise fun p q => val p.1 < val q.1 := by
    rw [List.Nodup, List.pairwise_map] at hne
    exact (hle.and hne).imp fun h => lt_of_le_of_ne h.1 h.2
  -- every test by a threshold corresponds to a cut of the sorted values
  have habove : ∀ x, (∃ q, q < n ∧ g.above val a x q = "0") → (∃ q, q < n ∧ g.above val a x q = "1") →
      condEntropy e.lg lab (g.above val a x) n =
        twoEntropy e.lg ((refs.filter fun p => decide (¬ x < val p.1)).map Prod.snd)
          ((refs.filter fun p => decide (x < val p.1)).map Prod.snd) n := by
    intro x h0 h1
    have hab : ∀ q, q < n → g.above val a x q = if decide (x < val (g.bitsAt a q)) = true then "1" else "0" := by
      intro q hq
      unfold Grid.above
      rw [hnum q hq]
      simp only [decide_eq_true_eq]
    rw [condEntropy_congr e.lg hab, condEntropy_refs e.lg (x := g.bitsAt a) (p := fun u => decide (x < val u)) r1]
    · simp only [decide_not]
    · obtain ⟨q, hq, h⟩ := h0
      rw [hab q hq] at h
      refine ⟨q, hq, ?_⟩
      by_contra hc
      rw [Bool.not_eq_false] at hc
      rw [if_pos hc] at h
      exact absurd h (by decide)
    · obtain ⟨q, hq, h⟩ := h1
      rw [hab q hq] at h
      refine ⟨q, hq, ?_⟩
      by_contra hc
      rw [if_neg hc] at h
      exact absurd h (by decide)
  obtain ⟨out, o1, o2⟩ := scanLoop_strict E.log c1 r3 X.1 hS hstrict (2 * refs.length + 1) 0 none (fun _ => 0)
    (refs.foldl (fun s x => bump s x.2) fun _ => 0) none (by omega) (by omega) (by simp) (by simp)
    (by intro c; rw [foldl_bump]; simp) (Or.inl ⟨rfl, rfl⟩)
  rw [List.drop_zero] at o1
  refine ⟨out, r4.trans o1, ?_, ?_⟩
  · intro h
    rcases o2 with ⟨h0, _⟩ | ⟨j, _, h2, _⟩
    · omega
    · rw [h] at h2; cases h2
  · intro s t hst
    rcases o2 with ⟨_, h0⟩ | ⟨j, hj, h2, hmin⟩
    · rw [h0] at hst; cases hst
    · rw [h2] at hst
      simp only [Option.some.injEq, Prod.mk.injEq] at hst
      obtain ⟨rfl, rfl⟩ := hst
      have hj1 : j + 1 < refs.length := by omega
      have g1 := getElem?_getD refs j (0, "") (by omega)
      have g2 := getElem?_getD refs (j + 1) (0, "") hj1
      set p := refs.getD j (0, "") with hpdef
      set q := refs.getD (j + 1) (0, "") with hqdef
      have hp' : refs[j]'(by omega) = p := by rw [List.getElem?_eq_getElem (by omega)] at g1; exact Option.some.inj g1
      have hq' : refs[j + 1] = q := by rw [List.getElem?_eq_getElem hj1] at g2; exact Option.some.inj g2
      have hpm : p ∈ refs := hp' ▸ List.getElem_mem _
      have hqm : q ∈ refs := hq' ▸ List.getElem_mem _
      have hlt : val p.1 < val q.1 := by
        rw [← hp', ← hq']
        exact List.pairwise_iff_getElem.1 hstrict j (j + 1) (by omega) hj1 (by omega)
      have hmid : midAt e refs j = e.mid p.1 q.1 := rfl
      obtain ⟨m1, m2⟩ := X.1.between _ _ (hS p hpm) (hS q hqm) hlt
      rw [hmid]
      have hOM : OrMid e.mid S (e.mid p.1 q.1) := Or.inr ⟨_, _, hS p hpm, hS q hqm, rfl⟩
      have hbr : ∀ r, r < n → g.branch e.fo ⟨a, e.mid p.1 q.1⟩ r = g.above val a (val (e.mid p.1 q.1)) r := by
        intro r hr
        unfold Grid.branch Grid.above
        simp only [hf, if_true, (hcell r hr).1, hnum r hr]
        have := X.1.gt (g.bitsAt a r) (e.mid p.1 q.1) (Or.inl (hcell r hr).2) hOM
        by_cases hgt : val (e.mid p.1 q.1) < val (g.bitsAt a r)
        · rw [if_pos hgt, if_pos (this.2 hgt)]
        · rw [if_neg hgt, if_neg fun h => hgt (this.1 h)]
      have row : ∀ p ∈ refs, ∃ r, r < n ∧ g.bitsAt a r = p.1 := by
        intro p hp
        obtain ⟨r, hr, rfl⟩ := List.mem_map.1 (r1.mem_iff.1 hp)
        exact ⟨r, List.mem_range.1 hr, rfl⟩
      have h0 : ∃ r, r < n ∧ g.above val a (val (e.mid p.1 q.1)) r = "0" := by
        obtain ⟨r, hr, hb⟩ := row p hpm
        refine ⟨r, hr, ?_⟩
        unfold Grid.above
        rw [hnum r hr, hb, if_neg (not_lt.2 m1.le)]
      have h1 : ∃ r, r < n ∧ g.above val a (val (e.mid p.1 q.1)) r = "1" := by
        obtain ⟨r, hr, hb⟩ := row q hqm
        refine ⟨r, hr, ?_⟩
        unfold Grid.above
        rw [hnum r hr, hb, if_pos m2]
      have hcut : cutEntropy e refs j = condEntropy e.lg lab (g.above val a (val (e.mid p.1 q.1))) n := by
        rw [habove _ h0 h1]
        unfold cutEntropy
        rw [hlen]
        have hsplit : refs = refs.take (j + 1) ++ refs.drop (j + 1) := (List.take_append_drop _ _).symm
        have low : ∀ y ∈ refs.take (j + 1), ¬ val (e.mid p.1 q.1) < val y.1 := by
          intro y hy
          obtain ⟨i, hi, rfl⟩ := List.mem_take_iff_getElem.1 hy
          have hi' : i ≤ j := by omega
          have : val (refs[i]'(by omega)).1 ≤ val p.1 := by
            rcases Nat.lt_or_ge i j with h | h
            · rw [← hp']
              exact (List.pairwise_iff_getElem.1 hstrict i j (by omega) (by omega) h).le
            · have : i = j := by omega
              subst this; rw [hp']
          exact not_lt.2 (this.trans m1.le)
        have high : ∀ y ∈ refs.drop (j + 1), val (e.mid p.1 q.1) < val y.1 := by
          intro y hy
          obtain ⟨i, hi, rfl⟩ := List.mem_drop_iff_getElem.1 hy
          have : val q.1 ≤ val (refs[j + 1 + i]'(by omega)).1 := by
            rcases Nat.eq_zero_or_pos i with h | h
            · subst h; exact le_of_eq (by rw [← hq'])
            · rw [← hq']
              exact (List.pairwise_iff_getElem.1 hstrict (j + 1) (j + 1 + i) (by omega) (by omega) (by omega)).le
          exact lt_of_lt_of_le m2 this
        have f1 : refs.filter (fun y => decide (¬ val (e.mid p.1 q.1) < val y.1)) = refs.take (j + 1) := by
          conv_lhs => rw [hsplit]
          rw [List.filter_append, List.filter_eq_self.2 (fun y hy => by simpa using low y hy),
            List.filter_eq_nil_iff.2 (fun y hy => by simpa using high y hy), List.append_nil]
        have f2 : refs.filter (fun y => decide (val (e.mid p.1 q.1) < val y.1)) = refs.drop (j + 1) := by
          conv_lhs => rw [hsplit]
          rw [List.filter_append, List.filter_eq_nil_iff.2 (fun y hy => by simpa using low y hy),
            List.filter_eq_self.2 (fun y hy => by simpa using high y hy), List.nil_append]
        rw [f1, f2]
      refine ⟨hcut.trans (condEntropy_congr e.lg fun r hr => (hbr r hr).symm), hbr, ?_, ?_, ?_⟩
      · obtain ⟨r, hr, h⟩ := h0; exact ⟨r, hr, (hbr r hr).trans h⟩
      · obtain ⟨r, hr, h⟩ := h1; exact ⟨r, hr, (hbr r hr).trans h⟩
      · intro x hx0 hx1
        obtain ⟨k, k0, k1, k2⟩ := sorted_cut (fun p : U64 × String => val p.1) refs hle x
        have e0 : ∃ y ∈ refs, ¬ x < val y.1 := by
          obtain ⟨r, hr, h⟩ := hx0
          refine ⟨(g.bitsAt a r, lab r), r1.mem_iff.2 (List.mem_map_of_mem (List.mem_range.2 hr)), ?_⟩
          intro hc
          unfold Grid.above at h
          rw [hnum r hr, if_pos hc] at h
          exact absurd h (by decide)
        have e1 : ∃ y ∈ refs, x < val y.1 := by
          obtain ⟨r, hr, h⟩ := hx1
          refine ⟨(g.bitsAt a r, lab r), r1.mem_iff.2 (List.mem_map_of_mem (List.mem_range.2 hr)), ?_⟩
          by_contra hc
          unfold Grid.above at h
          rw [hnum r hr, if_neg hc] at h
          exact absurd h (by decide)
        have hk0 : k ≠ 0 := by
          rintro rfl
          obtain ⟨y, hy, h⟩ := e0
          have : y ∈ refs.filter fun p => decide (¬ x < val p.1) := by
            rw [List.mem_filter]; exact ⟨hy, by simpa using h⟩
          rw [k1] at this
          simp at this
        have hk1 : k < refs.length := by
          by_contra hc
          obtain ⟨y, hy, h⟩ := e1
          have : y ∈ refs.filter fun p => decide (x < val p.1) := by
            rw [List.mem_filter]; exact ⟨hy, by simpa using h⟩
          rw [k2, List.drop_eq_nil_of_le (by omega)] at this
          cases this
        rw [habove x hx0 hx1, k1, k2]
        have := hmin (k - 1) (by omega)
        unfold cutEntropy at this
        rw [Nat.sub_add_cancel (by omega), hlen] at this
        unfold cutEntropy
        rw [hlen]; exact this

/-! ## Selection -/

omit [Field K] [LinearOrder K] [IsStrictOrderedRing K] in
theorem pickMax_spec {V : Type} [LinearOrder V] (l : List (Attr × Option V × U64)) : ∀ best : Option (V × Rule),
    (pickMax l best = none → best = none ∧ ∀ t ∈ l, t.2.1 = none) ∧
    ∀ v r, pickMax l best = some (v, r) →
      (best = some (v, r) ∨ ∃ t ∈ l, t.2.1 = some v ∧ r = ⟨t.1, t.2.2⟩) ∧
      (∀ b, best = some b → b.1 ≤ v) ∧ ∀ t ∈ l, ∀ w, t.2.1 = some w → w ≤ v := by
  induction l with
  | nil =>
    intro best
    refine ⟨fun h => ⟨h, by simp⟩, ?_⟩
    intro v r h
    refine ⟨Or.inl h, ?_, by simp⟩
    intro b hb
    rw [pickMax, hb] at h
    cases h; exact le_refl _
  | cons t ts ih =>
    obtain ⟨a, o, x⟩ := t
    intro best
    cases o with
    | none =>
      obtain ⟨h1, h2⟩ := ih best
      have e : pickMax ((a, none, x) :: ts) best = pickMax ts best := by rw [pickMax]
      rw [e]
      refine ⟨?_, ?_⟩
      · intro h
        refine ⟨(h1 h).1, ?_⟩
        intro t ht
        rcases List.mem_cons.1 ht with rfl | ht
        · rfl
        · exact (h1 h).2 t ht
      · intro v r h
        obtain ⟨i1, i2, i3⟩ := h2 v r h
        refine ⟨?_, i2, ?_⟩
        · rcases i1 with h | ⟨t, ht, h⟩
          · exact Or.inl h
          · exact Or.inr ⟨t, List.mem_cons_of_mem _ ht, h⟩
        · intro t ht w hw
          rcases List.mem_cons.1 ht with rfl | ht
          · cases hw
          · exact i3 t ht w hw
    | some u =>
      -- the best after this candidate
      have e : ∃ b, pickMax ((a, some u, x) :: ts) best = pickMax ts (some b) ∧ u ≤ b.1 ∧
          (∀ c, best = some c → c.1 ≤ b.1) ∧ (best = some b ∨ b = (u, ⟨a, x⟩)) := by
        cases best with
        | none => exact ⟨(u, ⟨a, x⟩), by rw [pickMax], le_refl _, by simp, Or.inr rfl⟩
        | some c =>
          by_cases hlt : c.1 < u
          · refine ⟨(u, ⟨a, x⟩), by rw [pickMax, if_pos hlt], le_refl _, ?_, Or.inr rfl⟩
            rintro c' h; cases h; exact hlt.le
          · refine ⟨c, by rw [pickMax, if_neg hlt], not_lt.1 hlt, ?_, Or.inl rfl⟩
            rintro c' h; cases h; exact le_refl _
      obtain ⟨b, e1, e2, e3, e4⟩ := e
      obtain ⟨h1, h2⟩ := ih (some b)
      rw [e1]
      refine ⟨fun h => absurd (h1 h).1 (by simp), ?_⟩
      intro v r h
      obtain ⟨i1, i2, i3⟩ := h2 v r h
      have hbv := i2 b rfl
      refine ⟨?_, fun c hc => (e3 c hc).trans hbv, ?_⟩
      · rcases i1 with h | ⟨t, ht, h⟩
        · cases h
          rcases e4 with h | h
          · exact Or.inl h
          · cases h
            exact Or.inr ⟨_, List.mem_cons_self, rfl, rfl⟩
        · exact Or.inr ⟨t, List.mem_cons_of_mem _ ht, h⟩
      · intro t ht w hw
        rcases List.mem_cons.1 ht with rfl | ht
        · cases hw; exact e2.trans hbv
        · exact i3 t ht w hw

end Golearn
