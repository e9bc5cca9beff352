import Verif.Spec.Growth
import Verif.Proofs.RuleSelect
import Verif.Props.C51
import Mathlib.Data.List.TakeWhile

/-! # Lemmas about where decision trees stop growing -/

namespace Golearn

/-- Renumbering the rows along `f`. -/
theorem grown_map {K : Type} {key key' : Rule → Nat → String} {num num' : Attr → Nat → K} {lab lab' : Nat → String}
    {f : Nat → Nat} (t : Tree) : ∀ {as as' : List Attr} {rows rows' : List Nat}, as'.Subperm as →
      (∀ q ∈ rows', ∃ i ∈ rows, f i = q) → t.AllRules (fun r => ∀ i ∈ rows, key' r i = key r (f i)) →
      (∀ a ∈ as', ∀ i ∈ rows, num' a i = num a (f i)) → (∀ i ∈ rows, lab' i = lab (f i)) →
      t.GrownOut key' num' lab' as rows → t.GrownOut key num lab as' rows' := by
  induction t with
  | leaf d c =>
    intro as as' rows rows' hs hrows _ hn hl h
    rcases h with h | h | h
    · left
      intro p hp q hq
      obtain ⟨i, hi, rfl⟩ := hrows p hp
      obtain ⟨j, hj, rfl⟩ := hrows q hq
      rw [← hl i hi, ← hl j hj]
      exact h i hi j hj
    · exact Or.inr (Or.inl (hs.length_le.trans h))
    · refine Or.inr (Or.inr ?_)
      intro a ha
      obtain ⟨h1, h2⟩ := h a (hs.subset ha)
      refine ⟨h1, ?_⟩
      intro p hp q hq
      obtain ⟨i, hi, rfl⟩ := hrows p hp
      obtain ⟨j, hj, rfl⟩ := hrows q hq
      rw [← hn a ha i hi, ← hn a ha j hj]
      exact h2 i hi j hj
  | split d c r keys child ih =>
    intro as as' rows rows' hs hrows ha hn hl h k hk
    refine ih k (hs.filter _) ?_ (allRules_imp ?_ _ (ha.2 k hk)) ?_ ?_ (h k hk)
    · intro q hq
      obtain ⟨hq1, hq2⟩ := List.mem_filter.1 hq
      obtain ⟨i, hi, rfl⟩ := hrows q hq1
      exact ⟨i, List.mem_filter.2 ⟨hi, by rw [ha.1 i hi]; exact hq2⟩, rfl⟩
    · intro r hr i hi; exact hr i (List.mem_filter.1 hi).1
    · intro a ham i hi; exact hn a (List.mem_filter.1 ham).1 i (List.mem_filter.1 hi).1
    · intro i hi; exact hl i (List.mem_filter.1 hi).1

theorem inputs_length {g : Grid} (hd : g.distinct) {cls : Attr} (hc : cls ∈ g.allAttributes) :
    (g.inputs cls).length + 1 = g.allAttributes.length := by
  unfold Grid.inputs
  have : (g.allAttributes.filter fun a => decide (a ≠ cls)) = g.allAttributes.erase cls := by
    rw [(distinct_nodup hd).erase_eq_filter]
    apply List.filter_congr
    intro a _
    by_cases h : a = cls <;> simp [h]
  rw [this, List.length_erase_of_mem hc]
  have := List.length_pos_of_mem hc
  omega

/-- The tree that is built has been grown out. -/
theorem inferLoop_grown {K : Type} [Zero K] {e : TreeEnv} {S : U64 → Prop} (E : e.Ok S) {val : U64 → K}
    (hg : ∀ p, GivesUpOnDull e.fo val S (e.gen p)) (fuel : Nat) :
    ∀ (path : List String) (g : Grid) (n : Nat) (lab : Nat → String) (cls : Attr), TreeData e.fo g n lab cls →
      g.FloatsIn n S → g.allAttributes.length < fuel → ∀ t, inferLoop e fuel path g = Res.ok t →
        t.GrownOut (g.branch e.fo) (g.number val) lab (g.inputs cls) (List.range n) := by
  induction fuel with
  | zero => intro _ _ _ _ _ _ _ h; omega
  | succ fuel ih =>
    intro path g n lab cls D hS hfuel t ht
    obtain ⟨m, hm, hnd, hne, hcount, hsome⟩ := treeDist D
    match m, hne with
    | [(c, k)], _ =>
      rw [inferLoop, hm, Res.bind_ok, D.classAttr] at ht
      simp only [Res.ok.injEq] at ht
      subst ht
      left
      have hall : ∀ x, x ∈ (List.range n).map lab → x = c := by
        intro x hx
        have := (hsome x).2 hx
        rw [GoMap.isSome_iff_mem] at this
        simpa using this
      intro p hp q hq
      rw [hall _ (List.mem_map_of_mem hp), hall _ (List.mem_map_of_mem hq)]
    | x :: y :: rest, _ =>
      have hdiff : ∃ p q, p < n ∧ q < n ∧ lab p ≠ lab q := by
        have hx := (hsome x.1).1 (by simp [GoMap.get?])
        have hy := (hsome y.1).1 (by rw [GoMap.isSome_iff_mem]; simp)
        obtain ⟨p, hp, hpx⟩ := List.mem_map.1 hx
        obtain ⟨q, hq, hqy⟩ := List.mem_map.1 hy
        refine ⟨p, q, List.mem_range.1 hp, List.mem_range.1 hq, ?_⟩
        rw [hpx, hqy]
        simp only [List.map_cons, List.nodup_cons, List.mem_cons, not_or] at hnd
        exact hnd.1.1
      obtain ⟨m, hmdef⟩ : ∃ m, m = x :: y :: rest := ⟨_, rfl⟩
      have unf : inferLoop e (fuel + 1) path g =
          if g.size.1 = 2 then Res.ok (.leaf m (majorityClass m (e.classes path (m.map Prod.fst))))
          else
            (e.gen path g).bind fun rule =>
              match rule with
              | none => Res.ok (.leaf m (majorityClass m (e.classes path (m.map Prod.fst))))
              | some r =>
                (splitOn e path g r).bind fun parts =>
                  (mapRes (fun p => (inferLoop e fuel (path ++ [p.1]) p.2).map fun t => (p.1, t)) parts).map fun ch =>
                    .split m (majorityClass m (e.classes path (m.map Prod.fst))) r (ch.map Prod.fst) fun k =>
                      (GoMap.get? ch k).getD (.leaf [] "") := by
        rw [hmdef]
        rw [inferLoop, hm, Res.bind_ok, D.classAttr]
        rfl
      rw [unf] at ht
      by_cases hsz : g.size.1 = 2
      · rw [if_pos hsz] at ht
        simp only [Res.ok.injEq] at ht
        subst ht
        refine Or.inr (Or.inl ?_)
        have := inputs_length D.distinct D.classIn
        have := D.width
        omega
      · rw [if_neg hsz] at ht
        obtain ⟨rule, hgen, hrule⟩ := E.rule path g n lab cls D hS
        rw [hgen, Res.bind_ok] at ht
        match rule, hrule, ht with
        | none, _, ht =>
          simp only [Res.ok.injEq] at ht
          subst ht
          exact Or.inr (Or.inr (hg path g n lab cls D hS hdiff hgen))
        | some r, hrule, ht =>
          simp only at ht
          obtain ⟨hra, hrc⟩ := hrule r rfl
          have hw : 3 ≤ g.allAttributes.length := by
            have := D.wide; have := D.width; omega
          have hperm := D.rows.order _ (E.rowOrder path g)
          obtain ⟨parts, specs, p1, p2, p3, p4, p5, p6⟩ := splitOn_spec (path := path) D E.sort hra (E.rowOrder path g)
          rw [p1, Res.bind_ok] at ht
          obtain ⟨ch, c1, c2⟩ := mapRes_forall₂
            (f := fun p => (inferLoop e fuel (path ++ [p.1]) p.2).map fun t => (p.1, t))
            (R := fun p q => q.1 = p.1 ∧
              q.2.GrownOut (g.branch e.fo) (g.number val) lab ((g.inputs cls).filter fun a => a ≠ r.attr)
                ((List.range n).filter fun i => g.branch e.fo r i == p.1)) parts (by
            intro p hp
            have hkey : ∃ q, q < n ∧ g.branch e.fo r q = p.1 := (p5 p.1).1 (List.mem_map_of_mem hp)
            have hrows : ∀ q ∈ (e.order path g).filter (fun q => g.branch e.fo r q == p.1), q < n := by
              intro q hq
              exact List.mem_range.1 (hperm.mem_iff.1 (List.mem_filter.1 hq).1)
            have hrne : (e.order path g).filter (fun q => g.branch e.fo r q == p.1) ≠ [] := by
              obtain ⟨q, hq, hqk⟩ := hkey
              apply List.ne_nil_of_mem (a := q)
              rw [List.mem_filter]
              exact ⟨hperm.mem_iff.2 (List.mem_range.2 hq), by simp [hqk]⟩
            obtain ⟨T1, T2, T3, T4⟩ := treeData_visible D hra hrc hw p2 p3 hrows hrne
            rw [← p6 p hp] at T1 T2 T3 T4
            have hFl : p.2.FloatsIn ((e.order path g).filter (fun q => g.branch e.fo r q == p.1)).length S := by
              intro b hb hbf i hi
              rw [T4 b hb i hi]
              exact hS b (T3 b hb) hbf _ (hrows _ (List.getElem_mem hi))
            obtain ⟨t, t1, _, t3, _⟩ := inferLoop_spec E fuel (path ++ [p.1]) p.2 _ _ cls T1 hFl (by omega)
            have t5 := ih (path ++ [p.1]) p.2 _ _ cls T1 hFl (by omega) t t1
            refine ⟨(p.1, t), by rw [t1, Res.map_ok], rfl, ?_⟩
            have hatt : ∀ a, a ∈ p.2.allAttributes ↔ a ∈ g.allAttributes ∧ a ≠ r.attr := by
              intro a
              have e1 : p.2.allAttributes = specs.map Spec.attr := by rw [p6 p hp]; rfl
              rw [e1, p3.mem_iff, List.mem_filter]
              refine and_congr_right fun ha => ?_
              constructor
              · rintro h rfl
                rw [C28_equals_refl] at h; cases h
              · intro h
                cases he : a.equals r.attr with
                | false => rfl
                | true => exact absurd (distinct_eq D.distinct ha hra he) h
            refine grown_map (f := fun i => ((e.order path g).filter (fun q => g.branch e.fo r q == p.1)).getD i 0) t
              ?_ ?_ (allRules_imp ?_ t t3) ?_ (fun i _ => rfl) t5
            · refine (((distinct_nodup D.distinct).filter _).filter _).subperm ?_
              intro a ha
              obtain ⟨ha1, ha2⟩ := List.mem_filter.1 ha
              obtain ⟨ha3, ha4⟩ := List.mem_filter.1 ha1
              exact List.mem_filter.2 ⟨(hatt a).2 ⟨ha3, by simpa using ha2⟩, ha4⟩
            · intro q hq
              obtain ⟨hq1, hq2⟩ := List.mem_filter.1 hq
              have hq' : q ∈ (e.order path g).filter (fun q => g.branch e.fo r q == p.1) :=
                List.mem_filter.2 ⟨hperm.mem_iff.2 hq1, hq2⟩
              obtain ⟨i, hi, hiq⟩ := List.getElem_of_mem hq'
              exact ⟨i, List.mem_range.2 hi, by simp [List.getD, hi, hiq]⟩
            · rintro r' ⟨hr1, _⟩ i hi
              have hi' := List.mem_range.1 hi
              have : ((e.order path g).filter (fun q => g.branch e.fo r q == p.1)).getD i 0 =
                  ((e.order path g).filter (fun q => g.branch e.fo r q == p.1))[i] := by
                simp [List.getD, hi']
              rw [this]
              unfold Grid.branch
              rw [T4 _ hr1 i hi']
              rfl
            · intro a ha i hi
              have hi' := List.mem_range.1 hi
              obtain ⟨ha1, ha2⟩ := List.mem_filter.1 ha
              have hap : a ∈ p.2.allAttributes := (hatt a).2 ⟨(List.mem_filter.1 ha1).1, by simpa using ha2⟩
              have : ((e.order path g).filter (fun q => g.branch e.fo r q == p.1)).getD i 0 =
                  ((e.order path g).filter (fun q => g.branch e.fo r q == p.1))[i] := by
                simp [List.getD, hi']
              rw [this]
              unfold Grid.number
              rw [T4 _ hap i hi'])
          rw [c1, Res.map_ok] at ht
          simp only [Res.ok.injEq] at ht
          subst ht
          have hfst : ch.map Prod.fst = parts.map Prod.fst := forall₂_map_fst (fun _ _ h => h.1) c2
          intro k hk
          obtain ⟨⟨k', t⟩, hkt, rfl⟩ := List.mem_map.1 hk
          have hget := (GoMap.get?_of_mem ch (by rw [hfst]; exact p4) k' t).1 hkt
          obtain ⟨p, _, hp1, hp2⟩ := forall₂_mem_right c2 _ hkt
          simp only [hget, Option.getD_some]
          simp only at hp1 hp2
          rw [hp1]; exact hp2

/-! ## Generators -/

variable {K : Type} [Field K] [LinearOrder K] [IsStrictOrderedRing K]

omit [IsStrictOrderedRing K] in
theorem scanLoop_step {e : RuleEnv K} {cs : List String} {refs : List (U64 × String)} {fuel i : Nat} {prev : Option U64}
    {rest : List (U64 × String)} {l r : String → Nat} {best : Option (K × U64)} {a b : U64 × String}
    (g1 : refs[i]? = some a) (g2 : refs[i + 1]? = some b) :
    scanLoop e cs refs (fuel + 1) i prev rest l r best =
      if prev.elim false (fun p => e.feq (e.mid a.1 b.1) p) = true then scanLoop e cs refs fuel (i + 1) prev rest l r best
      else
        let moved := rest.takeWhile fun x => e.fo.gt (e.mid a.1 b.1) x.1
        let l' := moved.foldl (fun s x => bump s x.2) l
        let r' := moved.foldl (fun s x => drop1 s x.2) r
        scanLoop e cs refs fuel (i + moved.length) (some (e.mid a.1 b.1)) (rest.drop moved.length) l' r'
          (match splitEntropyFast e.lg cs l' r' with
          | none => best
          | some s =>
            match best with
            | none => some (s, e.mid a.1 b.1)
            | some p => if s < p.1 then some (s, e.mid a.1 b.1) else best) := by
  rw [scanLoop, g1, g2]
  cases prev <;> rfl

omit [IsStrictOrderedRing K] in
/-- Once the scan has found a threshold it keeps one. -/
theorem scanLoop_keeps {e : RuleEnv K} {cs : List String} {refs : List (U64 × String)} :
    ∀ fuel i prev rest l r b out, scanLoop e cs refs fuel i prev rest l r (some b) = Res.ok out → out ≠ none := by
  intro fuel
  induction fuel with
  | zero => intro i prev rest l r b out h; cases h
  | succ fuel ih =>
    intro i prev rest l r b out h
    rw [scanLoop] at h
    split at h
    · simp only at h
      cases prev with
      | none =>
        simp only [Bool.false_eq_true, if_false] at h
        split at h
        · exact ih _ _ _ _ _ _ _ h
        · by_cases hs : ‹K› < b.1
          · rw [if_pos hs] at h; exact ih _ _ _ _ _ _ _ h
          · rw [if_neg hs] at h; exact ih _ _ _ _ _ _ _ h
      | some p =>
        simp only at h
        split at h
        · exact ih _ _ _ _ _ _ _ h
        · split at h
          · exact ih _ _ _ _ _ _ _ h
          · by_cases hs : ‹K› < b.1
            · rw [if_pos hs] at h; exact ih _ _ _ _ _ _ _ h
            · rw [if_neg hs] at h; exact ih _ _ _ _ _ _ _ h
    · cases h; simp

omit [Field K] [LinearOrder K] [IsStrictOrderedRing K] in
theorem foldl_drop1 (moved : List (U64 × String)) : ∀ (s : String → Nat) (b : List String),
    (∀ c, s c = (moved.map Prod.snd ++ b).count c) → ∀ c, moved.foldl (fun s x => drop1 s x.2) s c = b.count c := by
  induction moved with
  | nil => intro s b h c; simpa using h c
  | cons p ps ih =>
    intro s b h c
    rw [List.foldl_cons]
    refine ih (drop1 s p.2) b ?_ c
    intro c
    have := h c
    rw [List.map_cons, List.cons_append, List.count_cons] at this
    unfold drop1
    by_cases hc : c = p.2
    · subst hc; simp [this]
    · have hc' : p.2 ≠ c := fun h => hc h.symm
      simp [this, hc, hc']

/-- The scan of sorted values that are not all equal finds a threshold. -/
theorem scanLoop_finds {e : RuleEnv K} (hlg : Logarithm e.lg) {cls : List String} (hcls : cls.Nodup)
    {a0 : U64 × String} {tail : List (U64 × String)} (hm : ∀ a ∈ a0 :: tail, a.2 ∈ cls) {val : U64 → K} {D : U64 → Prop}
    (X : ExactOn e val D) (hD : ∀ a ∈ a0 :: tail, D a.1) (hs : (a0 :: tail).Pairwise fun a b => val a.1 ≤ val b.1)
    (hne : ∃ a ∈ a0 :: tail, val a.1 ≠ val a0.1) :
    ∀ fuel i prev best out, (∀ j p, j ≤ i → (a0 :: tail)[j]? = some p → val p.1 = val a0.1) →
      (∀ p, prev = some p → OrMid e.mid D p ∧ val p = val a0.1) →
      scanLoop e cls (a0 :: tail) fuel i prev (a0 :: tail) (fun _ => 0)
        ((a0 :: tail).foldl (fun s x => bump s x.2) fun _ => 0) best = Res.ok out → out ≠ none := by
  intro fuel
  induction fuel with
  | zero => intro i prev best out _ _ h; cases h
  | succ fuel ih =>
    intro i prev best out hi hprev h
    have hD0 : D a0.1 := hD a0 (by simp)
    by_cases hlast : i + 1 < (a0 :: tail).length
    · have g1 := getElem?_getD (a0 :: tail) i (0, "") (by omega)
      have g2 := getElem?_getD (a0 :: tail) (i + 1) (0, "") hlast
      set a := (a0 :: tail).getD i (0, "") with ha
      set b := (a0 :: tail).getD (i + 1) (0, "") with hb
      have ham : a ∈ a0 :: tail := List.mem_of_getElem? g1
      have hbm : b ∈ a0 :: tail := List.mem_of_getElem? g2
      have hva : val a.1 = val a0.1 := hi i a (le_refl _) g1
      have hmid : OrMid e.mid D (e.mid a.1 b.1) := Or.inr ⟨_, _, hD a ham, hD b hbm, rfl⟩
      rw [scanLoop_step g1 g2] at h
      simp only at h
      by_cases hvb : val b.1 = val a0.1
      · -- nothing moves
        have hvm : val (e.mid a.1 b.1) = val a0.1 := by
          rw [X.same _ _ (hD a ham) (hD b hbm) (hva.trans hvb.symm), hva]
        by_cases hfe : prev.elim false (fun p => e.feq (e.mid a.1 b.1) p) = true
        · rw [if_pos hfe] at h
          refine ih (i + 1) prev best out ?_ hprev h
          intro j p hj hp
          rcases Nat.lt_or_ge i j with hlt | hge
          · have : j = i + 1 := by omega
            subst this
            rw [g2] at hp
            cases hp; exact hvb
          · exact hi j p hge hp
        · rw [if_neg hfe] at h
          have hmv : (a0 :: tail).takeWhile (fun x => e.fo.gt (e.mid a.1 b.1) x.1) = [] := by
            rw [List.takeWhile_cons]
            have : e.fo.gt (e.mid a.1 b.1) a0.1 = false := by
              rw [← Bool.not_eq_true, X.gt _ _ hmid (Or.inl hD0), hvm]
              exact lt_irrefl _
            rw [this]; rfl
          rw [hmv] at h
          simp only [List.foldl_nil, List.length_nil, Nat.add_zero, List.drop_zero] at h
          refine ih i _ _ out hi ?_ h
          intro p hp
          cases hp
          exact ⟨hmid, hvm⟩
      · -- the first step up
        have hlt : val a.1 < val b.1 := by
          rw [hva]
          refine lt_of_le_of_ne ?_ (Ne.symm hvb)
          rcases List.mem_cons.1 hbm with h | h
          · rw [h]
          · exact (List.pairwise_cons.1 hs).1 b h
        obtain ⟨m1, m2⟩ := X.between a.1 b.1 (hD a ham) (hD b hbm) hlt
        have hfe : prev.elim false (fun p => e.feq (e.mid a.1 b.1) p) = false := by
          cases prev with
          | none => rfl
          | some p =>
            obtain ⟨q1, q2⟩ := hprev p rfl
            rw [Option.elim_some, ← Bool.not_eq_true, X.feq _ _ hmid q1, q2, ← hva]
            exact m1.ne'
        rw [hfe] at h
        simp only [Bool.false_eq_true, if_false] at h
        set moved := (a0 :: tail).takeWhile (fun x => e.fo.gt (e.mid a.1 b.1) x.1) with hmoved
        set left := (a0 :: tail).dropWhile (fun x => e.fo.gt (e.mid a.1 b.1) x.1) with hleft
        have hsplit : moved ++ left = a0 :: tail := List.takeWhile_append_dropWhile
        have hne1 : moved ≠ [] := by
          rw [hmoved, List.takeWhile_cons, (X.gt _ _ hmid (Or.inl hD0)).2 (by rw [← hva]; exact m1)]
          simp
        have hbf : e.fo.gt (e.mid a.1 b.1) b.1 = false := by
          rw [← Bool.not_eq_true, X.gt _ _ hmid (Or.inl (hD b hbm))]
          exact not_lt.2 m2.le
        have hne2 : left ≠ [] := by
          intro hl
          rw [hl, List.append_nil] at hsplit
          have : b ∈ moved := by rw [hsplit]; exact hbm
          have := List.mem_takeWhile_imp this
          rw [hbf] at this; cases this
        have hent := splitEntropyFast_spec hlg hcls (a := moved.map Prod.snd) (b := left.map Prod.snd)
          (l := moved.foldl (fun s x => bump s x.2) fun _ => 0)
          (r := moved.foldl (fun s x => drop1 s x.2) ((a0 :: tail).foldl (fun s x => bump s x.2) fun _ => 0))
          (by
            intro c hc
            obtain ⟨p, hp, rfl⟩ := List.mem_map.1 hc
            exact hm p (by rw [← hsplit]; exact List.mem_append_left _ hp))
          (by
            intro c hc
            obtain ⟨p, hp, rfl⟩ := List.mem_map.1 hc
            exact hm p (by rw [← hsplit]; exact List.mem_append_right _ hp))
          (by intro c; rw [foldl_bump]; simp)
          (by
            refine foldl_drop1 moved _ _ ?_
            intro c
            rw [foldl_bump, ← List.map_append, hsplit]; simp)
          ⟨by simpa using hne1, by simpa using hne2⟩
        rw [hent] at h
        cases best with
        | none => exact scanLoop_keeps _ _ _ _ _ _ _ _ h
        | some p =>
          simp only at h
          split at h
          · exact scanLoop_keeps _ _ _ _ _ _ _ _ h
          · exact scanLoop_keeps _ _ _ _ _ _ _ _ h
    · exfalso
      obtain ⟨a, ha, hav⟩ := hne
      obtain ⟨j, hj, rfl⟩ := List.getElem_of_mem ha
      exact hav (hi j _ (by omega) (List.getElem?_eq_getElem hj))

/-- No threshold is found only for a column with one number. -/
theorem numericEntropy_none {e : RuleEnv K} (E : e.Ok) {g : Grid} {n : Nat} {lab : Nat → String} {cls : Attr}
    (D : TreeData e.fo g n lab cls) {val : U64 → K} {S : U64 → Prop} (X : g.ExactCells e n val S)
    {a : Attr} (ha : a ∈ g.allAttributes) (hf : a.isFloat = true) (h : numericEntropy e g a = Res.ok none) :
    Dull (g.number val) (List.range n) a := by
  refine ⟨hf, ?_⟩
  by_contra hc
  obtain ⟨cs, refs, c1, r1, r2, r3, r4⟩ := numericEntropy_scan E D ha hf
  have hcell : ∀ q, q < n → unpackFloatBits (g.cell a q) = Res.ok (g.bitsAt a q) ∧ S (g.bitsAt a q) := by
    intro q hq
    obtain ⟨u, hu, hs⟩ := X.2 a ha hf q hq
    simp only [Grid.bitsAt, hu]
    exact ⟨trivial, hs⟩
  have hnum : ∀ q, q < n → g.number val a q = val (g.bitsAt a q) := by
    intro q hq
    unfold Grid.number
    rw [(hcell q hq).1]
  have hS : ∀ p ∈ refs, S p.1 := by
    intro p hp
    obtain ⟨r, hr, rfl⟩ := List.mem_map.1 (r1.mem_iff.1 hp)
    exact (hcell r (List.mem_range.1 hr)).2
  have hle : refs.Pairwise fun p q => val p.1 ≤ val q.1 := by
    refine List.Pairwise.imp_of_mem ?_ (r2 ?_)
    swap
    · have hm : ∀ u ∈ (List.range n).map (g.bitsAt a), OrMid e.mid S u := by
        intro u hu
        obtain ⟨q, hq, rfl⟩ := List.mem_map.1 hu
        exact Or.inl (hcell q (List.mem_range.1 hq)).2
      intro x hx y hy z hz
      have hx := hm x hx
      have hy := hm y hy
      have hz := hm z hz
      rw [← Bool.not_eq_true, X.1.gt x y hx hy, X.1.gt y x hy hx, X.1.gt x z hx hz, X.1.gt y z hy hz]
      refine ⟨fun h => not_lt.2 h.le, fun h => ?_⟩
      rcases lt_or_ge (val y) (val x) with h' | h'
      · exact Or.inl h'
      · exact Or.inr (h.trans_le h')
    intro p q hp hq h
    by_contra hc
    rw [(X.1.gt _ _ (Or.inl (hS p hp)) (Or.inl (hS q hq))).2 (not_le.1 hc)] at h
    cases h
  have row : ∀ q, q < n → (g.bitsAt a q, lab q) ∈ refs := fun q hq =>
    r1.mem_iff.2 (List.mem_map_of_mem (f := fun r => (g.bitsAt a r, lab r)) (List.mem_range.2 hq))
  push Not at hc
  obtain ⟨p, hp, q, hq, hpq⟩ := hc
  have hp := List.mem_range.1 hp
  have hq := List.mem_range.1 hq
  rw [hnum p hp, hnum q hq] at hpq
  cases hrefs : refs with
  | nil => have := row p hp; rw [hrefs] at this; cases this
  | cons a0 tail =>
    rw [r4, hrefs] at h
    rw [hrefs] at hS hle r3 row
    refine scanLoop_finds E.log c1 r3 X.1 hS hle ?_ _ 0 none none none ?_ (by simp) h rfl
    · by_cases h0 : val (g.bitsAt a p) = val a0.1
      · exact ⟨_, row q hq, fun h => hpq (h0.trans h.symm)⟩
      · exact ⟨_, row p hp, h0⟩
    · intro j p hj hp
      have : j = 0 := by omega
      subst this
      simp only [List.getElem?_cons_zero, Option.some.injEq] at hp
      rw [← hp]

/-- What is left of the entropy is a number of bits that is not negative, or nothing is known because the attribute is dull. -/
theorem localEntropy_none {e : RuleEnv K} (E : e.Ok) {g : Grid} {n : Nat} {lab : Nat → String} {cls : Attr}
    (D : TreeData e.fo g n lab cls) {val : U64 → K} {S : U64 → Prop} (X : g.ExactCells e n val S)
    {a : Attr} (ha : a ∈ g.allAttributes) {t : U64} (h : localEntropy e g a = Res.ok (none, t)) :
    Dull (g.number val) (List.range n) a := by
  by_cases hf : a.isFloat = true
  · refine numericEntropy_none E D X ha hf ?_
    obtain ⟨o, ho⟩ := numericEntropy_total E D X ha hf
    simp only [localEntropy, hf, if_true, ho, Res.map_ok] at h
    cases o with
    | none => exact ho
    | some p => cases h
  · rw [localEntropy_cat E D ha (by simpa using hf)] at h
    cases h

/-- A loop over the attributes that gives up has no score for any of them. -/
theorem select_none {e : RuleEnv K} (E : e.Ok) {g : Grid} {n : Nat} {lab : Nat → String} {cls : Attr}
    (D : TreeData e.fo g n lab cls) {val : U64 → K} {S : U64 → Prop} (X : g.ExactCells e n val S)
    {V : Type} [LinearOrder V] (f : Option K → Option V) (hf : ∀ x, f (some x) ≠ none) (as : List Attr)
    (has : ∀ a ∈ as, a ∈ g.allAttributes) {l : List (Attr × Option V × U64)}
    (hl : mapRes (fun a => (localEntropy e g a).map fun p => (a, f p.1, p.2)) as = Res.ok l)
    (hn : pickMax l none = none) : ∀ a ∈ as, Dull (g.number val) (List.range n) a := by
  obtain ⟨l', l1, l2⟩ := mapRes_forall₂ (f := fun a => (localEntropy e g a).map fun p => (a, f p.1, p.2))
    (R := fun a t => ∃ p, localEntropy e g a = Res.ok p ∧ t = (a, f p.1, p.2)) as (by
      intro a ha
      obtain ⟨p, hp⟩ := localEntropy_total E D X (has a ha)
      exact ⟨_, by rw [hp, Res.map_ok], p, hp, rfl⟩)
  obtain rfl : l' = l := by
    rw [l1] at hl
    injection hl
  have hall := ((pickMax_spec l' none).1 hn).2
  have hleft : ∀ a ∈ as, ∃ t ∈ l', ∃ p, localEntropy e g a = Res.ok p ∧ t = (a, f p.1, p.2) := by
    clear l1 hl hn hall has
    induction l2 with
    | nil => simp
    | cons hab _ ih =>
      intro a ha
      rcases List.mem_cons.1 ha with rfl | ha
      · exact ⟨_, by simp, hab⟩
      · obtain ⟨t, ht, h⟩ := ih a ha
        exact ⟨t, by simp [ht], h⟩
  intro a ha
  obtain ⟨t, ht, ⟨o, u⟩, hp, rfl⟩ := hleft a ha
  have := hall _ ht
  cases o with
  | none => exact localEntropy_none E D X (has a ha) hp
  | some x => exact absurd this (hf x)

end Golearn
