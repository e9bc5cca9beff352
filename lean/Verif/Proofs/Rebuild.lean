import Verif.Spec.Rebuild
import Verif.Props.C139
import Verif.Props.C148

/-! # Lemmas about building a decision tree again -/

namespace Golearn

section
variable {K : Type} [Field K] [LinearOrder K]

theorem remaining_perm (lg : K → K) {ps ps' : List (String × String)} (h : ps.Perm ps') : remaining lg ps = remaining lg ps' := by
  unfold remaining
  rw [((h.map _).dedup.map _).sum_eq]
  congr 2
  funext v
  rw [(h.filter _).length_eq, h.length_eq, entropyOf_perm lg ((h.filter _).map _)]

theorem infoGainOf_perm (lg : K → K) {ps ps' : List (String × String)} (h : ps.Perm ps') : infoGainOf lg ps = infoGainOf lg ps' := by
  unfold infoGainOf
  rw [remaining_perm lg h, entropyOf_perm lg (h.map _)]

theorem infoRatioOf_perm (lg : K → K) {ps ps' : List (String × String)} (h : ps.Perm ps') : infoRatioOf lg ps = infoRatioOf lg ps' := by
  unfold infoRatioOf
  rw [remaining_perm lg h, infoGainOf_perm lg h]

theorem remaining_rows (lg : K → K) (lab key : Nat → String) (n : Nat) :
    remaining lg (valuesAndLabels key lab (List.range n)) = condEntropy lg lab key n := by
  unfold remaining condEntropy labelsAt valuesAndLabels
  simp only [List.map_map, List.filter_map, List.length_map, List.length_range]
  rfl

theorem infoGainOf_rows (lg : K → K) (lab key : Nat → String) (n : Nat) :
    infoGainOf lg (valuesAndLabels key lab (List.range n)) = gainOf lg lab key n := by
  unfold infoGainOf gainOf
  rw [remaining_rows]
  unfold valuesAndLabels
  rw [List.map_map]
  rfl

theorem infoRatioOf_rows (lg : K → K) (lab key : Nat → String) (n : Nat) :
    infoRatioOf lg (valuesAndLabels key lab (List.range n)) = ratioOf lg lab key n := by
  unfold infoRatioOf ratioOf
  rw [remaining_rows, infoGainOf_rows]

end

section
variable {V : Type} [LinearOrder V] {score : List (String × String) → V}

theorem vl_perm {key lab : Nat → String} {rows rows' : List Nat} (h : rows.Perm rows') :
    (valuesAndLabels key lab rows).Perm (valuesAndLabels key lab rows') := h.map _

/-- Renumbering the rows along `f`. -/
theorem greedy_map (hs : ∀ ps ps', ps.Perm ps' → score ps = score ps') {key key' : Rule → Nat → String} {lab lab' : Nat → String}
    {f : Nat → Nat} (t : Tree) : ∀ {as as' : List Attr} {rows rows' : List Nat}, as.Perm as' →
      (rows.map f).Perm rows' → (∀ r : Rule, r.attr ∈ as → ∀ i ∈ rows, key' r i = key r (f i)) →
      (∀ i ∈ rows, lab' i = lab (f i)) →
      t.Greedy score key' lab' as rows → t.Greedy score key lab as' rows' := by
  induction t with
  | leaf d c => intros; trivial
  | split d c r keys child ih =>
    intro as as' rows rows' hp hrows hk hl h
    obtain ⟨h1, h2, hv, h3, h4⟩ := h
    have eq : ∀ r : Rule, r.attr ∈ as →
        score (valuesAndLabels (key' r) lab' rows) = score (valuesAndLabels (key r) lab rows') := by
      intro r hr
      rw [← hs _ _ (vl_perm hrows)]
      congr 1
      unfold valuesAndLabels
      rw [List.map_map]
      apply List.map_congr_left
      intro i hi
      simp [hk r hr i hi, hl i hi]
    refine ⟨hp.length_eq ▸ h1, hp.mem_iff.1 h2, hv, ?_, ?_⟩
    · intro a ha
      have ha := hp.mem_iff.2 ha
      rw [← eq ⟨a, 0⟩ ha, ← eq r h2]
      exact h3 a ha
    · intro k hkk
      refine ih k (hp.filter _) ?_ ?_ ?_ (h4 k hkk)
      · have : (rows.filter fun q => key' r q == k).map f = (rows.map f).filter fun q => key r q == k := by
          rw [List.filter_map]
          congr 1
          apply List.filter_congr
          intro i hi
          simp [hk r h2 i hi]
        rw [this]
        exact hrows.filter _
      · intro r' hr' i hi
        exact hk r' (List.mem_filter.1 hr').1 i (List.mem_filter.1 hi).1
      · intro i hi; exact hl i (List.mem_filter.1 hi).1

/-- The tree that is built is greedy. -/
theorem inferLoop_greedy (hs : ∀ ps ps', ps.Perm ps' → score ps = score ps') {e : TreeEnv} {S : U64 → Prop} (E : e.Ok S)
    (hg : ∀ p, PicksBest e.fo score (e.gen p)) (fuel : Nat) :
    ∀ (path : List String) (g : Grid) (n : Nat) (lab : Nat → String) (cls : Attr), TreeData e.fo g n lab cls →
      (∀ a ∈ g.allAttributes, a.isFloat = false) → g.allAttributes.length < fuel → ∀ t, inferLoop e fuel path g = Res.ok t →
        t.Greedy score (g.branch e.fo) lab (g.inputs cls) (List.range n) := by
  induction fuel with
  | zero => intro _ _ _ _ _ _ _ h; omega
  | succ fuel ih =>
    intro path g n lab cls D hcat hfuel t ht
    have hS : g.FloatsIn n S := by
      intro a ha hf
      rw [hcat a ha] at hf; cases hf
    obtain ⟨m, hm, hnd, hne, hcount, hsome⟩ := treeDist D
    match m, hne with
    | [(c, k)], _ =>
      rw [inferLoop, hm, Res.bind_ok, D.classAttr] at ht
      simp only [Res.ok.injEq] at ht
      subst ht
      trivial
    | x :: y :: rest, _ =>
      have hdiff : ∃ p q, p < n ∧ q < n ∧ lab p ≠ lab q := by
        have hx := (hsome x.1).1 (by simp [GoMap.get?])
        have hy := (hsome y.1).1 (by rw [GoMap.isSome_iff_mem]; simp)
        obtain ⟨p, hp, hpx⟩ := List.mem_map.1 hx
        obtain ⟨q, hq, hqy⟩ := List.mem_map.1 hy
        refine ⟨p, q, List.mem_range.1 hp, List.mem_range.1 hq, ?_⟩
        rw [hpx, hqy]
        simp only [List.map_cons, List.nodup_cons, List.mem_cons, not_or] at hnd
        exact hnd.1.1
      obtain ⟨m, hmdef⟩ : ∃ m, m = x :: y :: rest := ⟨_, rfl⟩
      have unf : inferLoop e (fuel + 1) path g =
          if g.size.1 = 2 then Res.ok (.leaf m (majorityClass m (e.classes path (m.map Prod.fst))))
          else
            (e.gen path g).bind fun rule =>
              match rule with
              | none => Res.ok (.leaf m (majorityClass m (e.classes path (m.map Prod.fst))))
              | some r =>
                (splitOn e path g r).bind fun parts =>
                  (mapRes (fun p => (inferLoop e fuel (path ++ [p.1]) p.2).map fun t => (p.1, t)) parts).map fun ch =>
                    .split m (majorityClass m (e.classes path (m.map Prod.fst))) r (ch.map Prod.fst) fun k =>
                      (GoMap.get? ch k).getD (.leaf [] "") := by
        rw [hmdef]
        rw [inferLoop, hm, Res.bind_ok, D.classAttr]
        rfl
      rw [unf] at ht
      by_cases hsz : g.size.1 = 2
      · rw [if_pos hsz] at ht
        simp only [Res.ok.injEq] at ht
        subst ht
        trivial
      · rw [if_neg hsz] at ht
        obtain ⟨rule, hgen, hrule⟩ := E.rule path g n lab cls D hS
        rw [hgen, Res.bind_ok] at ht
        match rule, hrule, ht, hgen with
        | none, _, ht, _ =>
          simp only [Res.ok.injEq] at ht
          subst ht
          trivial
        | some r, hrule, ht, hgen =>
          simp only at ht
          obtain ⟨hra, hrc⟩ := hrule r rfl
          have hw : 3 ≤ g.allAttributes.length := by
            have := D.wide; have := D.width; omega
          have hperm := D.rows.order _ (E.rowOrder path g)
          obtain ⟨parts, specs, p1, p2, p3, p4, p5, p6⟩ := splitOn_spec (path := path) D E.sort hra (E.rowOrder path g)
          rw [p1, Res.bind_ok] at ht
          obtain ⟨ch, c1, c2⟩ := mapRes_forall₂
            (f := fun p => (inferLoop e fuel (path ++ [p.1]) p.2).map fun t => (p.1, t))
            (R := fun p q => q.1 = p.1 ∧
              q.2.Greedy score (g.branch e.fo) lab ((g.inputs cls).filter fun a => a ≠ r.attr)
                ((List.range n).filter fun i => g.branch e.fo r i == p.1)) parts (by
            intro p hp
            have hkey : ∃ q, q < n ∧ g.branch e.fo r q = p.1 := (p5 p.1).1 (List.mem_map_of_mem hp)
            have hrows : ∀ q ∈ (e.order path g).filter (fun q => g.branch e.fo r q == p.1), q < n := by
              intro q hq
              exact List.mem_range.1 (hperm.mem_iff.1 (List.mem_filter.1 hq).1)
            have hrne : (e.order path g).filter (fun q => g.branch e.fo r q == p.1) ≠ [] := by
              obtain ⟨q, hq, hqk⟩ := hkey
              apply List.ne_nil_of_mem (a := q)
              rw [List.mem_filter]
              exact ⟨hperm.mem_iff.2 (List.mem_range.2 hq), by simp [hqk]⟩
            obtain ⟨T1, T2, T3, T4⟩ := treeData_visible D hra hrc hw p2 p3 hrows hrne
            rw [← p6 p hp] at T1 T2 T3 T4
            have hcat' : ∀ a ∈ p.2.allAttributes, a.isFloat = false := fun a ha => hcat a (T3 a ha)
            have hFl : p.2.FloatsIn ((e.order path g).filter (fun q => g.branch e.fo r q == p.1)).length S := by
              intro b hb hbf
              rw [hcat' b hb] at hbf; cases hbf
            obtain ⟨t, t1, _⟩ := inferLoop_spec E fuel (path ++ [p.1]) p.2 _ _ cls T1 hFl (by omega)
            have t5 := ih (path ++ [p.1]) p.2 _ _ cls T1 hcat' (by omega) t t1
            refine ⟨(p.1, t), by rw [t1, Res.map_ok], rfl, ?_⟩
            have hatt : ∀ a, a ∈ p.2.allAttributes ↔ a ∈ g.allAttributes ∧ a ≠ r.attr := by
              intro a
              have e1 : p.2.allAttributes = specs.map Spec.attr := by rw [p6 p hp]; rfl
              rw [e1, p3.mem_iff, List.mem_filter]
              refine and_congr_right fun ha => ?_
              constructor
              · rintro h rfl
                rw [C28_equals_refl] at h; cases h
              · intro h
                cases he : a.equals r.attr with
                | false => rfl
                | true => exact absurd (distinct_eq D.distinct ha hra he) h
            refine greedy_map hs (f := fun i => ((e.order path g).filter (fun q => g.branch e.fo r q == p.1)).getD i 0) t
              ?_ ?_ ?_ (fun i _ => rfl) t5
            · refine (List.perm_ext_iff_of_nodup ((distinct_nodup T1.distinct).filter _)
                (((distinct_nodup D.distinct).filter _).filter _)).2 ?_
              intro a
              simp only [Grid.inputs, List.mem_filter, hatt, decide_eq_true_eq]
              tauto
            · rw [map_getD_range]
              exact hperm.filter _
            · intro r' hr' i hi
              have hr1 := (List.mem_filter.1 hr').1
              have hi' := List.mem_range.1 hi
              have : ((e.order path g).filter (fun q => g.branch e.fo r q == p.1)).getD i 0 =
                  ((e.order path g).filter (fun q => g.branch e.fo r q == p.1))[i] := by
                simp [List.getD, hi']
              rw [this]
              unfold Grid.branch
              rw [T4 _ hr1 i hi']
              rfl)
          rw [c1, Res.map_ok] at ht
          simp only [Res.ok.injEq] at ht
          subst ht
          have hfst : ch.map Prod.fst = parts.map Prod.fst := forall₂_map_fst (fun _ _ h => h.1) c2
          refine ⟨?_, List.mem_filter.2 ⟨hra, by simpa using hrc⟩, (hg path g n lab cls r D hcat hdiff hgen).1,
            (hg path g n lab cls r D hcat hdiff hgen).2, ?_⟩
          · have := inputs_length D.distinct D.classIn
            omega
          intro k hk
          obtain ⟨⟨k', t⟩, hkt, rfl⟩ := List.mem_map.1 hk
          have hget := (GoMap.get?_of_mem ch (by rw [hfst]; exact p4) k' t).1 hkt
          obtain ⟨p, _, hp1, hp2⟩ := forall₂_mem_right c2 _ hkt
          simp only [hget, Option.getD_some]
          simp only at hp1 hp2
          rw [hp1]; exact hp2

/-! ## Only one tree -/

theorem clearWinner_majority {l : List String} {c c' : String} (h : ClearWinner l c) (m : Majority l c') : c' = c := by
  by_contra hne
  have := h.2 c' hne
  have := m.2 c
  omega

theorem describes_get {lab : Nat → String} {rows : List Nat} {d d' : GoMap String Nat} {c c' : String}
    (h : Describes lab rows d c) (h' : Describes lab rows d' c') (x : String) : d.get? x = d'.get? x := by
  have e := (h.2.1 x).trans (h'.2.1 x).symm
  have s := (h.2.2.1 x).trans (h'.2.2.1 x).symm
  cases hx : d.get? x with
  | none => cases hx' : d'.get? x with
    | none => rfl
    | some v => rw [hx, hx'] at s; simp at s
  | some u => cases hx' : d'.get? x with
    | none => rw [hx, hx'] at s; simp at s
    | some v => rw [hx, hx'] at e; simpa using e

/-- Without ties there is one tree. -/
theorem same_of_noTies {K : Type} {key : Rule → Nat → String} {num : Attr → Nat → K} {lab : Nat → String} (t : Tree) :
    ∀ (t' : Tree) (as : List Attr) (rows : List Nat), (∀ a ∈ as, a.isFloat = false) →
      NoTies score key lab as rows →
      t.Fits key lab rows → t'.Fits key lab rows → t.GrownOut key num lab as rows → t'.GrownOut key num lab as rows →
      t.Greedy score key lab as rows → t'.Greedy score key lab as rows → t.SameAs t' := by
  have lone : ∀ {rows : List Nat} {d d' : GoMap String Nat} {c c' : String}, (∀ p ∈ rows, ∀ q ∈ rows, lab p = lab q) →
      Describes lab rows d c → Describes lab rows d' c' → c = c' := by
    intro rows d d' c c' h h1 h2
    obtain ⟨p, hp, rfl⟩ := List.mem_map.1 h1.1.1
    obtain ⟨q, hq, rfl⟩ := List.mem_map.1 h2.1.1
    exact h p hp q hq
  have stop : ∀ {as : List Attr} {rows : List Nat}, (∀ a ∈ as, a.isFloat = false) → (∀ a ∈ as, Dull num rows a) → as.length ≤ 1 := by
    intro as rows hc h
    match as with
    | [] => simp
    | a :: _ =>
      have := (h a (by simp)).1
      rw [hc a (by simp)] at this; cases this
  have cls : ∀ {as : List Attr} {rows : List Nat} {d d' : GoMap String Nat} {c c' : String}, NoTies score key lab as rows →
      Describes lab rows d c → Describes lab rows d' c' → c = c' := by
    intro as rows d d' c c' hn h1 h2
    cases hn with
    | pure _ _ h => exact lone h h1 h2
    | last _ _ w _ hw => rw [clearWinner_majority hw h1.1, clearWinner_majority hw h2.1]
    | split _ _ w _ hw => rw [clearWinner_majority hw h1.1, clearWinner_majority hw h2.1]
  have mixed : ∀ {as : List Attr} {rows : List Nat} {d : GoMap String Nat} {c : String} {d' : GoMap String Nat} {c' : String} {r : Rule}
      {keys : List String} {child : String → Tree}, (∀ a ∈ as, a.isFloat = false) →
      (Tree.leaf d c).GrownOut key num lab as rows → (Tree.split d' c' r keys child).Fits key lab rows →
      (Tree.split d' c' r keys child).Greedy score key lab as rows → False := by
    intro as rows d c d' c' r keys child hc hg hf hgr
    obtain ⟨_, ⟨p, hp, q, hq, hpq⟩, _⟩ := hf
    have h2 := hgr.1
    rcases hg with h | h | h
    · exact hpq (h p hp q hq)
    · omega
    · have := stop hc h; omega
  induction t with
  | leaf d c =>
    intro t' as rows hc hn hf hf' hg hg' hgr hgr'
    cases t' with
    | leaf d' c' => exact ⟨describes_get hf hf', cls hn hf hf'⟩
    | split d' c' r' keys' child' => exact mixed hc hg hf' hgr'
  | split d c r keys child ih =>
    intro t' as rows hc hn hf hf' hg hg' hgr hgr'
    cases t' with
    | leaf d' c' => exact mixed hc hg' hf hgr
    | split d' c' r' keys' child' =>
      obtain ⟨f1, ⟨p, hp, q, hq, hpq⟩, f3, f4, f5⟩ := hf
      obtain ⟨f1', _, f3', f4', f5'⟩ := hf'
      obtain ⟨g1, g2, gv, g3, g4⟩ := hgr
      obtain ⟨g1', g2', gv', g3', g4'⟩ := hgr'
      have hc' := cls hn f1 f1'
      cases hn with
      | pure _ _ h => exact absurd (h p hp q hq) hpq
      | last _ _ w hl _ => omega
      | split _ _ w a hw ha hbest hrec =>
        have one : ∀ r : Rule, r.attr ∈ as → r.val = 0 →
            (∀ b ∈ as, score (valuesAndLabels (key ⟨b, 0⟩) lab rows) ≤ score (valuesAndLabels (key r) lab rows)) → r = ⟨a, 0⟩ := by
          rintro ⟨b, v⟩ hr rfl hb
          by_cases hne : b = a
          · rw [hne]
          · exact absurd (hb a ha) (not_le.2 (hbest b hr hne))
        have ra := one r g2 gv g3
        have ra' := one r' g2' gv' g3'
        subst ra ra'
        have hkeys : ∀ k, k ∈ keys ↔ k ∈ keys' := fun k => (f4 k).trans (f4' k).symm
        refine ⟨describes_get f1 f1', hc', rfl, (List.perm_ext_iff_of_nodup f3 f3').2 hkeys, ?_⟩
        intro k hk
        have hk' := (hkeys k).1 hk
        exact ih k (child' k) _ _ (fun b hb => hc b (List.mem_filter.1 hb).1) (hrec k) (f5 k hk) (f5' k hk') (hg k hk) (hg' k hk')
          (g4 k hk) (g4' k hk')

/-- The same tree leads a row to the same class. -/
theorem same_leadsTo {fo : FloatOps} {g : Grid} {row : Nat} {t : Tree} {c : String} (h : LeadsTo fo g row t c) :
    ∀ t', t.SameAs t' → LeadsTo fo g row t' c := by
  induction h with
  | leaf d c =>
    intro t' hs
    cases t' with
    | leaf d' c' => rw [hs.2]; exact .leaf _ _
    | split => exact hs.elim
  | split d cls r keys child s v k c h1 h2 h3 h4 _ ih =>
    intro t' hs
    cases t' with
    | leaf => exact hs.elim
    | split d' c' r' keys' child' =>
      obtain ⟨_, _, rfl, s5, s6⟩ := hs
      exact .split _ _ _ _ _ s v k c h1 h2 h3 (s5.mem_iff.1 h4) (ih _ (s6 k h4))

end

end Golearn
