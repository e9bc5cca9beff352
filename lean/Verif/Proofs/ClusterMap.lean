import Verif.Model.Cluster
import Verif.Spec.Cluster
import Verif.Proofs.Eval
import Verif.Proofs.Counts
import Mathlib.Data.List.Perm.Subperm
import Mathlib.Data.List.Nodup

/-! # Lemmas about cluster maps -/

namespace Golearn

theorem get_set' (m : GoMap Int Int) (k k' v : Int) : (m.set k v).get? k' = if k' = k then some v else m.get? k' := by
  rw [GoMap.get?_set]
  by_cases h : k = k'
  · rw [if_pos h, if_pos h.symm]
  · rw [if_neg h, if_neg (fun e => h e.symm)]

/-- The loop of `Invert` over (point, cluster) pairs. -/
def insertPairs : List (Int × Int) → GoMap Int Int → Res (GoMap Int Int)
  | [], ret => Res.ok ret
  | p :: ps, ret => if (ret.get? p.1).isSome then Res.err else insertPairs ps (ret.set p.1 p.2)

theorem insertPairs_append (l k : List (Int × Int)) (ret : GoMap Int Int) :
    insertPairs (l ++ k) ret = (insertPairs l ret).bind fun r => insertPairs k r := by
  induction l generalizing ret with
  | nil => rfl
  | cons p l ih =>
    rw [List.cons_append, insertPairs, insertPairs]
    split
    · rfl
    · exact ih _

theorem invertPoints_eq (c : Int) (ps : List Int) (ret : GoMap Int Int) :
    invertPoints c ps ret = insertPairs (ps.map fun p => (p, c)) ret := by
  induction ps generalizing ret with
  | nil => rfl
  | cons p ps ih => rw [invertPoints, List.map_cons, insertPairs, ih]

theorem invertLoop_eq (m : ClusterMap) (cs : List Int) (ret : GoMap Int Int) :
    invertLoop m cs ret = insertPairs (cs.flatMap fun c => ((m.get? c).getD []).map fun p => (p, c)) ret := by
  induction cs generalizing ret with
  | nil => rfl
  | cons c cs ih =>
    rw [invertLoop, List.flatMap_cons, insertPairs_append, invertPoints_eq]
    congr 1
    funext r
    exact ih r

theorem insertPairs_spec (l : List (Int × Int)) : ∀ ret : GoMap Int Int,
    if (l.map Prod.fst).Nodup ∧ ∀ p ∈ l, ret.get? p.1 = none then
      ∃ ret', insertPairs l ret = Res.ok ret' ∧ ∀ k v, ret'.get? k = some v ↔ ret.get? k = some v ∨ (k, v) ∈ l
    else insertPairs l ret = Res.err := by
  induction l with
  | nil =>
    intro ret
    rw [if_pos (by simp)]
    exact ⟨ret, rfl, by simp⟩
  | cons p l ih =>
    intro ret
    by_cases hp : (ret.get? p.1).isSome = true
    · rw [if_neg (by
        intro h
        rw [h.2 p (List.mem_cons_self ..)] at hp
        cases hp)]
      rw [insertPairs, if_pos hp]
    · have hpn : ret.get? p.1 = none := by simpa using hp
      rw [insertPairs, if_neg hp]
      have ih := ih (ret.set p.1 p.2)
      by_cases hc : (l.map Prod.fst).Nodup ∧ ∀ q ∈ l, (ret.set p.1 p.2).get? q.1 = none
      · rw [if_pos hc] at ih
        obtain ⟨ret', h1, h2⟩ := ih
        have hne : ∀ q ∈ l, q.1 ≠ p.1 := by
          intro q hq e
          have := hc.2 q hq
          rw [get_set', if_pos e] at this
          cases this
        rw [if_pos]
        · refine ⟨ret', h1, ?_⟩
          intro k v
          rw [h2, get_set', List.mem_cons]
          by_cases hk : k = p.1
          · rw [if_pos hk]
            subst hk
            rw [hpn]
            constructor
            · rintro (h | h)
              · right; left; rw [Option.some.injEq] at h; subst h; rfl
              · exact Or.inr (Or.inr h)
            · rintro (h | h | h)
              · cases h
              · left; rw [← h]
              · exact Or.inr h
          · rw [if_neg hk]
            constructor
            · rintro (h | h)
              · exact Or.inl h
              · exact Or.inr (Or.inr h)
            · rintro (h | h | h)
              · exact Or.inl h
              · exact absurd (by rw [← h]) hk
              · exact Or.inr h
        · constructor
          · rw [List.map_cons, List.nodup_cons]
            refine ⟨?_, hc.1⟩
            intro h
            obtain ⟨q, hq, e⟩ := List.mem_map.mp h
            exact hne q hq e
          · intro q hq
            rcases List.mem_cons.mp hq with rfl | hq
            · exact hpn
            · have := hc.2 q hq
              rw [get_set', if_neg (hne q hq)] at this
              exact this
      · rw [if_neg hc] at ih
        rw [if_neg, ih]
        rintro ⟨h1, h2⟩
        apply hc
        rw [List.map_cons, List.nodup_cons] at h1
        refine ⟨h1.2, ?_⟩
        intro q hq
        rw [get_set', if_neg]
        · exact h2 q (List.mem_cons_of_mem _ hq)
        · intro e
          exact h1.1 (List.mem_map.mpr ⟨q, hq, e⟩)

theorem flatMap_keys {m : ClusterMap} (hk : (m.map Prod.fst).Nodup) :
    ((m.map Prod.fst).flatMap fun c => ((m.get? c).getD []).map fun p => (p, c)) = m.flatMap fun q => q.2.map fun p => (p, q.1) := by
  rw [List.flatMap_map]
  apply List.flatMap_congr
  intro q hq
  rw [(GoMap.get?_of_mem m hk q.1 q.2).mp hq]
  rfl

/-- `Invert` succeeds exactly on valid cluster maps, and maps points to their clusters. -/
theorem invert_spec {ord : List Int → List Int} (ho : ∀ l, (ord l).Perm l) {m : ClusterMap} (hk : (m.map Prod.fst).Nodup) :
    (ValidClusters m ∧ ∃ inv, m.invert ord = Res.ok inv ∧ ∀ p c, inv.get? p = some c ↔ ∃ l, (c, l) ∈ m ∧ p ∈ l) ∨
    (¬ ValidClusters m ∧ m.invert ord = Res.err) := by
  unfold ClusterMap.invert
  rw [invertLoop_eq]
  have hperm : ((ord (m.map Prod.fst)).flatMap fun c => ((m.get? c).getD []).map fun p => (p, c)).Perm
      (m.flatMap fun q => q.2.map fun p => (p, q.1)) := by
    rw [← flatMap_keys hk]
    exact (ho _).flatMap_right _
  have hfst : ((m.flatMap fun q => q.2.map fun p => (p, q.1)).map Prod.fst) = m.flatMap Prod.snd := by
    rw [List.map_flatMap]
    apply List.flatMap_congr
    intro q _
    rw [List.map_map]
    exact List.map_id'' (fun _ => rfl) _
  have h := insertPairs_spec ((ord (m.map Prod.fst)).flatMap fun c => ((m.get? c).getD []).map fun p => (p, c)) []
  have hcond : ((((ord (m.map Prod.fst)).flatMap fun c => ((m.get? c).getD []).map fun p => (p, c)).map Prod.fst).Nodup ∧
      ∀ p ∈ ((ord (m.map Prod.fst)).flatMap fun c => ((m.get? c).getD []).map fun p => (p, c)),
        GoMap.get? ([] : GoMap Int Int) p.1 = none) ↔ ValidClusters m := by
    unfold ValidClusters
    rw [← hfst, (hperm.map Prod.fst).nodup_iff]
    simp [GoMap.get?]
  by_cases hv : ValidClusters m
  · rw [if_pos (hcond.mpr hv)] at h
    obtain ⟨inv, h1, h2⟩ := h
    refine Or.inl ⟨hv, inv, h1, ?_⟩
    intro p c
    rw [h2, hperm.mem_iff, List.mem_flatMap]
    constructor
    · rintro (h | ⟨q, hq, h⟩)
      · cases h
      · obtain ⟨x, hx, e⟩ := List.mem_map.mp h
        rw [Prod.mk.injEq] at e
        obtain ⟨rfl, rfl⟩ := e
        exact ⟨q.2, hq, hx⟩
    · rintro ⟨l, hl, hp⟩
      exact Or.inr ⟨(c, l), hl, List.mem_map.mpr ⟨p, hp, rfl⟩⟩
  · rw [if_neg fun h => hv (hcond.mp h)] at h
    exact Or.inr ⟨hv, h⟩

theorem goMap_mem_keys {m : GoMap Int Int} {p : Int} : p ∈ m.map Prod.fst ↔ ∃ c, m.get? p = some c := by
  rw [← GoMap.isSome_iff_mem, Option.isSome_iff_exists]

/-- `matchLoop` succeeds exactly if every point is known and no cluster of the other map is to have two partners. -/
theorem matchLoop_spec (refInv otherInv : GoMap Int Int) (ps : List Int) : ∀ ids : GoMap Int Int,
    (∀ p ∈ ps, ∃ c, refInv.get? p = some c) →
    ((∀ p ∈ ps, ∃ c2, otherInv.get? p = some c2) ∧
      (∀ p ∈ ps, ∀ c1 c2 c3, refInv.get? p = some c1 → otherInv.get? p = some c2 → ids.get? c2 = some c3 → c1 = c3) ∧
      (∀ p ∈ ps, ∀ q ∈ ps, ∀ c1 c1' c2, refInv.get? p = some c1 → otherInv.get? p = some c2 → refInv.get? q = some c1' →
        otherInv.get? q = some c2 → c1 = c1') →
      ∃ ids', matchLoop refInv otherInv ps ids = Res.ok ids' ∧ ∀ c2 c1, ids'.get? c2 = some c1 ↔ ids.get? c2 = some c1 ∨
        ∃ p ∈ ps, refInv.get? p = some c1 ∧ otherInv.get? p = some c2) ∧
    (∀ ids', matchLoop refInv otherInv ps ids = Res.ok ids' →
      (∀ p ∈ ps, ∃ c2, otherInv.get? p = some c2) ∧
      (∀ c2 c1, ids.get? c2 = some c1 → ids'.get? c2 = some c1) ∧
      (∀ p ∈ ps, ∀ c1 c2, refInv.get? p = some c1 → otherInv.get? p = some c2 → ids'.get? c2 = some c1) ∧
      ∀ c2 c1, ids'.get? c2 = some c1 → ids.get? c2 = some c1 ∨ ∃ p ∈ ps, refInv.get? p = some c1 ∧ otherInv.get? p = some c2) := by
  induction ps with
  | nil =>
    intro ids _
    refine ⟨fun _ => ⟨ids, rfl, by simp⟩, ?_⟩
    intro ids' h
    rw [matchLoop, Res.ok.injEq] at h
    subst h
    simp
  | cons p ps ih =>
    intro ids hr
    obtain ⟨c1, hc1⟩ := hr p (List.mem_cons_self ..)
    have hr' : ∀ q ∈ ps, ∃ c, refInv.get? q = some c := fun q hq => hr q (List.mem_cons_of_mem _ hq)
    rw [matchLoop]
    simp only [hc1, Option.getD_some]
    constructor
    · rintro ⟨h1, h2, h3⟩
      obtain ⟨c2, hc2⟩ := h1 p (List.mem_cons_self ..)
      rw [hc2]
      simp only
      cases hids : ids.get? c2 with
      | some c3 =>
        have e := h2 p (List.mem_cons_self ..) c1 c2 c3 hc1 hc2 hids
        simp only [e, if_true]
        obtain ⟨ids', g1, g2⟩ := (ih ids hr').1 ⟨fun q hq => h1 q (List.mem_cons_of_mem _ hq),
          fun q hq => h2 q (List.mem_cons_of_mem _ hq), fun q hq r hr => h3 q (List.mem_cons_of_mem _ hq) r (List.mem_cons_of_mem _ hr)⟩
        refine ⟨ids', g1, ?_⟩
        intro d2 d1
        rw [g2]
        constructor
        · rintro (h | ⟨q, hq, h⟩)
          · exact Or.inl h
          · exact Or.inr ⟨q, List.mem_cons_of_mem _ hq, h⟩
        · rintro (h | ⟨q, hq, h, h'⟩)
          · exact Or.inl h
          · rcases List.mem_cons.mp hq with rfl | hq
            · left
              rw [hc1, Option.some.injEq] at h
              rw [hc2, Option.some.injEq] at h'
              rw [← h, ← h', e]; exact hids
            · exact Or.inr ⟨q, hq, h, h'⟩
      | none =>
        simp only
        have hnew : ∀ q ∈ ps, ∀ d1 d2 d3, refInv.get? q = some d1 → otherInv.get? q = some d2 →
            (ids.set c2 c1).get? d2 = some d3 → d1 = d3 := by
          intro q hq d1 d2 d3 k1 k2 k3
          rw [get_set'] at k3
          by_cases hd : d2 = c2
          · rw [if_pos hd, Option.some.injEq] at k3
            subst k3
            exact h3 q (List.mem_cons_of_mem _ hq) p (List.mem_cons_self ..) d1 _ c2 k1 (hd ▸ k2) hc1 hc2
          · rw [if_neg hd] at k3
            exact h2 q (List.mem_cons_of_mem _ hq) d1 d2 d3 k1 k2 k3
        obtain ⟨ids', g1, g2⟩ := (ih (ids.set c2 c1) hr').1 ⟨fun q hq => h1 q (List.mem_cons_of_mem _ hq), hnew,
          fun q hq r hr => h3 q (List.mem_cons_of_mem _ hq) r (List.mem_cons_of_mem _ hr)⟩
        refine ⟨ids', g1, ?_⟩
        intro d2 d1
        rw [g2, get_set']
        constructor
        · rintro (h | ⟨q, hq, h⟩)
          · by_cases hd : d2 = c2
            · rw [if_pos hd, Option.some.injEq] at h
              exact Or.inr ⟨p, List.mem_cons_self .., by rw [hc1, h], by rw [hc2, hd]⟩
            · rw [if_neg hd] at h
              exact Or.inl h
          · exact Or.inr ⟨q, List.mem_cons_of_mem _ hq, h⟩
        · rintro (h | ⟨q, hq, h, h'⟩)
          · left
            have hd : d2 ≠ c2 := by rintro rfl; rw [hids] at h; cases h
            rw [if_neg hd]; exact h
          · rcases List.mem_cons.mp hq with rfl | hq
            · left
              rw [hc1, Option.some.injEq] at h
              rw [hc2, Option.some.injEq] at h'
              rw [if_pos h'.symm, h]
            · exact Or.inr ⟨q, hq, h, h'⟩
    · intro ids' h
      cases hc2 : otherInv.get? p with
      | none => rw [hc2] at h; cases h
      | some c2 =>
        rw [hc2] at h
        simp only at h
        cases hids : ids.get? c2 with
        | some c3 =>
          rw [hids] at h
          simp only at h
          by_cases e : c1 = c3
          · rw [if_pos e] at h
            obtain ⟨g1, g2, g3, g4⟩ := (ih ids hr').2 ids' h
            refine ⟨?_, g2, ?_, ?_⟩
            · intro q hq
              rcases List.mem_cons.mp hq with rfl | hq
              · exact ⟨c2, hc2⟩
              · exact g1 q hq
            · intro q hq d1 d2 k1 k2
              rcases List.mem_cons.mp hq with rfl | hq
              · rw [hc1, Option.some.injEq] at k1
                rw [hc2, Option.some.injEq] at k2
                rw [← k1, ← k2, e]
                exact g2 _ _ hids
              · exact g3 q hq d1 d2 k1 k2
            · intro d2 d1 hd
              rcases g4 d2 d1 hd with h | ⟨q, hq, h⟩
              · exact Or.inl h
              · exact Or.inr ⟨q, List.mem_cons_of_mem _ hq, h⟩
          · rw [if_neg e] at h; cases h
        | none =>
          rw [hids] at h
          simp only at h
          obtain ⟨g1, g2, g3, g4⟩ := (ih (ids.set c2 c1) hr').2 ids' h
          refine ⟨?_, ?_, ?_, ?_⟩
          · intro q hq
            rcases List.mem_cons.mp hq with rfl | hq
            · exact ⟨c2, hc2⟩
            · exact g1 q hq
          · intro d2 d1 hd
            apply g2
            rw [get_set', if_neg]
            · exact hd
            · rintro rfl; rw [hids] at hd; cases hd
          · intro q hq d1 d2 k1 k2
            rcases List.mem_cons.mp hq with rfl | hq
            · rw [hc1, Option.some.injEq] at k1
              rw [hc2, Option.some.injEq] at k2
              apply g2
              rw [get_set', if_pos k2.symm, k1]
            · exact g3 q hq d1 d2 k1 k2
          · intro d2 d1 hd
            rcases g4 d2 d1 hd with h | ⟨q, hq, h⟩
            · rw [get_set'] at h
              by_cases hd : d2 = c2
              · rw [if_pos hd, Option.some.injEq] at h
                exact Or.inr ⟨p, List.mem_cons_self .., by rw [hc1, h], by rw [hc2, hd]⟩
              · rw [if_neg hd] at h
                exact Or.inl h
            · exact Or.inr ⟨q, List.mem_cons_of_mem _ hq, h⟩

theorem matchLoop_result (refInv otherInv : GoMap Int Int) (ps : List Int) : ∀ ids : GoMap Int Int,
    (∃ ids', matchLoop refInv otherInv ps ids = Res.ok ids') ∨ matchLoop refInv otherInv ps ids = Res.err := by
  induction ps with
  | nil => intro ids; exact Or.inl ⟨ids, rfl⟩
  | cons p ps ih =>
    intro ids
    rw [matchLoop]
    split
    · exact Or.inr rfl
    · split
      · split
        · exact ih _
        · exact Or.inr rfl
      · exact ih _

theorem key_unique {m : ClusterMap} (hk : (m.map Prod.fst).Nodup) {c : Int} {l l' : List Int} (h : (c, l) ∈ m) (h' : (c, l') ∈ m) :
    l = l' := by
  have h1 := (GoMap.get?_of_mem m hk c l).mp h
  have h2 := (GoMap.get?_of_mem m hk c l').mp h'
  rw [h1, Option.some.injEq] at h2
  exact h2

theorem valid_unique {m : ClusterMap} (hv : ValidClusters m) {c c' : Int} {l l' : List Int} {p : Int} (h : (c, l) ∈ m) (h' : (c', l') ∈ m)
    (hp : p ∈ l) (hp' : p ∈ l') : c = c' := by
  unfold ValidClusters at hv
  induction m with
  | nil => cases h
  | cons q m ih =>
    rw [List.flatMap_cons, List.nodup_append] at hv
    obtain ⟨h1, h2, h3⟩ := hv
    rcases List.mem_cons.mp h with e | h
    · rcases List.mem_cons.mp h' with e' | h'
      · rw [← e', Prod.mk.injEq] at e; exact e.1
      · rw [← e] at h3
        exact absurd rfl (h3 p hp p (List.mem_flatMap.mpr ⟨_, h', hp'⟩))
    · rcases List.mem_cons.mp h' with e' | h'
      · rw [← e'] at h3
        exact absurd rfl (h3 p hp' p (List.mem_flatMap.mpr ⟨_, h, hp⟩))
      · exact ih h2 h h'

theorem valid_nodup {m : ClusterMap} (hv : ValidClusters m) {q : Int × List Int} (h : q ∈ m) : q.2.Nodup := by
  unfold ValidClusters at hv
  rw [List.nodup_flatMap] at hv
  exact hv.1 q h

end Golearn
