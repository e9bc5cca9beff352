import Verif.Proofs.ClusterMap

/-! # C75: inverting and comparing cluster maps -/

namespace Golearn

/-- `Invert` succeeds exactly if no point is in two clusters or twice in one, and then maps each point to its cluster and nothing else,
whatever the order of iteration. -/
theorem C75_invert (ord : List Int → List Int) (ho : ∀ l, (ord l).Perm l) (m : ClusterMap) (hk : (m.map Prod.fst).Nodup) :
    ((∃ inv, m.invert ord = Res.ok inv) ↔ ValidClusters m) ∧
    (¬ ValidClusters m → m.invert ord = Res.err) ∧
    ∀ inv, m.invert ord = Res.ok inv → ∀ p c, inv.get? p = some c ↔ ∃ l, (c, l) ∈ m ∧ p ∈ l := by
  rcases invert_spec ho hk with ⟨hv, inv, h1, h2⟩ | ⟨hv, h⟩
  · refine ⟨⟨fun _ => hv, fun _ => ⟨inv, h1⟩⟩, fun h => absurd hv h, ?_⟩
    intro inv' h
    rw [h1, Res.ok.injEq] at h
    subst h
    exact h2
  · refine ⟨⟨?_, fun h' => absurd h' hv⟩, fun _ => h, ?_⟩
    · rintro ⟨inv, h'⟩; rw [h] at h'; cases h'
    · intro inv h'; rw [h] at h'; cases h'

example : ClusterMap.invert List.reverse [(1, [4, 5]), (2, [6])] = Res.ok [(6, 2), (4, 1), (5, 1)] ∧
    ClusterMap.invert id [(1, [4, 5]), (2, [5])] = Res.err := by decide +kernel

/-- The property: `Equals` is true exactly of valid cluster maps that are the same up to the numbers of the clusters. -/
def EqualsIsRelabelling : Prop := ∀ (ord : List Int → List Int), (∀ l, (ord l).Perm l) → ∀ (a b : ClusterMap),
  (a.map Prod.fst).Nodup → (b.map Prod.fst).Nodup →
    (a.equals ord b = Res.ok true ↔ ValidClusters a ∧ ValidClusters b ∧ Relabelled a b)

/-- A cluster without points in the first map: the other map splits a cluster in two, and `Equals` is true. -/
theorem C75_refuted : ¬ EqualsIsRelabelling := by
  intro h
  have h1 := (h id (fun l => List.Perm.refl l) [(1, [4, 5]), (2, [])] [(1, [4]), (2, [5])] (by decide) (by decide)).mp (by decide +kernel)
  obtain ⟨_, _, f, _, h2⟩ := h1
  obtain ⟨q, hq, _, hp⟩ := h2 (1, [4]) (by simp)
  simp only [List.mem_cons, List.not_mem_nil, or_false] at hq
  rcases hq with rfl | rfl
  · exact absurd hp.length_eq (by decide)
  · exact absurd hp.length_eq (by decide)

/-- `Equals` is true or an error, never false. -/
theorem C75_outcome (ord : List Int → List Int) (ho : ∀ l, (ord l).Perm l) (a b : ClusterMap) (ha : (a.map Prod.fst).Nodup)
    (hb : (b.map Prod.fst).Nodup) : a.equals ord b = Res.ok true ∨ a.equals ord b = Res.err := by
  unfold ClusterMap.equals
  split
  · exact Or.inr rfl
  rcases invert_spec ho ha with ⟨_, ia, ea, _⟩ | ⟨_, e⟩
  swap
  · rw [e]; exact Or.inr rfl
  rcases invert_spec ho hb with ⟨_, ib, eb, _⟩ | ⟨_, e⟩
  swap
  · rw [ea, e]; exact Or.inr rfl
  rw [ea, Res.bind_ok, eb, Res.bind_ok]
  rcases matchLoop_result ia ib (ord (ia.map Prod.fst)) [] with ⟨ids, h⟩ | h
  · rw [h, Res.bind_ok]
    split
    · exact Or.inl rfl
    · exact Or.inr rfl
  · rw [h]; exact Or.inr rfl

/-- Relabelled maps are always equal. -/
theorem C75_complete (ord : List Int → List Int) (ho : ∀ l, (ord l).Perm l) (a b : ClusterMap) (ha : (a.map Prod.fst).Nodup)
    (hb : (b.map Prod.fst).Nodup) (hva : ValidClusters a) (hvb : ValidClusters b) (hr : Relabelled a b) :
    a.equals ord b = Res.ok true := by
  obtain ⟨f, hf1, hf2⟩ := hr
  unfold ClusterMap.equals
  have hlen : a.length = b.length := by simpa using hf1.length_eq.symm
  rw [if_neg (by simpa using hlen)]
  obtain ⟨_, ia, ea, ga⟩ := (invert_spec ho ha).resolve_right fun h => h.1 hva
  obtain ⟨_, ib, eb, gb⟩ := (invert_spec ho hb).resolve_right fun h => h.1 hvb
  rw [ea, Res.bind_ok, eb, Res.bind_ok]
  have hmem : ∀ p, p ∈ ord (ia.map Prod.fst) ↔ ∃ c, ia.get? p = some c := fun p => (ho _).mem_iff.trans goMap_mem_keys
  -- the partner of a cluster
  have hpart : ∀ p c2, ib.get? p = some c2 → ia.get? p = some (f c2) := by
    intro p c2 h
    obtain ⟨l, hl, hp⟩ := (gb p c2).mp h
    obtain ⟨q, hq, e, hperm⟩ := hf2 _ hl
    exact (ga p (f c2)).mpr ⟨q.2, by rw [← e]; exact hq, hperm.mem_iff.mpr hp⟩
  have hknown : ∀ p c1, ia.get? p = some c1 → ∃ c2, ib.get? p = some c2 ∧ f c2 = c1 := by
    intro p c1 h
    obtain ⟨l, hl, hp⟩ := (ga p c1).mp h
    have : c1 ∈ b.map fun p => f p.1 := hf1.mem_iff.mpr (List.mem_map.mpr ⟨_, hl, rfl⟩)
    obtain ⟨r, hr, e⟩ := List.mem_map.mp this
    obtain ⟨q, hq, e', hperm⟩ := hf2 r hr
    have hq2 : q.2 = l := key_unique ha (c := c1) (by rw [← e, ← e']; exact hq) hl
    exact ⟨r.1, (gb p r.1).mpr ⟨r.2, hr, hperm.mem_iff.mp (hq2 ▸ hp)⟩, e⟩
  obtain ⟨ids, hids, gi⟩ := (matchLoop_spec ia ib (ord (ia.map Prod.fst)) [] fun p hp => (hmem p).mp hp).1 ⟨by
      intro p hp
      obtain ⟨c, hc⟩ := (hmem p).mp hp
      obtain ⟨c2, h2, _⟩ := hknown p c hc
      exact ⟨c2, h2⟩, (by intro p _ c1 c2 c3 _ _ h; cases h), by
      intro p _ q _ c1 c1' c2 h1 h2 h3 h4
      have e1 := hpart p c2 h2
      have e2 := hpart q c2 h4
      rw [h1, Option.some.injEq] at e1
      rw [h3, Option.some.injEq] at e2
      rw [e1, e2]⟩
  rw [hids, Res.bind_ok, if_pos]
  rw [List.all_eq_true]
  intro c hc
  obtain ⟨r, hr, rfl⟩ := List.mem_map.mp ((ho _).mem_iff.mp hc)
  unfold arraysEqual
  rw [List.all_eq_true]
  intro p hp
  rw [(GoMap.get?_of_mem b hb r.1 r.2).mp hr, Option.getD_some] at hp
  have h2 : ib.get? p = some r.1 := (gb p r.1).mpr ⟨r.2, hr, hp⟩
  have h1 := hpart p r.1 h2
  have h3 : ids.get? r.1 = some (f r.1) := (gi _ _).mpr (Or.inr ⟨p, (hmem p).mpr ⟨_, h1⟩, h1, h2⟩)
  rw [h3, Option.getD_some]
  obtain ⟨l, hl, hpl⟩ := (ga p _).mp h1
  rw [(GoMap.get?_of_mem a ha _ l).mp hl]
  simpa using hpl

/-- If no cluster of the first map is empty, `Equals` decides whether the maps are the same up to numbers. Missing from the English claim: empty
clusters (`C75_refuted`). -/
theorem C75_partial (ord : List Int → List Int) (ho : ∀ l, (ord l).Perm l) (a b : ClusterMap) (ha : (a.map Prod.fst).Nodup)
    (hb : (b.map Prod.fst).Nodup) (hne : ∀ q ∈ a, q.2 ≠ []) :
    a.equals ord b = Res.ok true ↔ ValidClusters a ∧ ValidClusters b ∧ Relabelled a b := by
  constructor
  · intro h
    unfold ClusterMap.equals at h
    by_cases hlen : a.length ≠ b.length
    · rw [if_pos hlen] at h; cases h
    rw [if_neg hlen] at h
    rcases invert_spec ho ha with ⟨hva, ia, ea, ga⟩ | ⟨_, e⟩
    swap
    · rw [e] at h; cases h
    rcases invert_spec ho hb with ⟨hvb, ib, eb, gb⟩ | ⟨_, e⟩
    swap
    · rw [ea, e] at h; cases h
    refine ⟨hva, hvb, ?_⟩
    rw [ea, Res.bind_ok, eb, Res.bind_ok] at h
    have hmem : ∀ p, p ∈ ord (ia.map Prod.fst) ↔ ∃ c, ia.get? p = some c := fun p => (ho _).mem_iff.trans goMap_mem_keys
    obtain ⟨ids, hids, h⟩ := Res.bind_eq_ok.mp h
    obtain ⟨g1, _, g3, g4⟩ := (matchLoop_spec ia ib _ [] fun p hp => (hmem p).mp hp).2 ids hids
    by_cases hall : (ord (b.map Prod.fst)).all (fun c => arraysEqual ((a.get? ((ids.get? c).getD 0)).getD []) ((b.get? c).getD [])) = true
    swap
    · rw [if_neg hall] at h; cases h
    rw [List.all_eq_true] at hall
    have hsub : ∀ r ∈ b, ∀ p ∈ r.2, ∃ l, ((ids.get? r.1).getD 0, l) ∈ a ∧ p ∈ l := by
      intro r hr p hp
      have h1 := hall r.1 ((ho _).mem_iff.mpr (List.mem_map.mpr ⟨r, hr, rfl⟩))
      unfold arraysEqual at h1
      rw [List.all_eq_true] at h1
      have h2 := h1 p (by rw [(GoMap.get?_of_mem b hb r.1 r.2).mp hr]; exact hp)
      cases hg : a.get? ((ids.get? r.1).getD 0) with
      | none => rw [hg] at h2; simp at h2
      | some l =>
        rw [hg] at h2
        exact ⟨l, (GoMap.get?_of_mem a ha _ l).mpr hg, by simpa using h2⟩
    have hcover : ∀ q ∈ a, ∀ p ∈ q.2, ∃ r ∈ b, p ∈ r.2 ∧ (ids.get? r.1).getD 0 = q.1 := by
      intro q hq p hp
      have h1 : ia.get? p = some q.1 := (ga p q.1).mpr ⟨q.2, hq, hp⟩
      obtain ⟨c2, h2⟩ := g1 p ((hmem p).mpr ⟨_, h1⟩)
      obtain ⟨l, hl, hpl⟩ := (gb p c2).mp h2
      refine ⟨(c2, l), hl, hpl, ?_⟩
      rw [g3 p ((hmem p).mpr ⟨_, h1⟩) _ _ h1 h2]
      rfl
    have hperm : (b.map fun p => (ids.get? p.1).getD 0).Perm (a.map Prod.fst) := by
      have hs : (a.map Prod.fst).Subperm (b.map fun p => (ids.get? p.1).getD 0) := by
        apply List.subperm_of_subset ha
        intro c hc
        obtain ⟨q, hq, rfl⟩ := List.mem_map.mp hc
        obtain ⟨p, hp⟩ := List.exists_mem_of_ne_nil _ (hne q hq)
        obtain ⟨r, hr, _, e⟩ := hcover q hq p hp
        exact List.mem_map.mpr ⟨r, hr, e⟩
      exact (hs.perm_of_length_le (by simp; omega)).symm
    have hinj := List.inj_on_of_nodup_map (hperm.nodup_iff.mpr ha)
    refine ⟨fun c => (ids.get? c).getD 0, hperm, ?_⟩
    intro r hr
    have : (ids.get? r.1).getD 0 ∈ a.map Prod.fst := hperm.mem_iff.mp (List.mem_map.mpr ⟨r, hr, rfl⟩)
    obtain ⟨q, hq, e⟩ := List.mem_map.mp this
    refine ⟨q, hq, e, ?_⟩
    rw [List.perm_ext_iff_of_nodup (valid_nodup hva hq) (valid_nodup hvb hr)]
    intro p
    constructor
    · intro hp
      obtain ⟨r', hr', hp', e'⟩ := hcover q hq p hp
      have : r' = r := hinj hr' hr (e'.trans e)
      exact this ▸ hp'
    · intro hp
      obtain ⟨l, hl, hpl⟩ := hsub r hr p hp
      have : q.2 = l := key_unique ha (c := q.1) hq (by rw [e]; exact hl)
      rw [this]; exact hpl
  · rintro ⟨h1, h2, h3⟩
    exact C75_complete ord ho a b ha hb h1 h2 h3

example : ClusterMap.equals List.reverse [(1, [4, 5]), (2, [6])] [(7, [6]), (0, [5, 4])] = Res.ok true ∧
    ClusterMap.equals id [(1, [4, 5]), (2, [6])] [(7, [6, 5]), (0, [4])] = Res.err := by decide +kernel

end Golearn
