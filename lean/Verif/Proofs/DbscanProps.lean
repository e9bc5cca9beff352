import Verif.Proofs.Dbscan
import Verif.Proofs.KnnSearch

/-! # Consequences of the exact description of DBSCAN -/

namespace Golearn

section
variable {rows : Nat} {near : Nat → Nat → Bool} {minCount : Int}

theorem firstCore_unique {x s t : Nat} (hs : FirstCore rows near minCount x s) (ht : FirstCore rows near minCount x t) : s = t := by
  rcases Nat.lt_trichotomy s t with h | h | h
  · exact absurd hs.2.2.1 (ht.2.2.2 s h hs.2.1)
  · exact h
  · exact absurd ht.2.2.1 (hs.2.2.2 t h ht.2.1)

theorem firstCore_exists {x o : Nat} (ho : o < rows) (hc : Core rows near minCount o) (hr : Reach rows near minCount o x) :
    ∃ s, s ≤ o ∧ FirstCore rows near minCount x s := by
  classical
  have hex : ∃ s, s < rows ∧ Core rows near minCount s ∧ Reach rows near minCount s x := ⟨o, ho, hc, hr⟩
  refine ⟨Nat.find hex, Nat.find_min' hex ⟨ho, hc, hr⟩, (Nat.find_spec hex).1, (Nat.find_spec hex).2.1, (Nat.find_spec hex).2.2, ?_⟩
  intro o' ho' hc' hr'
  exact Nat.find_min hex ho' ⟨by have := (Nat.find_spec hex).1; omega, hc', hr'⟩

theorem firstCore_seed {x s : Nat} (h : FirstCore rows near minCount x s) : FirstCore rows near minCount s s :=
  ⟨h.1, h.2.1, Relation.ReflTransGen.refl, fun o ho hc hr => h.2.2.2 o ho hc (hr.trans h.2.2.1)⟩

theorem reach_lt {o x : Nat} (ho : o < rows) (hr : Reach rows near minCount o x) : x < rows := by
  induction hr with
  | refl => exact ho
  | tail _ hs _ => exact hs.2.2

theorem forall₂_mem_left' {α β : Type} {R : α → β → Prop} {l : List α} {m : List β} (h : List.Forall₂ R l m) {a : α} (ha : a ∈ l) :
    ∃ b ∈ m, R a b := by
  induction h with
  | nil => cases ha
  | cons hr _ ih =>
    rcases List.mem_cons.mp ha with rfl | ha
    · exact ⟨_, List.mem_cons_self .., hr⟩
    · obtain ⟨b, hb, hab⟩ := ih ha
      exact ⟨b, List.mem_cons_of_mem _ hb, hab⟩

/-- The clusters that a returning run finds, before the small ones are removed. -/
theorem dbscan_clusters {cs : GoMap Nat (List Nat)} (h : dbscanNear rows near minCount = Res.ok cs) :
    ∃ all : GoMap Nat (List Nat), cs = (all.filter fun p => decide ((p.2.length : Int) ≥ minCount)) ∧
      (∃ k, all.map Prod.fst = List.range' 1 k) ∧
      ∃ seeds : List Nat, seeds.Pairwise (· < ·) ∧ (∀ t, t ∈ seeds ↔ FirstCore rows near minCount t t) ∧
        List.Forall₂ (fun t m => m.Nodup ∧ ∀ x, x ∈ m ↔ FirstCore rows near minCount x t ∧ ¬ Lost rows near minCount x t)
          seeds (all.map Prod.snd) := by
  rcases dbscan_exact (rows := rows) (near := near) (minCount := minCount) with ⟨_, h'⟩ | ⟨_, s, h', I⟩
  · rw [h] at h'; cases h'
  · rw [h, Res.ok.injEq] at h'
    obtain ⟨seeds, h1, h2, h3⟩ := I.seeds
    refine ⟨s.clusters, h', ⟨_, I.keys⟩, seeds, h1, ?_, h3⟩
    intro t
    rw [h2]
    exact ⟨fun h => h.2, fun h => ⟨h.1, h⟩⟩

theorem dbscan_members {cs : GoMap Nat (List Nat)} (h : dbscanNear rows near minCount = Res.ok cs) {p : Nat × List Nat} (hp : p ∈ cs) :
    p.2.Nodup ∧ minCount ≤ (p.2.length : Int) ∧ ∃ t, FirstCore rows near minCount t t ∧
      ∀ x, x ∈ p.2 ↔ FirstCore rows near minCount x t ∧ ¬ Lost rows near minCount x t := by
  obtain ⟨all, rfl, _, seeds, _, hs, hall⟩ := dbscan_clusters h
  obtain ⟨hm, hl⟩ := List.mem_filter.mp hp
  obtain ⟨t, ht, hn, hx⟩ := forall₂_mem_right' hall (List.mem_map.mpr ⟨p, hm, rfl⟩)
  exact ⟨hn, by simpa using hl, t, (hs t).mp ht, hx⟩

/-- Two clusters with a point in common are the same entry of the map. -/
theorem dbscan_disjoint {cs : GoMap Nat (List Nat)} (h : dbscanNear rows near minCount = Res.ok cs) :
    (cs.map Prod.fst).Nodup ∧ cs.Pairwise fun p q => ∀ x, x ∈ p.2 → x ∉ q.2 := by
  obtain ⟨all, rfl, ⟨k, hk⟩, seeds, hsort, hs, hall⟩ := dbscan_clusters h
  constructor
  · have hnd : (all.map Prod.fst).Nodup := by rw [hk]; exact List.nodup_range'
    exact hnd.sublist (List.Sublist.map _ List.filter_sublist)
  · apply List.Pairwise.sublist List.filter_sublist
    have key : ∀ (seeds : List Nat) (ms : List (List Nat)), seeds.Pairwise (· < ·) →
        List.Forall₂ (fun t m => m.Nodup ∧ ∀ x, x ∈ m ↔ FirstCore rows near minCount x t ∧ ¬ Lost rows near minCount x t) seeds ms →
        ms.Pairwise fun p q => ∀ x, x ∈ p → x ∉ q := by
      intro seeds ms hs hall
      induction hall with
      | nil => exact List.Pairwise.nil
      | cons hr hrest ih =>
        rw [List.pairwise_cons] at hs ⊢
        refine ⟨?_, ih hs.2⟩
        intro m hm x hx hx'
        obtain ⟨t, ht, hP⟩ := forall₂_mem_right' hrest hm
        have h1 := ((hr.2 x).mp hx).1
        have h2 := ((hP.2 x).mp hx').1
        have := hs.1 t ht
        have := firstCore_unique h1 h2
        omega
    have := key seeds _ hsort hall
    rw [List.pairwise_map] at this
    exact this

/-- If no reachable point is lost and points reached by two core points tie them together, the clusters are the classes of density
connection. -/
theorem dbscan_density (hlost : ∀ x s, FirstCore rows near minCount x s → ¬ Lost rows near minCount x s)
    (hone : ∀ o o' x, o < rows → o' < rows → Core rows near minCount o → Core rows near minCount o' → Reach rows near minCount o x →
      Reach rows near minCount o' x → Reach rows near minCount o o') :
    ∃ cs, dbscanNear rows near minCount = Res.ok cs ∧
      ∀ x y, (∃ p ∈ cs, x ∈ p.2 ∧ y ∈ p.2) ↔ DensityConnected rows near minCount x y := by
  rcases dbscan_exact (rows := rows) (near := near) (minCount := minCount) with ⟨⟨t, _, h1, h2⟩, _⟩ | ⟨_, s, h', _⟩
  · exact absurd h2 (hlost t t h1)
  refine ⟨_, h', ?_⟩
  obtain ⟨all, hcs, _, seeds, hsort, hs, hall⟩ := dbscan_clusters h'
  intro x y
  constructor
  · rintro ⟨p, hp, hx, hy⟩
    obtain ⟨_, _, t, ht, hm⟩ := dbscan_members h' hp
    exact ⟨t, ht.1, ht.2.1, ((hm x).mp hx).1.2.2.1, ((hm y).mp hy).1.2.2.1⟩
  · rintro ⟨o, ho, hc, hrx, hry⟩
    obtain ⟨s1, _, h1⟩ := firstCore_exists ho hc hrx
    obtain ⟨s2, _, h2⟩ := firstCore_exists ho hc hry
    have e : s1 = s2 := by
      have r1 : Reach rows near minCount s1 y := (hone s1 o x h1.1 ho h1.2.1 hc h1.2.2.1 hrx).trans hry
      have r2 : Reach rows near minCount s2 x := (hone s2 o y h2.1 ho h2.2.1 hc h2.2.2.1 hry).trans hrx
      rcases Nat.lt_trichotomy s1 s2 with h | h | h
      · exact absurd r1 (h2.2.2.2 s1 h h1.2.1)
      · exact h
      · exact absurd r2 (h1.2.2.2 s2 h h2.2.1)
    subst e
    have hseed := firstCore_seed h1
    obtain ⟨m, hm, hnd, hmem⟩ := forall₂_mem_left' hall ((hs s1).mpr hseed)
    obtain ⟨p, hp, rfl⟩ := List.mem_map.mp hm
    rw [hcs]
    refine ⟨p, List.mem_filter.mpr ⟨hp, ?_⟩, (hmem x).mpr ⟨h1, hlost _ _ h1⟩, (hmem y).mpr ⟨h2, hlost _ _ h2⟩⟩
    have hsub : ((List.range rows).filter (near s1)).Subperm p.2 := by
      apply List.subperm_of_subset (List.nodup_range.filter _)
      intro z hz
      obtain ⟨hz1, hz2⟩ := List.mem_filter.mp hz
      have hzr : Reach rows near minCount s1 z := Relation.ReflTransGen.single ⟨hseed.2.1, hz2, List.mem_range.mp hz1⟩
      obtain ⟨t, hle, hf⟩ := firstCore_exists hseed.1 hseed.2.1 hzr
      have htr := hone t s1 z hf.1 hseed.1 hf.2.1 hseed.2.1 hf.2.2.1 hzr
      have : t = s1 := by
        rcases Nat.lt_or_ge t s1 with h | h
        · exact absurd htr (hseed.2.2.2 t h hf.2.1)
        · omega
      subst this
      exact (hmem z).mpr ⟨hf, hlost _ _ hf⟩
    have hlen := hsub.length_le
    have hcore := hseed.2.1
    unfold Core at hcore
    rw [List.countP_eq_length_filter] at hcore
    simp only [decide_eq_true_eq]
    omega

/-- If every point within eps of a core point is core, both conditions hold. -/
theorem noBorder {hsym : ∀ p q, near p q = near q p}
    (hb : ∀ p q, p < rows → q < rows → Core rows near minCount p → near p q = true → Core rows near minCount q) :
    (∀ x s, FirstCore rows near minCount x s → ¬ Lost rows near minCount x s) ∧
    (∀ o o' x, o < rows → o' < rows → Core rows near minCount o → Core rows near minCount o' → Reach rows near minCount o x →
      Reach rows near minCount o' x → Reach rows near minCount o o') := by
  have hall : ∀ o x, o < rows → Core rows near minCount o → Reach rows near minCount o x →
      Core rows near minCount x ∧ x < rows ∧ Reach rows near minCount x o := by
    intro o x ho hc hr
    induction hr with
    | refl => exact ⟨hc, ho, Relation.ReflTransGen.refl⟩
    | tail _ hs ih =>
      obtain ⟨h1, h2, h3⟩ := ih
      have hcb := hb _ _ h2 hs.2.2 h1 hs.2.1
      exact ⟨hcb, hs.2.2, Relation.ReflTransGen.head ⟨hcb, by rw [hsym]; exact hs.2.1, h2⟩ h3⟩
  constructor
  · rintro x s h ⟨q, hq, he, h'⟩
    obtain ⟨h1, h2, _⟩ := hall s x h.1 h.2.1 h.2.2.1
    rcases h' with rfl | h'
    · exact he.1 h1
    · exact he.1 (hb x q h2 (by have := h.1; omega) h1 (by rw [hsym]; exact h'))
  · intro o o' x ho ho' hc hc' hr hr'
    exact hr.trans (hall o' x ho' hc' hr').2.2

/-- With `minCount` at most two, a point within eps of another is core. -/
theorem smallCount (hsym : ∀ p q, near p q = near q p) (hrefl : ∀ p, near p p = true) (hm : minCount ≤ 2) (p q : Nat) (hp : p < rows)
    (hq : q < rows) (hc : Core rows near minCount p) (hn : near p q = true) : Core rows near minCount q := by
  by_cases hpq : p = q
  · exact hpq ▸ hc
  unfold Core
  have hsub : [p, q].Subperm ((List.range rows).filter (near q)) := by
    apply List.subperm_of_subset (by simp [hpq])
    intro x hx
    rw [List.mem_filter, List.mem_range]
    rcases List.mem_cons.mp hx with rfl | hx
    · exact ⟨hp, by rw [hsym]; exact hn⟩
    · obtain rfl := List.mem_singleton.mp hx
      exact ⟨hq, hrefl _⟩
  have := hsub.length_le
  rw [List.countP_eq_length_filter]
  simp only [List.length_cons, List.length_nil] at this
  omega

end

/-- The attributes found by `ResolveAttributes` can be read in every row. -/
theorem resolved_get {g : Grid} {n : Nat} (P : g.Presents n) {attrs : List Attr} (hf : g.Finds attrs) {sp : Attr → Spec}
    (h1 : g.resolveUnsorted attrs = Res.ok (attrs.map sp)) (a : Attr) (ha : a ∈ attrs) (r : Nat) (hr : r < n) :
    g.get (sp a) r = Res.ok (g.cell a r) := by
  have hga : g.getAttribute a = Res.ok (sp a) := by
    unfold Grid.resolveUnsorted at h1
    rw [mapRes_eq_ok] at h1
    have : ∀ (l : List Attr), List.Forall₂ (fun a s => (match g.getAttribute a with
        | .ok s => Res.ok s
        | _ => Res.panic) = Res.ok s) l (l.map sp) → a ∈ l → g.getAttribute a = Res.ok (sp a) := by
      intro l hl hal
      induction l with
      | nil => cases hal
      | cons b l ih =>
        rw [List.map_cons, List.forall₂_cons] at hl
        rcases List.mem_cons.mp hal with rfl | hal
        · have := hl.1
          split at this
          · rename_i e; rw [e]; exact this
          · cases this
        · exact ih hl.2 hal
    exact this attrs h1 ha
  obtain ⟨b, hb, _, hg⟩ := hf a ha
  rw [hg] at hga
  have := (P.get_spec hb hga).2 r hr
  rw [this]
  unfold Grid.cell
  rw [hg]

/-- What the conversion of rows of a grid to matrices gives. -/
theorem rowMat_spec {K : Type} [Zero K] {g : Grid} {n : Nat} (P : g.Presents n) (T : g.typed n)
    (srt : List Spec → List Spec) (hsrt : ∀ l, (srt l).Perm l) (val : U64 → K)
    {attrs : List Attr} (hf : g.Finds attrs) (hfl : ∀ a ∈ attrs, a.isFloat = true) (hne : attrs ≠ []) :
    ∃ fs : List Attr, fs.Perm attrs ∧ ((∀ l : List Spec, l.length = attrs.length → srt l = l) → fs = attrs) ∧
      (∀ r, r < n → rowMat srt val g attrs r = Res.ok (g.point val fs r)) ∧
      allRows srt val g attrs = Res.ok ((List.range n).map (g.point val fs)) := by
  obtain ⟨sp, h1, h2⟩ := features_spec P T hf hfl
  obtain ⟨fs, hfs, hid, e⟩ : ∃ fs : List Attr, fs.Perm attrs ∧ ((∀ l : List Spec, l.length = attrs.length → srt l = l) → fs = attrs) ∧
      srt (attrs.map sp) = fs.map sp := by
    by_cases hall : ∀ l : List Spec, l.length = attrs.length → srt l = l
    · exact ⟨attrs, List.Perm.refl _, fun _ => rfl, hall _ (by simp)⟩
    · have := hsrt (attrs.map sp)
      have h2 : (fun l m => l.Perm (m.map sp)) (srt (attrs.map sp)) attrs := this
      rw [← List.eq_map_comp_perm] at h2
      obtain ⟨fs, h3, h4⟩ := h2
      exact ⟨fs, h4, fun h => absurd h hall, h3⟩
  have hrow : ∀ r, r < n → (mapRes (fun s => g.get s r) (fs.map sp)).bind (readRow val) = Res.ok (g.point val fs r) := by
    intro r hr
    have : mapRes (fun s => g.get s r) (fs.map sp) = Res.ok (fs.map fun a => g.cell a r) := by
      have h5 := mapRes_of_ok (fun s => g.get s r) (fun s => (match g.get s r with | .ok b => b | _ => [])) (fs.map sp) (by
        intro s hs
        obtain ⟨a, ha, rfl⟩ := List.mem_map.mp hs
        rw [resolved_get P hf h1 a (hfs.mem_iff.mp ha) r hr])
      rw [h5, List.map_map]
      congr 1
      apply List.map_congr_left
      intro a ha
      simp only [Function.comp]
      rw [resolved_get P hf h1 a (hfs.mem_iff.mp ha) r hr]
    rw [this, Res.bind_ok]
    exact ((h2 fs fun a ha => hfs.mem_iff.mp ha).2 r hr).2 val
  refine ⟨fs, hfs, hid, ?_, ?_⟩
  · intro r hr
    unfold rowMat
    rw [if_pos (by simpa using hfl), if_neg hne]
    unfold Grid.resolve
    rw [h1, Res.map_ok, Res.bind_ok, e]
    exact hrow r hr
  · unfold allRows
    rw [if_pos (by simpa using hfl)]
    unfold Grid.resolve
    rw [h1, Res.map_ok, Res.bind_ok, e, P.rows]
    apply mapRes_of_ok
    intro r hr
    rw [if_neg hne]
    exact hrow r (List.mem_range.mp hr)

/-- What `DBSCAN` does with a grid. -/
theorem dbscan_grid {K : Type} [Zero K] [LE K] [DecidableLE K] {g : Grid} {n : Nat} (P : g.Presents n) (T : g.typed n)
    (srt : List Spec → List Spec) (hsrt : ∀ l, (srt l).Perm l) (val : U64 → K) (metric : List K → List K → K)
    {attrs : List Attr} (hf : g.Finds attrs) (hfl : ∀ a ∈ attrs, a.isFloat = true) (hne : attrs ≠ []) (hn : 0 < n)
    (eps : K) (minCount : Int) :
    ∃ fs : List Attr, fs.Perm attrs ∧ dbscan srt val metric g attrs eps minCount =
      dbscanNear n (fun i j => decide (pairDist metric ((List.range n).map (g.point val fs)) i j ≤ eps)) minCount := by
  obtain ⟨fs, hfs, _, _, hrows⟩ := rowMat_spec P T srt hsrt val hf hfl hne
  refine ⟨fs, hfs, ?_⟩
  unfold dbscan
  rw [hrows, Res.bind_ok, P.rows, if_neg (by omega)]

end Golearn
