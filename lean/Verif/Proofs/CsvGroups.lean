import Verif.Spec.CsvGroups
import Verif.Proofs.CsvBuild
import Verif.Proofs.Template

/-! # Reading with groups: lemmas -/

namespace Golearn

/-! ## The maps of groups -/

theorem get?_eq_none_of_not_mem {κ ν : Type} [DecidableEq κ] {m : GoMap κ ν} {k : κ} (h : k ∉ m.map Prod.fst) : m.get? k = none := by
  induction m with
  | nil => rfl
  | cons p m ih =>
    obtain ⟨k', v⟩ := p
    simp only [List.map_cons, List.mem_cons, not_or] at h
    rw [GoMap.get?, if_neg (fun e => h.1 e.symm)]
    exact ih h.2

theorem get?_foldl_set {κ ν : Type} [DecidableEq κ] (l : GoMap κ ν) (hl : (l.map Prod.fst).Nodup) (m : GoMap κ ν) (n : κ) :
    GoMap.get? (l.foldl (fun m p => m.set p.1 p.2) m) n = (l.get? n).or (m.get? n) := by
  induction l generalizing m with
  | nil => simp [GoMap.get?]
  | cons p l ih =>
    obtain ⟨k, v⟩ := p
    rw [List.map_cons, List.nodup_cons] at hl
    rw [List.foldl_cons, ih hl.2, GoMap.get?_set]
    show _ = (GoMap.get? ((k, v) :: l) n).or _
    rw [GoMap.get?]
    by_cases h : k = n
    · subst h
      rw [get?_eq_none_of_not_mem hl.1]
      simp
    · simp [h, Ne.symm h]

theorem combinedGroups_get {groups clsGroups : GoMap String String} (h1 : (groups.map Prod.fst).Nodup) (h2 : (clsGroups.map Prod.fst).Nodup) (a : Attr) :
    (combinedGroups groups clsGroups).get? a.name = askedGroup groups clsGroups a := by
  rw [combinedGroups, List.foldl_append, get?_foldl_set _ h2, get?_foldl_set _ h1, askedGroup]
  simp [GoMap.get?]

theorem keys_set {κ ν : Type} [DecidableEq κ] (m : GoMap κ ν) (k : κ) (v : ν) :
    (m.set k v).map Prod.fst = if k ∈ m.map Prod.fst then m.map Prod.fst else m.map Prod.fst ++ [k] := by
  induction m with
  | nil => simp [GoMap.set]
  | cons p m ih =>
    obtain ⟨k', v'⟩ := p
    rw [GoMap.set]
    by_cases h : k' = k
    · simp [h]
    · rw [if_neg h, List.map_cons, ih]
      by_cases h' : k ∈ m.map Prod.fst
      · simp [h']
      · rw [if_neg h', if_neg (by simp only [List.map_cons, List.mem_cons, not_or]; exact ⟨fun e => h e.symm, h'⟩)]
        simp

theorem keys_set_nodup {κ ν : Type} [DecidableEq κ] {m : GoMap κ ν} (hm : (m.map Prod.fst).Nodup) (k : κ) (v : ν) : ((m.set k v).map Prod.fst).Nodup := by
  rw [keys_set]
  split
  · exact hm
  · rename_i h
    rw [List.nodup_append]
    refine ⟨hm, List.nodup_singleton _, ?_⟩
    intro a ha b hb
    rw [List.mem_singleton] at hb
    rintro rfl
    exact h (hb ▸ ha)

theorem mem_keys_set {κ ν : Type} [DecidableEq κ] (m : GoMap κ ν) (k : κ) (v : ν) (n : κ) : n ∈ (m.set k v).map Prod.fst ↔ n = k ∨ n ∈ m.map Prod.fst := by
  rw [keys_set]
  split
  · rename_i h
    constructor
    · exact Or.inr
    · rintro (rfl | h')
      · exact h
      · exact h'
  · simp [or_comm]

theorem get?_mem {κ ν : Type} [DecidableEq κ] {m : GoMap κ ν} {k : κ} {v : ν} (h : m.get? k = some v) : (k, v) ∈ m := by
  induction m with
  | nil => cases h
  | cons p m ih =>
    obtain ⟨k', v'⟩ := p
    rw [GoMap.get?] at h
    split at h
    · rename_i e
      simp only [Option.some.injEq] at h
      simp [e, h]
    · exact List.mem_cons_of_mem _ (ih h)

theorem askedGroup_mem {groups clsGroups : GoMap String String} {a : Attr} {n : String} (h : askedGroup groups clsGroups a = some n) :
    n ∈ groups.map Prod.snd ∨ n ∈ clsGroups.map Prod.snd := by
  rw [askedGroup, Option.or_eq_some_iff] at h
  rcases h with h | ⟨_, h⟩
  · exact Or.inr (List.mem_map.2 ⟨_, get?_mem h, rfl⟩)
  · exact Or.inl (List.mem_map.2 ⟨_, get?_mem h, rfl⟩)

section Sizes

variable {groups clsGroups : GoMap String String} (h1 : (groups.map Prod.fst).Nodup) (h2 : (clsGroups.map Prod.fst).Nodup)

private def sizes0 (groups clsGroups : GoMap String String) : GoMap String Nat :=
  clsGroups.foldl (fun m p => m.set p.2 8) (groups.foldl (fun m p => m.set p.2 0) [])

theorem sizes_const (l : GoMap String String) (z : Nat) (m : GoMap String Nat) (hm : (m.map Prod.fst).Nodup) :
    ((l.foldl (fun m p => m.set p.2 z) m : GoMap String Nat).map Prod.fst).Nodup ∧
      ∀ n, n ∈ (l.foldl (fun m p => m.set p.2 z) m : GoMap String Nat).map Prod.fst ↔ n ∈ l.map Prod.snd ∨ n ∈ m.map Prod.fst := by
  induction l generalizing m with
  | nil => exact ⟨hm, by simp⟩
  | cons p l ih =>
    obtain ⟨i1, i2⟩ := ih (m.set p.2 z) (keys_set_nodup hm _ _)
    refine ⟨i1, fun n => ?_⟩
    rw [List.foldl_cons, i2, mem_keys_set, List.map_cons, List.mem_cons]
    tauto

include h1 h2 in
theorem groupSizes_spec (as : List Attr) :
    ((groupSizes groups clsGroups as : GoMap String Nat).map Prod.fst).Nodup ∧
      (∀ n, n ∈ (groupSizes groups clsGroups as : GoMap String Nat).map Prod.fst ↔ n ∈ groups.map Prod.snd ∨ n ∈ clsGroups.map Prod.snd) ∧
      ∀ a ∈ as, ∀ n, askedGroup groups clsGroups a = some n → (∀ b ∈ as, askedGroup groups clsGroups b = some n → b.isBin = a.isBin) →
        (groupSizes groups clsGroups as).get? n = some (if a.isBin then 0 else 8) := by
  obtain ⟨s1, s2⟩ := sizes_const groups 0 [] List.nodup_nil
  obtain ⟨s3, s4⟩ := sizes_const clsGroups 8 _ s1
  have hbase : ∀ n, n ∈ (sizes0 groups clsGroups : GoMap String Nat).map Prod.fst ↔ n ∈ groups.map Prod.snd ∨ n ∈ clsGroups.map Prod.snd := by
    intro n
    rw [sizes0, s4 n, s2 n, List.map_nil]
    simp [or_comm]
  induction as using List.reverseRecOn with
  | nil => exact ⟨s3, hbase, by simp⟩
  | append_singleton as a ih =>
    obtain ⟨i1, i2, i3⟩ := ih
    have e : groupSizes groups clsGroups (as ++ [a]) = (match askedGroup groups clsGroups a with
        | some ag => (groupSizes groups clsGroups as).set ag (if a.isBin then 0 else 8)
        | none => groupSizes groups clsGroups as) := by
      rw [groupSizes, List.foldl_append, List.foldl_cons, List.foldl_nil, combinedGroups_get h1 h2]
      rfl
    rw [e]
    cases hg : askedGroup groups clsGroups a with
    | none =>
      refine ⟨i1, i2, ?_⟩
      intro b hb n hn hs
      rw [List.mem_append, List.mem_singleton] at hb
      rcases hb with hb | rfl
      · exact i3 b hb n hn fun c hc => hs c (by simp [hc])
      · rw [hg] at hn; cases hn
    | some ag =>
      refine ⟨keys_set_nodup i1 _ _, ?_, ?_⟩
      · intro n
        simp only
        rw [mem_keys_set, i2 n]
        constructor
        · rintro (rfl | h)
          · exact askedGroup_mem hg
          · exact h
        · exact Or.inr
      · intro b hb n hn hs
        simp only
        rw [GoMap.get?_set]
        by_cases hag : n = ag
        · subst hag
          rw [if_pos rfl, hs a (by simp) hg]
        · rw [if_neg (fun e => hag e.symm)]
          rw [List.mem_append, List.mem_singleton] at hb
          rcases hb with hb | rfl
          · exact i3 b hb n hn fun c hc => hs c (by simp [hc])
          · rw [hg, Option.some.injEq] at hn
            exact absurd hn.symm hag

end Sizes

/-! ## Creating the groups and adding the attributes -/

/-- The kind of a group of a size. -/
def sizeKind (z : Nat) : GKind := if z ≠ 0 then .fixed z else .binary

/-- The state after the groups `sizes` were made and the attributes `as` were added, each in the group `home` asks for. -/
structure Placed (sizes : List (String × Nat)) (home : Attr → Option String) (as : List Attr) (st : St) (names : List String) : Prop where
  named : GroupNamed st.d names
  user : ∀ (i : Nat) (p : String × Nat), sizes[i]? = some p → names[i]? = some p.1 ∧
    st.d.ags[i]? = some ⟨sizeKind p.2, as.filter fun a => home a == some p.1, []⟩
  auto : ∀ (i : Nat) (n : String) (g : Group), sizes.length ≤ i → names[i]? = some n → st.d.ags[i]? = some g → g.kind = nameKind n
  free : st.d.fixed = false
  handles : st.handles.map Spec.attr = as
  stored : ∀ s ∈ st.handles, kindOf st.d s = some (defaultKind s.attr)

theorem createAll_run (pg : Nat) (home : Attr → Option String) (sizes : List (String × Nat)) (hn : (sizes.map Prod.fst).Nodup) (pre : List (String × Nat))
    (hpre : ((pre ++ sizes).map Prod.fst).Nodup) (ops : List Op) (st : St) (hrun : run pg ops = Res.ok st)
    (hp : Placed pre home [] st (pre.map Prod.fst)) (hc : st.d.classAttrs = []) :
    ∃ st', run pg (ops ++ sizes.map fun p => Op.create p.1 p.2) = Res.ok st' ∧ createAll st.d sizes = Res.ok st'.d ∧
      Placed (pre ++ sizes) home [] st' ((pre ++ sizes).map Prod.fst) ∧ st'.d.classAttrs = [] := by
  induction sizes generalizing pre ops st with
  | nil => exact ⟨st, by simpa using hrun, rfl, by simpa using hp, hc⟩
  | cons p sizes ih =>
    obtain ⟨n, z⟩ := p
    have hcr : st.d.createGroup n z = Res.ok { st.d with
        agMap := st.d.agMap.set n st.d.ags.length
        agRevMap := st.d.agRevMap.set st.d.ags.length n
        ags := st.d.ags ++ [⟨sizeKind z, [], []⟩] } := by
      unfold Dense.createGroup sizeKind
      rw [if_neg (by simp [hp.free])]
      by_cases h : z = 0 <;> simp [h]
    have hcr' : st.d.createAttributeGroup n z = st.d.createGroup n z := by
      unfold Dense.createAttributeGroup
      rw [hcr]
    have hnm : n ∉ pre.map Prod.fst := by
      rw [List.map_append, List.nodup_append] at hpre
      intro h
      exact hpre.2.2 n h n (by simp) rfl
    have N' := hp.named.create hnm hcr
    have hh : st.handles = [] := by
      have := hp.handles
      simpa using this
    have hlen : pre.length = st.d.ags.length := by
      have := hp.named.2.1
      simpa using this
    have hp' : Placed (pre ++ [(n, z)]) home [] ⟨{ st.d with
        agMap := st.d.agMap.set n st.d.ags.length
        agRevMap := st.d.agRevMap.set st.d.ags.length n
        ags := st.d.ags ++ [⟨sizeKind z, [], []⟩] }, st.handles⟩ ((pre ++ [(n, z)]).map Prod.fst) := by
      refine ⟨by simpa using N', ?_, ?_, hp.free, hp.handles, by simp [hh]⟩
      · intro i q hq
        refine ⟨by rw [List.getElem?_map, hq]; rfl, ?_⟩
        rw [List.getElem?_append] at hq
        split at hq
        · rename_i hi
          simp only
          rw [List.getElem?_append_left (by omega)]
          exact (hp.user i q hq).2
        · rename_i hi
          have hi0 : i - pre.length = 0 := by
            by_contra h
            rw [List.getElem?_eq_none (by simp; omega)] at hq
            cases hq
          rw [hi0, List.getElem?_cons_zero, Option.some.injEq] at hq
          subst hq
          simp only
          rw [List.getElem?_append_right (by omega), ← hlen, hi0]
          rfl
      · intro i m g hi hm _
        rw [List.getElem?_map, List.getElem?_eq_none hi] at hm
        cases hm
    obtain ⟨st', r1, r2, r3, r4⟩ := ih (by rw [List.map_cons, List.nodup_cons] at hn; exact hn.2) (pre ++ [(n, z)]) (by simpa using hpre)
      (ops ++ [Op.create n z]) _ (by
        rw [run_snoc, hrun, Res.bind_ok]
        simp only [step]
        rw [hcr', hcr, Res.map_ok]
        rfl) hp' hc
    refine ⟨st', ?_, ?_, by simpa using r3, r4⟩
    · rw [← r1]; simp
    · rw [createAll, hcr', hcr]
      exact r2

theorem chooseGroup_auto (pg : Nat) (d : Dense) (a : Attr) : AutoName (d.chooseGroup pg a).2.1 := by
  unfold Dense.chooseGroup
  split
  · exact ⟨_, Or.inl rfl⟩
  · exact ⟨_, Or.inr (Or.inl rfl)⟩
  · exact ⟨_, Or.inr (Or.inr rfl)⟩

/-- Pushing an attribute into a group keeps the placement. -/
theorem Placed.push {sizes : List (String × Nat)} {home : Attr → Option String} {as : List Attr} {d : Dense} {hs : List Spec} {names : List String}
    (hp : Placed sizes home as ⟨d, hs⟩ names) {a : Attr} {id : Nat} {g : Group} {n : String} (hg : d.ags[id]? = some g) (hn : names[id]? = some n)
    (hk : g.kind = defaultKind a) (hplace : ∀ i p, sizes[i]? = some p → (i = id ↔ home a = some p.1)) :
    Placed sizes home (as ++ [a]) ⟨{ d with ags := d.ags.set id (g.addAttr a), attributes := d.attributes ++ [a] }, hs ++ [⟨some id, g.attrs.length, a⟩]⟩
      names := by
  have hidl : id < d.ags.length := (List.getElem?_eq_some_iff.1 hg).1
  have hkk : ∀ s : Spec, kindOf { d with ags := d.ags.set id (g.addAttr a), attributes := d.attributes ++ [a] } s = kindOf d s := by
    intro s
    unfold kindOf
    congr 1
    funext i
    by_cases hi : id = i
    · subst hi
      simp only [hg, List.getElem?_set_self hidl, Option.map_some, Group.addAttr]
    · simp [List.getElem?_set_ne hi]
  refine ⟨hp.named.congr (by simp) rfl rfl, ?_, ?_, hp.free, by simpa using hp.handles, ?_⟩
  · intro i p h
    obtain ⟨u1, u2⟩ := hp.user i p h
    refine ⟨u1, ?_⟩
    simp only at u2 ⊢
    by_cases hi : i = id
    · have := (hplace i p h).1 hi
      subst hi
      rw [u2, Option.some.injEq] at hg
      rw [List.getElem?_set_self hidl, ← hg]
      simp [Group.addAttr, List.filter_append, this]
    · have : home a ≠ some p.1 := fun e => hi ((hplace i p h).2 e)
      rw [List.getElem?_set_ne (fun e => hi e.symm), u2]
      simp [List.filter_append, this]
  · intro i m x hi hm hx
    simp only at hx
    by_cases hid : id = i
    · subst hid
      rw [List.getElem?_set_self hidl, Option.some.injEq] at hx
      rw [← hx]
      exact hp.auto id m g hi hm hg
    · rw [List.getElem?_set_ne hid] at hx
      exact hp.auto i m x hi hm hx
  · intro s hs'
    simp only at hs' ⊢
    rw [hkk]
    rw [List.mem_append, List.mem_singleton] at hs'
    rcases hs' with h | rfl
    · exact hp.stored s h
    · simp [kindOf, hg, hk]

theorem Placed.addTo {sizes : List (String × Nat)} {home : Attr → Option String} {as : List Attr} {st : St} {names : List String}
    (hp : Placed sizes home as st names) {a : Attr} {n : String} (hh : home a = some n) (hs : (n, if a.isBin then 0 else 8) ∈ sizes)
    (hc : ∀ b ∈ as, home b = some n → b.compatible a = true) :
    ∃ q, st.d.addAttributeToGroup a n = Res.ok q ∧ Placed sizes home (as ++ [a]) ⟨q.1, st.handles ++ [q.2]⟩ names ∧ q.1.classAttrs = st.d.classAttrs := by
  obtain ⟨i, hi⟩ := List.getElem?_of_mem hs
  obtain ⟨u1, u2⟩ := hp.user i _ hi
  have h1 : st.d.agMap.get? n = some i := by
    rw [hp.named.2.2.1]
    have := get?_zipIdx names hp.named.1 0 i n u1
    simpa using this
  have h3 : st.d.addAttributeToGroup a n = st.d.pushAttr i a := by
    unfold Dense.addAttributeToGroup
    simp only [h1, u2]
    rw [if_neg]
    rw [Bool.not_eq_true, List.any_eq_false]
    intro b hb
    rw [List.mem_filter] at hb
    simp [hc b hb.1 (by simpa using hb.2)]
  refine ⟨_, h3.trans (pushAttr_ok u2), hp.push u2 u1 ?_ ?_, rfl⟩
  · simp only [sizeKind, defaultKind]
    cases a.isBin <;> rfl
  · intro j p hj
    rw [hh, Option.some.injEq]
    constructor
    · rintro rfl
      rw [hi, Option.some.injEq] at hj
      rw [← hj]
    · intro e
      have := (hp.user j p hj).1
      rw [← e] at this
      exact (List.getElem?_inj (List.getElem?_eq_some_iff.1 this).1 hp.named.1).1 (this.trans u1.symm)

theorem Placed.add {pg : Nat} {sizes : List (String × Nat)} {home : Attr → Option String} {as : List Attr} {st : St} {names : List String}
    (hp : Placed sizes home as st names) (hauto : ∀ p ∈ sizes, ¬ AutoName p.1) {a : Attr} (hh : home a = none) :
    ∃ q names', st.d.addAttribute pg a = Res.ok q ∧ Placed sizes home (as ++ [a]) ⟨q.1, st.handles ++ [q.2]⟩ names' ∧
      q.1.classAttrs = st.d.classAttrs := by
  have hau := chooseGroup_auto pg st.d a
  obtain ⟨hk1, hk2⟩ := chooseGroup_kind pg st.d a
  obtain ⟨c1, c2, c3, c4, _⟩ := chooseGroup_frame pg st.d a
  have c5 : (st.d.chooseGroup pg a).1.agRevMap = st.d.agRevMap := by
    unfold Dense.chooseGroup; split <;> rfl
  have c6 : (st.d.chooseGroup pg a).1.classAttrs = st.d.classAttrs := by
    unfold Dense.chooseGroup; split <;> rfl
  unfold Dense.addAttribute
  rw [if_neg (by simp [hp.free])]
  generalize hcg : st.d.chooseGroup pg a = cg at c1 c2 c3 c4 c5 c6 hau hk1 hk2 ⊢
  obtain ⟨d1, ag, ib⟩ := cg
  simp only at c1 c2 c3 c4 c5 c6 hau hk1 hk2 ⊢
  have hp1 : Placed sizes home as ⟨d1, st.handles⟩ names := by
    refine ⟨hp.named.congr (by simp only [c1]) c4 c5, by simpa only [c1] using hp.user, by simpa only [c1] using hp.auto, ?_, hp.handles, ?_⟩
    · first
        | exact c2.trans hp.free
        | exact c3.trans hp.free
    · intro s hs
      have := hp.stored s hs
      simpa only [kindOf, c1] using this
  have hnot : ∀ (i : Nat) (p : String × Nat), sizes[i]? = some p → p.1 ≠ ag := by
    intro i p h e
    exact hauto p (List.mem_of_getElem? h) (e ▸ hau)
  cases hget : d1.agMap.get? ag with
  | some id =>
    simp only [Res.bind_ok, hget]
    have hgn := hget
    rw [hp1.named.2.2.1] at hgn
    have hmem : ag ∈ names := by
      by_contra h
      rw [get?_zipIdx_none _ _ _ h] at hgn
      cases hgn
    obtain ⟨i, hi⟩ := List.getElem?_of_mem hmem
    have := get?_zipIdx names hp1.named.1 0 i ag hi
    rw [hgn, Option.some.injEq, Nat.zero_add] at this
    subst this
    have hlt : id < d1.ags.length := by
      have := hp1.named.2.1
      rw [← this]
      exact (List.getElem?_eq_some_iff.1 hi).1
    have hg : d1.ags[id]? = some d1.ags[id] := List.getElem?_eq_getElem hlt
    have hge : sizes.length ≤ id := by
      by_contra h
      have h' : id < sizes.length := by omega
      have hs := List.getElem?_eq_getElem h'
      have := (hp1.user id _ hs).1
      rw [hi, Option.some.injEq] at this
      exact hnot id _ hs this.symm
    refine ⟨_, names, pushAttr_ok hg, hp1.push hg hi ?_ ?_, c6⟩
    · rw [← hk1]
      exact hp1.auto id ag _ hge hi hg
    · intro j p hj
      rw [hh]
      constructor
      · rintro rfl
        have := (List.getElem?_eq_some_iff.1 hj).1
        omega
      · intro e; cases e
  | none =>
    have hmem : ag ∉ names := by
      intro h
      obtain ⟨i, hi⟩ := List.getElem?_of_mem h
      have := get?_zipIdx names hp1.named.1 0 i ag hi
      rw [← hp1.named.2.2.1, hget] at this
      cases this
    have hcr : d1.createGroup ag (if ib = true then 0 else 8) = Res.ok { d1 with
        agMap := d1.agMap.set ag d1.ags.length
        agRevMap := d1.agRevMap.set d1.ags.length ag
        ags := d1.ags ++ [⟨defaultKind a, [], []⟩] } := by
      unfold Dense.createGroup defaultKind
      have hf : d1.fixed = false := hp1.free
      rw [if_neg (by simp [hf]), hk2]
      cases a.isBin <;> rfl
    have N2 := hp1.named.create hmem hcr
    simp only [hcr, Res.bind_ok]
    have hget2 : (d1.agMap.set ag d1.ags.length).get? ag = some d1.ags.length := by rw [GoMap.get?_set, if_pos rfl]
    simp only [hget2]
    have hlen := hp1.named.2.1
    simp only at hlen
    have hsl : sizes.length ≤ names.length := by
      by_contra h
      have h' : names.length < sizes.length := by omega
      have := (hp1.user names.length _ (List.getElem?_eq_getElem h')).1
      rw [List.getElem?_eq_none (by omega)] at this
      cases this
    have hp2 : Placed sizes home as ⟨{ d1 with
        agMap := d1.agMap.set ag d1.ags.length
        agRevMap := d1.agRevMap.set d1.ags.length ag
        ags := d1.ags ++ [⟨defaultKind a, [], []⟩] }, st.handles⟩ (names ++ [ag]) := by
      refine ⟨N2, ?_, ?_, hp1.free, hp1.handles, ?_⟩
      · intro i p h
        obtain ⟨u1, u2⟩ := hp1.user i p h
        exact ⟨by rw [List.getElem?_append_left (List.getElem?_eq_some_iff.1 u1).1]; exact u1, by
          simp only at u2 ⊢
          rw [List.getElem?_append_left (List.getElem?_eq_some_iff.1 u2).1]; exact u2⟩
      · intro i m x hi hm hx
        simp only at hx
        by_cases hlt : i < names.length
        · rw [List.getElem?_append_left hlt] at hm
          rw [List.getElem?_append_left (by omega)] at hx
          exact hp1.auto i m x hi hm hx
        · rw [List.getElem?_append_right (by omega)] at hm hx
          have h0 : i - names.length = 0 := by
            by_contra h
            rw [List.getElem?_eq_none (by simp; omega)] at hm
            cases hm
          rw [h0] at hm
          rw [← hlen, h0] at hx
          simp only [List.getElem?_cons_zero, Option.some.injEq] at hm hx
          rw [← hm, ← hx, hk1]
      · intro s hs
        have := hp1.stored s hs
        simp only at hs ⊢
        unfold kindOf at this ⊢
        cases hpo : s.pond with
        | none => rw [hpo] at this; cases this
        | some i =>
          rw [hpo] at this
          simp only [Option.bind_some] at this ⊢
          cases hx : d1.ags[i]? with
          | none => rw [hx] at this; cases this
          | some x =>
            rw [List.getElem?_append_left (List.getElem?_eq_some_iff.1 hx).1]
            exact this
    have hg : (d1.ags ++ [⟨defaultKind a, [], []⟩])[d1.ags.length]? = some (⟨defaultKind a, [], []⟩ : Group) := by simp
    refine ⟨_, names ++ [ag], pushAttr_ok hg, hp2.push (n := ag) hg ?_ rfl ?_, c6⟩
    · rw [← hlen]; simp
    · intro j p hj
      rw [hh]
      constructor
      · rintro rfl
        have := (List.getElem?_eq_some_iff.1 hj).1
        omega
      · intro e; cases e

/-! ## Rows -/

theorem totalRows_noext {ops : List Op} (h : ∀ k, Op.extend k ∉ ops) : totalRows ops = 0 := by
  induction ops with
  | nil => rfl
  | cons o l ih =>
    have := ih fun k hk => h k (by simp [hk])
    cases o with
    | extend k => exact absurd (by simp) (h k)
    | _ => simpa [totalRows, rowsOf] using this

theorem noLate_noext {ops : List Op} (h : ∀ k, Op.extend k ∉ ops) : noLateGroupAdd ops := by
  intro pre k post e
  exact absurd (by rw [e]; simp) (h k)

/-- The first rows of a grid are zero. -/
theorem extend_fresh (pg : Nat) (ops : List Op) (hops : ∀ k, Op.extend k ∉ ops) (st : St) (hrun : run pg ops = Res.ok st)
    (hst : ∀ s ∈ st.handles, kindOf st.d s = some (defaultKind s.attr))
    (hd : (st.handles.map Spec.attr).Pairwise fun a b => a.equals b = false) (n : Nat) :
    DenseOK n (st.d.extend n) ∧ (st.d.extend n).allAttributes.Perm (st.handles.map Spec.attr) ∧
      ∀ a ∈ st.handles.map Spec.attr, ∀ r, r < n → (Grid.dense (st.d.extend n)).cell a r = zeroCell a := by
  have hlate := noLate_noext hops
  obtain ⟨I, hW, _⟩ := run_inv pg ops st hlate hrun
  have I' := I.extend (n := n) hW
  rw [totalRows_noext hops, Nat.zero_add] at I'
  have hall : (st.d.extend n).allAttributes = st.d.allAttributes := by
    simp [Dense.allAttributes, Dense.extend, List.flatMap_map, Group.resize]
  have hperm : (st.d.extend n).allAttributes.Perm (st.handles.map Spec.attr) := by rw [hall]; exact I.listed
  have hkind : ∀ s, kindOf (st.d.extend n) s = kindOf st.d s := by
    intro s
    unfold kindOf
    congr 1
    funext i
    simp only [Dense.extend, List.getElem?_map]
    cases st.d.ags[i]? <;> rfl
  have D' : DenseOK n (st.d.extend n) := by
    refine ⟨distinct_perm hperm.symm hd, _, _, I', ?_⟩
    intro h s hs
    rw [hkind]
    exact hst s (List.mem_of_getElem? hs)
  refine ⟨D', hperm, ?_⟩
  intro a ha r hr
  obtain ⟨s, hs, hsa⟩ := List.mem_map.1 ha
  obtain ⟨h, hgt⟩ := List.getElem?_of_mem hs
  have h0 := totalRows_noext hops
  obtain ⟨k, hk, hg⟩ := ((C05_extend pg _ st n hlate hrun).2.2.2.2 h s hgt).2 r (by omega) (by omega)
  have hk' := hst s hs
  rw [hk, Option.some.injEq, hsa] at hk'
  subst hk'
  have hc := dense_cell I' D'.1 hs (r := r) (by omega)
  rw [hsa] at hc
  have hc' : (st.d.extend n).get s r = Res.ok ((Grid.dense (st.d.extend n)).cell a r) := hc
  rw [hg, Res.ok.injEq] at hc'
  rw [← hc', defaultKind, zeroCell]
  split
  · rfl
  · decide

/-! ## Adding the columns -/

theorem addGrouped_run (pg : Nat) (comb clsGroups : GoMap String String) (home : Attr → Option String) (hcomb : ∀ a : Attr, comb.get? a.name = home a)
    (sizes : List (String × Nat)) (hauto : ∀ p ∈ sizes, ¬ AutoName p.1) (as : List Attr)
    (pre : List Attr) (hd : (pre ++ as).Pairwise fun a b => a.equals b = false)
    (hsize : ∀ a ∈ as, ∀ n, home a = some n → (n, if a.isBin then 0 else 8) ∈ sizes)
    (hcompat : ∀ a ∈ pre ++ as, ∀ b ∈ pre ++ as, ∀ n, home a = some n → home b = some n → a.compatible b = true)
    (ops : List Op) (hops : ∀ k, Op.extend k ∉ ops) (st : St) (hrun : run pg ops = Res.ok st) (names : List String) (hp : Placed sizes home pre st names)
    (hcls : ∀ a, a ∈ st.d.allClassAttributes ↔ a ∈ pre ∧ (clsGroups.get? a.name).isSome = true) :
    ∃ ops' st' names', (∀ k, Op.extend k ∉ ops') ∧ run pg ops' = Res.ok st' ∧ addGrouped pg comb clsGroups st.d as = Res.ok st'.d ∧
      Placed sizes home (pre ++ as) st' names' ∧
      ∀ a, a ∈ st'.d.allClassAttributes ↔ a ∈ pre ++ as ∧ (clsGroups.get? a.name).isSome = true := by
  induction as generalizing pre ops st names with
  | nil => exact ⟨ops, st, names, hops, hrun, rfl, by simpa using hp, by simpa using hcls⟩
  | cons a as ih =>
    -- the attribute is added
    obtain ⟨q, names1, op, hop, hadd, hstep, hp1, hc1⟩ : ∃ (q : Dense × Spec) (names1 : List String) (op : Op), (∀ k, op ≠ Op.extend k) ∧
        (match comb.get? a.name with
          | some ag => (st.d.addAttributeToGroup a ag).orPanic.map Prod.fst
          | none => (st.d.addAttribute pg a).map Prod.fst) = Res.ok q.1 ∧
        step pg st op = Res.ok ⟨q.1, st.handles ++ [q.2]⟩ ∧ Placed sizes home (pre ++ [a]) ⟨q.1, st.handles ++ [q.2]⟩ names1 ∧
        q.1.classAttrs = st.d.classAttrs := by
      rw [hcomb a]
      cases hh : home a with
      | some n =>
        obtain ⟨q, q1, q2, q3⟩ := hp.addTo hh (hsize a (by simp) n hh) fun b hb hbn => hcompat b (by simp [hb]) a (by simp) n hbn hh
        refine ⟨q, names, Op.addTo a n, by simp, by simp only [q1]; rfl, ?_, q2, q3⟩
        simp only [step]
        rw [q1]
        rfl
      | none =>
        obtain ⟨q, names', q1, q2, q3⟩ := hp.add (pg := pg) hauto hh
        refine ⟨q, names', Op.add a, by simp, by simp only [q1]; rfl, ?_, q2, q3⟩
        simp only [step]
        rw [q1]
        rfl
    have hrun1 : run pg (ops ++ [op]) = Res.ok ⟨q.1, st.handles ++ [q.2]⟩ := by rw [run_snoc, hrun, Res.bind_ok, hstep]
    have hops1 : ∀ k, Op.extend k ∉ ops ++ [op] := by
      intro k hk
      rw [List.mem_append, List.mem_singleton] at hk
      rcases hk with hk | hk
      · exact hops k hk
      · exact hop k hk.symm
    have hcls1 : ∀ b, b ∈ q.1.allClassAttributes ↔ b ∈ pre ∧ (clsGroups.get? b.name).isSome = true := by
      intro b
      rw [← hcls b]
      simp only [Dense.allClassAttributes, hc1]
    have hd' : (pre ++ [a] ++ as).Pairwise fun a b => a.equals b = false := by simpa using hd
    have hstep1 : addGrouped pg comb clsGroups st.d (a :: as) = Res.bind (match comb.get? a.name with
          | some ag => (st.d.addAttributeToGroup a ag).orPanic.map Prod.fst
          | none => (st.d.addAttribute pg a).map Prod.fst) fun d' =>
        if (clsGroups.get? a.name).isSome then
          (d'.addClassAttribute a).orPanic.bind fun d'' => addGrouped pg comb clsGroups d'' as
        else addGrouped pg comb clsGroups d' as := rfl
    rw [hstep1, hadd, Res.bind_ok]
    by_cases hc : (clsGroups.get? a.name).isSome = true
    · rw [if_pos hc]
      obtain ⟨I, _, _⟩ := run_inv pg _ _ (noLate_noext hops1) hrun1
      have D1 : DenseOK 0 q.1 := by
        rw [totalRows_noext hops1] at I
        refine ⟨distinct_perm I.listed.symm ?_, _, _, I, fun h s hs => hp1.stored s (List.mem_of_getElem? hs)⟩
        have := hp1.handles
        rw [this]
        exact (List.pairwise_append.1 hd').1
      have hmem : a ∈ q.1.allAttributes := by
        refine I.listed.symm.subset ?_
        rw [hp1.handles]
        simp
      obtain ⟨s, h1, h2, _⟩ := D1.presents.read a hmem
      have h1' : q.1.getAttribute a = Res.ok s := h1
      have hacl : q.1.addClassAttribute a = Res.ok { q.1 with classAttrs := q.1.classAttrs.set s true } := by
        rw [Dense.addClassAttribute, h1', Res.map_ok]
      rw [hacl]
      simp only [Res.orPanic, Res.bind_ok]
      have hp2 : Placed sizes home (pre ++ [a]) ⟨{ q.1 with classAttrs := q.1.classAttrs.set s true }, st.handles ++ [q.2]⟩ names1 :=
        ⟨hp1.named.congr rfl rfl rfl, hp1.user, hp1.auto, hp1.free, hp1.handles, hp1.stored⟩
      obtain ⟨ops', st', names', r1, r2, r3, r4, r5⟩ := ih (pre ++ [a]) hd' (fun b hb => hsize b (by simp [hb])) (by simpa using hcompat)
        (ops ++ [op] ++ [Op.addClass a]) (by
          intro k hk
          rw [List.mem_append, List.mem_singleton] at hk
          rcases hk with hk | hk
          · exact hops1 k hk
          · cases hk) _ (by
          rw [run_snoc, hrun1, Res.bind_ok]
          simp only [step]
          rw [hacl]
          rfl) names1 hp2 (by
          intro b
          rw [mem_allClassAttributes]
          simp only [mem_set_true]
          constructor
          · rintro ⟨s', rfl | h, h3⟩
            · rw [← h3, h2]
              exact ⟨by simp, hc⟩
            · have := (hcls1 b).1 (mem_allClassAttributes.2 ⟨s', h, h3⟩)
              exact ⟨by simp [this.1], this.2⟩
          · rintro ⟨hb, hbc⟩
            rw [List.mem_append, List.mem_singleton] at hb
            rcases hb with hb | rfl
            · obtain ⟨s', h, h3⟩ := mem_allClassAttributes.1 ((hcls1 b).2 ⟨hb, hbc⟩)
              exact ⟨s', Or.inr h, h3⟩
            · exact ⟨s, Or.inl rfl, h2⟩)
      exact ⟨ops', st', names', r1, r2, r3, by simpa using r4, by simpa using r5⟩
    · rw [if_neg hc]
      obtain ⟨ops', st', names', r1, r2, r3, r4, r5⟩ := ih (pre ++ [a]) hd' (fun b hb => hsize b (by simp [hb])) (by simpa using hcompat)
        (ops ++ [op]) hops1 _ hrun1 names1 hp1 (by
          intro b
          rw [hcls1 b]
          constructor
          · rintro ⟨h1, h2⟩
            exact ⟨by simp [h1], h2⟩
          · rintro ⟨h1, h2⟩
            rw [List.mem_append, List.mem_singleton] at h1
            rcases h1 with h1 | rfl
            · exact ⟨h1, h2⟩
            · exact absurd h2 hc)
      exact ⟨ops', st', names', r1, r2, r3, by simpa using r4, by simpa using r5⟩

end Golearn
