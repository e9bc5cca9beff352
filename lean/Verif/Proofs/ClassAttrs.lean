import Verif.Proofs.Accept
import Verif.Proofs.GetAttr
import Verif.Spec.ClassAttrs
import Verif.Props.C28

namespace Golearn

namespace GoMap
variable {κ ν : Type} [DecidableEq κ]

theorem mem_keys_set (m : GoMap κ ν) (k k' : κ) (v : ν) :
    k' ∈ (m.set k v).map Prod.fst ↔ k' = k ∨ k' ∈ m.map Prod.fst := by
  induction m with
  | nil => simp [set]
  | cons p rest ih =>
    obtain ⟨k0, v0⟩ := p
    unfold set
    split
    · rename_i h; subst h; simp
    · simp only [List.map_cons, List.mem_cons, ih]
      constructor
      · rintro (h | h | h)
        · exact Or.inr (Or.inl h)
        · exact Or.inl h
        · exact Or.inr (Or.inr h)
      · rintro (h | h | h)
        · exact Or.inr (Or.inl h)
        · exact Or.inl h
        · exact Or.inr (Or.inr h)

theorem nodup_set (m : GoMap κ ν) (k : κ) (v : ν) (h : (m.map Prod.fst).Nodup) :
    ((m.set k v).map Prod.fst).Nodup := by
  induction m with
  | nil => simp [set]
  | cons p rest ih =>
    obtain ⟨k0, v0⟩ := p
    simp only [List.map_cons, List.nodup_cons] at h
    unfold set
    split
    · rename_i e; subst e; simpa using h
    · rename_i e
      simp only [List.map_cons, List.nodup_cons]
      refine ⟨?_, ih h.2⟩
      rw [mem_keys_set]
      rintro (e' | e')
      · exact e e'
      · exact h.1 e'

theorem get?_of_mem (m : GoMap κ ν) (h : (m.map Prod.fst).Nodup) (k : κ) (v : ν) :
    (k, v) ∈ m ↔ m.get? k = some v := by
  induction m with
  | nil => simp [get?]
  | cons p rest ih =>
    obtain ⟨k0, v0⟩ := p
    simp only [List.map_cons, List.nodup_cons] at h
    simp only [List.mem_cons, Prod.mk.injEq, get?, ih h.2]
    by_cases hk : k0 = k
    · subst hk
      have hn : GoMap.get? rest k0 = none := by
        cases hg : GoMap.get? rest k0 with
        | none => rfl
        | some w =>
          have hin : ∀ (m : GoMap κ ν), m.get? k0 = some w → (k0, w) ∈ m := by
            intro m
            induction m with
            | nil => simp [get?]
            | cons q qs ihq =>
              obtain ⟨a, b⟩ := q
              simp only [get?]
              split
              · rename_i e; subst e; intro hb; simp [Option.some.inj hb]
              · intro hb; exact List.mem_cons_of_mem _ (ihq hb)
          have := hin rest hg
          exact absurd (List.mem_map.2 ⟨_, this, rfl⟩) h.1
      simp [hn, eq_comm]
    · simp [hk, Ne.symm hk]

end GoMap

theorem addedAttrs_append (a b : List Op) : addedAttrs (a ++ b) = addedAttrs a ++ addedAttrs b := by
  simp [addedAttrs]

theorem isDesignated_nil (x : Attr) : ¬ isDesignated [] x := by
  rintro ⟨pre, b, post, e, _⟩
  simp at e

theorem isDesignated_snoc (ops : List Op) (op : Op) (x : Attr) :
    isDesignated (ops ++ [op]) x ↔
      match op with
      | .addClass b => (x ∈ addedAttrs ops ∧ x.equals b = true) ∨ isDesignated ops x
      | .removeClass c => isDesignated ops x ∧ x.equals c = false
      | _ => isDesignated ops x := by
  have fwd : isDesignated (ops ++ [op]) x →
      (∃ b, op = .addClass b ∧ x ∈ addedAttrs ops ∧ x.equals b = true) ∨
      (isDesignated ops x ∧ ∀ c, op = .removeClass c → x.equals c = false) := by
    rintro ⟨pre, b, post, e, h1, h2, h3⟩
    rcases List.eq_nil_or_concat post with rfl | ⟨post', y, rfl⟩
    · have e' : ops = pre ∧ op = .addClass b := by
        have := List.append_inj' e rfl
        simpa using this
      obtain ⟨rfl, rfl⟩ := e'
      exact Or.inl ⟨b, rfl, h1, h2⟩
    · have e' : ops ++ [op] = (pre ++ Op.addClass b :: post') ++ [y] := by rw [e]; simp
      have e2 := List.append_inj' e' rfl
      have hy : op = y := by simpa using e2.2
      subst hy
      refine Or.inr ⟨⟨pre, b, post', e2.1, h1, h2, fun c hc => h3 c (by simp [hc])⟩, ?_⟩
      intro c hc
      exact h3 c (by simp [hc])
  have bwd : (∃ b, op = .addClass b ∧ x ∈ addedAttrs ops ∧ x.equals b = true) ∨
      (isDesignated ops x ∧ ∀ c, op = .removeClass c → x.equals c = false) →
      isDesignated (ops ++ [op]) x := by
    rintro (⟨b, rfl, h1, h2⟩ | ⟨⟨pre, b, post, rfl, h1, h2, h3⟩, h4⟩)
    · exact ⟨ops, b, [], rfl, h1, h2, by simp⟩
    · refine ⟨pre, b, post ++ [op], by simp, h1, h2, ?_⟩
      intro c hc
      rcases List.mem_append.1 hc with hc | hc
      · exact h3 c hc
      · exact h4 c (by simpa using (List.mem_singleton.1 hc).symm)
  constructor
  · intro h
    rcases fwd h with ⟨b, rfl, h1, h2⟩ | ⟨h1, h2⟩
    · exact Or.inl ⟨h1, h2⟩
    · cases op <;> simp_all
  · intro h
    apply bwd
    cases op <;> simp_all

/-- Invariant for the class-attribute map. -/
structure ClassInv (ops : List Op) (st : St) : Prop where
  nodup : (st.d.classAttrs.map Prod.fst).Nodup
  keys : ∀ s, s ∈ st.d.classAttrs.map Prod.fst → s ∈ st.handles
  val : ∀ s, s ∈ st.handles → (st.d.classAttrs.get? s = some true ↔ isDesignated ops s.attr)

/-- The specification found for `a` is the only handle whose attribute equals `a`. -/
theorem lookup_unique {pg : Nat} {ops : List Op} {st : St} (hb : ∀ op ∈ ops, basicOp op = true)
    (hrun : run pg ops = Res.ok st)
    (hd : (addedAttrs ops).Pairwise (fun a b => a.equals b = false))
    {a : Attr} {s : Spec} (hs : st.d.getAttribute a = Res.ok s) :
    s ∈ st.handles ∧ s.attr.equals a = true ∧
      ∀ t ∈ st.handles, (t.attr.equals a = true ↔ t = s) := by
  obtain ⟨I, _, _⟩ := run_inv pg ops st (basic_noLate hb) hrun
  obtain ⟨_, hat⟩ := run_basic pg ops st hb hrun
  have h := findInGroups_spec a st.d.ags 0
  unfold Dense.getAttribute at hs
  cases hf : Dense.findInGroups a st.d.ags 0 with
  | none => rw [hf] at hs; cases hs
  | some t =>
    rw [hf] at hs h
    simp only [Res.ok.injEq] at hs
    subst hs
    obtain ⟨i, g, e1, e2, e3, e4, e5⟩ := h
    obtain ⟨k, hk⟩ := I.complete i g t.position t.attr e2 e3
    have : (⟨some i, t.position, t.attr⟩ : Spec) = t := by
      rw [Nat.zero_add] at e1
      rw [← e1]
    rw [this] at hk
    refine ⟨List.mem_of_getElem? hk, e4, ?_⟩
    intro u hu
    constructor
    · intro hue
      obtain ⟨j, hj, hju⟩ := List.getElem_of_mem hu
      have hj' : st.handles[j]? = some u := by rw [List.getElem?_eq_getElem hj, hju]
      have hut : u.attr.equals t.attr = true :=
        C28_equals_trans _ _ _ hue (C28_equals_symm _ _ e4)
      have ha1 : (addedAttrs ops)[j]? = some u.attr := by rw [← hat]; simp [hj']
      have ha2 : (addedAttrs ops)[k]? = some t.attr := by rw [← hat]; simp [hk]
      obtain ⟨l1, v1⟩ := List.getElem?_eq_some_iff.1 ha1
      obtain ⟨l2, v2⟩ := List.getElem?_eq_some_iff.1 ha2
      rw [List.pairwise_iff_getElem] at hd
      rcases Nat.lt_trichotomy j k with hlt | heq | hgt
      · have := hd j k l1 l2 hlt
        rw [v1, v2, hut] at this; cases this
      · subst heq; rw [hj'] at hk; exact Option.some.inj hk
      · have := hd k j l2 l1 hgt
        rw [v1, v2, C28_equals_symm _ _ hut] at this; cases this
    · rintro rfl; exact e4

theorem run_class (pg : Nat) (ops : List Op) (st : St) (hb : ∀ op ∈ ops, basicOp op = true)
    (hrun : run pg ops = Res.ok st)
    (hd : (addedAttrs ops).Pairwise (fun a b => a.equals b = false)) : ClassInv ops st := by
  induction ops using List.reverseRecOn generalizing st with
  | nil =>
    simp only [run, List.foldl_nil, Res.ok.injEq] at hrun
    subst hrun
    constructor <;> simp [St.init, Dense.new]
  | append_singleton ops op ih =>
    rw [run_snoc, Res.bind_eq_ok] at hrun
    obtain ⟨st0, h0, h1⟩ := hrun
    have hb0 : ∀ op ∈ ops, basicOp op = true := fun o ho => hb o (by simp [ho])
    have hop := hb op (by simp)
    have hd0 : (addedAttrs ops).Pairwise (fun a b => a.equals b = false) := by
      rw [addedAttrs_append] at hd
      exact (List.pairwise_append.1 hd).1
    have C := ih st0 hb0 h0 hd0
    obtain ⟨B, hat⟩ := run_basic pg ops st0 hb0 h0
    obtain ⟨I, _, _⟩ := run_inv pg ops st0 (basic_noLate hb0) h0
    have hmem : ∀ s, s ∈ st0.handles → s.attr ∈ addedAttrs ops := by
      intro s hs; rw [← hat]; exact List.mem_map.2 ⟨s, hs, rfl⟩
    cases op with
    | create _ _ => simp [basicOp] at hop
    | addTo _ _ => simp [basicOp] at hop
    | extend n =>
      simp only [step, Res.ok.injEq] at h1
      subst h1
      exact ⟨C.nodup, C.keys, fun s hs => by rw [isDesignated_snoc]; exact C.val s hs⟩
    | set k r v =>
      simp only [step] at h1
      split at h1
      · cases h1
      · rename_i s hs
        rw [Res.map_eq_ok] at h1
        obtain ⟨d', h1, h2⟩ := h1
        subst h2
        obtain ⟨_, _, _, _, _, _, _, _, _, e⟩ := dense_set_ok I hs h1
        subst e
        exact ⟨C.nodup, C.keys, fun s hs => by rw [isDesignated_snoc]; exact C.val s hs⟩
    | add a =>
      simp only [step, Res.map_eq_ok] at h1
      obtain ⟨p, h1, h2⟩ := h1
      subst h2
      have hca : p.1.classAttrs = st0.d.classAttrs := by
        unfold Dense.addAttribute at h1
        split at h1
        · cases h1
        · obtain ⟨_, _, _, _, c5⟩ := chooseGroup_frame pg st0.d a
          generalize st0.d.chooseGroup pg a = cg at h1 c5
          obtain ⟨d1, ag, isBin⟩ := cg
          simp only at h1 c5
          rw [Res.bind_eq_ok] at h1
          obtain ⟨d2, hd2, h1⟩ := h1
          have e2 : d2.classAttrs = d1.classAttrs := by
            split at hd2
            · simp only [Res.ok.injEq] at hd2; rw [hd2]
            · exact (createGroup_ok hd2).2.2.2.1
          split at h1
          · cases h1
          · unfold Dense.pushAttr at h1
            split at h1
            · cases h1
            · simp only [Res.ok.injEq] at h1
              subst h1
              exact e2.trans c5
      have hpa : p.2.attr = a := (I.add h1).2.2.1
      obtain ⟨I', hl'⟩ : Inv (totalRows ops) (lastWrite ops) ⟨p.1, st0.handles ++ [p.2]⟩ ∧ True :=
        ⟨(I.add h1).2.2.2, trivial⟩
      have hnew : p.2 ∉ st0.handles := by
        intro hm
        obtain ⟨j, hj, hju⟩ := List.getElem_of_mem hm
        have q1 : (st0.handles ++ [p.2])[j]? = some p.2 := by
          rw [List.getElem?_append_left hj, List.getElem?_eq_getElem hj, hju]
        have q2 : (st0.handles ++ [p.2])[st0.handles.length]? = some p.2 := by simp
        have := I'.inj _ _ _ _ q1 q2 rfl rfl
        omega
      refine ⟨by rw [hca]; exact C.nodup, ?_, ?_⟩
      · intro s hs
        simp only [hca] at hs
        exact List.mem_append_left _ (C.keys s hs)
      · intro s hs
        simp only [hca]
        rw [isDesignated_snoc]
        rcases List.mem_append.1 hs with hs | hs
        · exact C.val s hs
        · have hsp := List.mem_singleton.1 hs
          subst hsp
          constructor
          · intro hg
            exact absurd (C.keys _ (List.mem_map.2 ⟨_, (GoMap.get?_of_mem _ C.nodup _ _).2 hg, rfl⟩))
              hnew
          · rintro ⟨pre, b, post, e, hx, hy, _⟩
            exfalso
            rw [hpa] at hx hy
            have hmem' : a ∈ addedAttrs ops := by
              rw [e, addedAttrs_append]; exact List.mem_append_left _ hx
            rw [addedAttrs_append] at hd
            have := (List.pairwise_append.1 hd).2.2 a hmem' a (by simp [addedAttrs])
            rw [C28_equals_refl] at this
            cases this
    | addClass b =>
      simp only [step] at h1
      unfold Dense.addClassAttribute at h1
      cases hg : st0.d.getAttribute b with
      | panic => exact absurd hg (getAttribute_ne_panic _ _)
      | err =>
        rw [hg] at h1
        simp only [Res.map, Res.bind, absorb, Res.ok.injEq] at h1
        subst h1
        refine ⟨C.nodup, C.keys, ?_⟩
        intro s hs
        rw [isDesignated_snoc, C.val s hs]
        simp only [iff_or_self]
        rintro ⟨_, hse⟩
        exfalso
        have h := findInGroups_spec b st0.d.ags 0
        unfold Dense.getAttribute at hg
        cases hf : Dense.findInGroups b st0.d.ags 0 with
        | some t => rw [hf] at hg; cases hg
        | none =>
          rw [hf] at h
          have hin : s.attr ∈ st0.d.allAttributes :=
            I.listed.mem_iff.2 (List.mem_map.2 ⟨s, hs, rfl⟩)
          exact List.find?_eq_none.1 h _ hin hse
      | ok t =>
        obtain ⟨ht, hte, huniq⟩ := lookup_unique hb0 h0 hd0 hg
        rw [hg] at h1
        simp only [Res.map, Res.bind, absorb, Res.ok.injEq] at h1
        subst h1
        refine ⟨GoMap.nodup_set _ _ _ C.nodup, ?_, ?_⟩
        · intro s hs
          rcases (GoMap.mem_keys_set _ _ _ _).1 hs with rfl | hs
          · exact ht
          · exact C.keys s hs
        · intro s hs
          rw [isDesignated_snoc]
          simp only [GoMap.get?_set]
          by_cases hst : t = s
          · subst hst
            simp [hmem _ hs, hte]
          · rw [if_neg hst, C.val s hs]
            simp only [iff_or_self]
            rintro ⟨_, hse⟩
            exact absurd ((huniq s hs).1 hse).symm hst
    | removeClass b =>
      simp only [step] at h1
      unfold Dense.removeClassAttribute at h1
      cases hg : st0.d.getAttribute b with
      | panic => exact absurd hg (getAttribute_ne_panic _ _)
      | err =>
        rw [hg] at h1
        simp only [Res.map, Res.bind, absorb, Res.ok.injEq] at h1
        subst h1
        refine ⟨C.nodup, C.keys, ?_⟩
        intro s hs
        rw [isDesignated_snoc, C.val s hs]
        simp only [iff_self_and]
        intro _
        have h := findInGroups_spec b st0.d.ags 0
        unfold Dense.getAttribute at hg
        cases hf : Dense.findInGroups b st0.d.ags 0 with
        | some t => rw [hf] at hg; cases hg
        | none =>
          rw [hf] at h
          have hin : s.attr ∈ st0.d.allAttributes :=
            I.listed.mem_iff.2 (List.mem_map.2 ⟨s, hs, rfl⟩)
          simpa using List.find?_eq_none.1 h _ hin
      | ok t =>
        obtain ⟨ht, hte, huniq⟩ := lookup_unique hb0 h0 hd0 hg
        rw [hg] at h1
        simp only [Res.map, Res.bind, absorb, Res.ok.injEq] at h1
        subst h1
        refine ⟨GoMap.nodup_set _ _ _ C.nodup, ?_, ?_⟩
        · intro s hs
          rcases (GoMap.mem_keys_set _ _ _ _).1 hs with rfl | hs
          · exact ht
          · exact C.keys s hs
        · intro s hs
          rw [isDesignated_snoc]
          simp only [GoMap.get?_set]
          by_cases hst : t = s
          · subst hst
            simp [hte]
          · rw [if_neg hst, C.val s hs]
            simp only [iff_self_and]
            intro _
            cases hse : s.attr.equals b with
            | false => rfl
            | true => exact absurd ((huniq s hs).1 hse).symm hst

end Golearn
