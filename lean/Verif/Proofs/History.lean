import Verif.Proofs.Dense
import Mathlib.Data.List.Induction

namespace Golearn

theorem run_snoc (pg : Nat) (ops : List Op) (op : Op) :
    run pg (ops ++ [op]) = (run pg ops).bind fun st => step pg st op := by
  simp [run]

theorem lastWrite_snoc (ops : List Op) (op : Op) (h r : Nat) :
    lastWrite (ops ++ [op]) h r = (writes h r op).or (lastWrite ops h r) := by
  simp only [lastWrite, List.reverse_append, List.reverse_cons, List.reverse_nil, List.nil_append,
    List.cons_append, List.findSome?_cons]
  cases writes h r op <;> rfl

theorem totalRows_snoc (ops : List Op) (op : Op) :
    totalRows (ops ++ [op]) = totalRows ops + rowsOf op := by
  simp [totalRows]

theorem noLate_prefix {ops : List Op} {op : Op} (h : noLateGroupAdd (ops ++ [op])) :
    noLateGroupAdd ops := by
  intro pre n post e a ag hm
  exact h pre n (post ++ [op]) (by rw [e]; simp) a ag (by simp [hm])

theorem noLate_last {ops : List Op} {a : Attr} {ag : String}
    (h : noLateGroupAdd (ops ++ [Op.addTo a ag])) : ∀ n, Op.extend n ∉ ops := by
  intro n hn
  obtain ⟨pre, post, e⟩ := List.append_of_mem hn
  exact h pre n (post ++ [Op.addTo a ag]) (by rw [e]; simp) a ag (by simp)

theorem getAttribute_ne_panic (d : Dense) (a : Attr) : d.getAttribute a ≠ Res.panic := by
  unfold Dense.getAttribute; split <;> simp

theorem addClass_ok {d d' : Dense} {a : Attr} (h : d.addClassAttribute a = Res.ok d') :
    ∃ s, d.getAttribute a = Res.ok s ∧ d' = { d with classAttrs := d.classAttrs.set s true } := by
  simp only [Dense.addClassAttribute, Res.map_eq_ok] at h
  obtain ⟨s, h1, h2⟩ := h
  exact ⟨s, h1, h2.symm⟩

theorem removeClass_ok {d d' : Dense} {a : Attr} (h : d.removeClassAttribute a = Res.ok d') :
    ∃ s, d.getAttribute a = Res.ok s ∧ d' = { d with classAttrs := d.classAttrs.set s false } := by
  simp only [Dense.removeClassAttribute, Res.map_eq_ok] at h
  obtain ⟨s, h1, h2⟩ := h
  exact ⟨s, h1, h2.symm⟩

theorem createAttributeGroup_ok {d d' : Dense} {name : String} {size : Nat}
    (h : d.createAttributeGroup name size = Res.ok d') : d.createGroup name size = Res.ok d' := by
  unfold Dense.createAttributeGroup at h
  split at h
  · cases h
  · exact h

/-- Is the call an `Extend`? -/
def isExtend : Op → Bool
  | .extend _ => true
  | _ => false

/-- What one successful call does. -/
theorem step_inv {pg rows : Nat} {W : Nat → Nat → Option Bytes} {st st' : St} {op : Op}
    (I : Inv rows W st) (hW : ∀ h r, rows ≤ r → W h r = none)
    (hlate : ∀ a ag, op = Op.addTo a ag → st.d.fixed = false)
    (h : step pg st op = Res.ok st') :
    Inv (rows + rowsOf op) (fun x r => (writes x r op).or (W x r)) st' ∧
    (∀ x r, rows + rowsOf op ≤ r → (writes x r op).or (W x r) = none) ∧
    st'.d.fixed = (st.d.fixed || isExtend op) := by
  cases op with
  | create name size =>
    simp only [step] at h
    rcases absorb_ok h with e | e
    · subst e; exact ⟨I, hW, by simp [isExtend]⟩
    · rw [Res.map_eq_ok] at e
      obtain ⟨d', h1, h2⟩ := e
      subst h2
      have := createGroup_ok (createAttributeGroup_ok h1)
      exact ⟨Inv.create (d := st.d) I (createAttributeGroup_ok h1), hW, by simp [this.2.1, isExtend]⟩
  | add a =>
    simp only [step, Res.map_eq_ok] at h
    obtain ⟨p, h1, h2⟩ := h
    subst h2
    obtain ⟨f1, f2, _, I'⟩ := I.add h1
    exact ⟨I', hW, by simp [f1, f2, isExtend]⟩
  | addTo a ag =>
    simp only [step] at h
    rcases absorb_ok h with e | e
    · subst e; exact ⟨I, hW, by simp [isExtend]⟩
    · rw [Res.map_eq_ok] at e
      obtain ⟨p, h1, h2⟩ := e
      subst h2
      have hf := hlate a ag rfl
      obtain ⟨f2, _, I'⟩ := I.addTo h1 hf
      exact ⟨I', hW, by simp [hf, f2, isExtend]⟩
  | addClass a =>
    simp only [step] at h
    rcases absorb_ok h with e | e
    · subst e; exact ⟨I, hW, by simp [isExtend]⟩
    · rw [Res.map_eq_ok] at e
      obtain ⟨d', h1, h2⟩ := e
      subst h2
      obtain ⟨s, _, e⟩ := addClass_ok h1
      subst e
      exact ⟨Inv.congr (d := st.d) I rfl rfl rfl rfl, hW, by simp [isExtend]⟩
  | removeClass a =>
    simp only [step] at h
    rcases absorb_ok h with e | e
    · subst e; exact ⟨I, hW, by simp [isExtend]⟩
    · rw [Res.map_eq_ok] at e
      obtain ⟨d', h1, h2⟩ := e
      subst h2
      obtain ⟨s, _, e⟩ := removeClass_ok h1
      subst e
      exact ⟨Inv.congr (d := st.d) I rfl rfl rfl rfl, hW, by simp [isExtend]⟩
  | extend n =>
    simp only [step, Res.ok.injEq] at h
    subst h
    exact ⟨I.extend hW, fun x r hr => hW _ _ (by simp only [rowsOf] at hr; omega),
      by simp [Dense.extend, isExtend]⟩
  | set k row v =>
    simp only [step] at h
    split at h
    · cases h
    · rename_i s hs
      rw [Res.map_eq_ok] at h
      obtain ⟨d', h1, h2⟩ := h
      subst h2
      obtain ⟨hr, I'⟩ := I.set hs h1
      obtain ⟨_, _, _, _, _, _, _, _, _, e⟩ := dense_set_ok I hs h1
      have hfun : (fun x r => (writes x r (Op.set k row v)).or (W x r)) = updW W k row v := by
        funext x r
        simp only [writes, updW]
        split <;> simp
      refine ⟨by rw [hfun]; exact I', ?_, by rw [e]; simp [isExtend]⟩
      intro x r hrr
      have : (fun x r => (writes x r (Op.set k row v)).or (W x r)) x r = updW W k row v x r := by
        rw [hfun]
      simp only [rowsOf] at hrr
      simp only at this
      rw [this]
      simp only [updW]
      rw [if_neg (by omega), hW _ _ (by omega)]

theorem run_inv (pg : Nat) (ops : List Op) (st : St) (hl : noLateGroupAdd ops)
    (h : run pg ops = Res.ok st) :
    Inv (totalRows ops) (lastWrite ops) st ∧
    (∀ x r, totalRows ops ≤ r → lastWrite ops x r = none) ∧
    (st.d.fixed = true ↔ ∃ n, Op.extend n ∈ ops) := by
  induction ops using List.reverseRecOn generalizing st with
  | nil =>
    simp only [run, List.foldl_nil, Res.ok.injEq] at h
    subst h
    refine ⟨?_, ?_, ?_⟩
    · exact Inv.init
    · intro _ _ _; rfl
    · simp [St.init, Dense.new]
  | append_singleton ops op ih =>
    rw [run_snoc, Res.bind_eq_ok] at h
    obtain ⟨st0, h0, h1⟩ := h
    obtain ⟨I, hW, hf⟩ := ih st0 (noLate_prefix hl) h0
    have hlate : ∀ a ag, op = Op.addTo a ag → st0.d.fixed = false := by
      intro a ag e
      subst e
      have := noLate_last hl
      cases hb : st0.d.fixed with
      | false => rfl
      | true =>
        obtain ⟨n, hn⟩ := hf.1 hb
        exact absurd hn (this n)
    obtain ⟨I', hW', hf'⟩ := step_inv I hW hlate h1
    have e1 : lastWrite (ops ++ [op]) = fun x r => (writes x r op).or (lastWrite ops x r) := by
      funext x r; exact lastWrite_snoc _ _ _ _
    refine ⟨?_, ?_, ?_⟩
    · rw [totalRows_snoc, e1]; exact I'
    · rw [totalRows_snoc, e1]; exact hW'
    · rw [hf', Bool.or_eq_true, hf]
      cases op <;> simp [isExtend]

/-! ## Default storage of attributes added by `AddAttribute` alone -/

/-- Names generated by `AddAttribute` identify the kind of storage by their first character. -/
def nameKind (name : String) : GKind :=
  if name.toList.head? = some 'B' then .binary else .fixed 8

theorem chooseGroup_kind (pg : Nat) (d : Dense) (a : Attr) :
    nameKind (d.chooseGroup pg a).2.1 = defaultKind a ∧
    (d.chooseGroup pg a).2.2 = a.isBin := by
  unfold Dense.chooseGroup defaultKind Attr.isBin
  cases a.body <;> simp [nameKind, String.toList_append]

structure BasicInv (st : St) : Prop where
  named : ∀ (name : String) (id : Nat) (g : Group), st.d.agMap.get? name = some id →
    st.d.ags[id]? = some g → g.kind = nameKind name
  stored : ∀ (h : Nat) (s : Spec), st.handles[h]? = some s → kindOf st.d s = some (defaultKind s.attr)

theorem kindOf_set {d d' : Dense} {s t : Spec} {row : Nat} {v : Bytes}
    (h : d.set s row v = Res.ok d') : kindOf d' t = kindOf d t := by
  unfold Dense.set at h
  split at h
  · cases h
  · rename_i id hid
    split at h
    · cases h
    · rename_i g hg
      rw [Res.map_eq_ok] at h
      obtain ⟨g', h1, h2⟩ := h
      subst h2
      have hk : g'.kind = g.kind := (Group.set_frame h1).1
      have hidl : id < d.ags.length := (List.getElem?_eq_some_iff.1 hg).1
      unfold kindOf
      congr 1
      funext i
      by_cases hi : id = i
      · subst hi
        simp [hidl, hk]
        rw [List.getElem?_eq_getElem hidl] at hg
        rw [Option.some.inj hg]
      · simp [List.getElem?_set_ne hi]

theorem basic_add {pg : Nat} {st : St} {a : Attr} {p : Dense × Spec} {rows : Nat}
    {W : Nat → Nat → Option Bytes} (I : Inv rows W st)
    (B : BasicInv st) (h : st.d.addAttribute pg a = Res.ok p) :
    BasicInv ⟨p.1, st.handles ++ [p.2]⟩ := by
  unfold Dense.addAttribute at h
  split at h
  · cases h
  · rename_i hf
    have hf : st.d.fixed = false := by simpa using hf
    have r0 : rows = 0 := I.unfixed hf
    subst r0
    obtain ⟨c1, c2, c3, c4, _⟩ := chooseGroup_frame pg st.d a
    have ck := chooseGroup_kind pg st.d a
    generalize hcg : st.d.chooseGroup pg a = cg at h c1 c2 c3 c4 ck
    obtain ⟨d1, ag, isBin⟩ := cg
    simp only at h c1 c2 c3 c4 ck
    obtain ⟨ck1, ck2⟩ := ck
    have I1 : Inv 0 W ⟨d1, st.handles⟩ := Inv.congr (d := st.d) I c1 c2 c3 c4
    have B1 : BasicInv ⟨d1, st.handles⟩ :=
      ⟨by simp only [c1, c4]; exact B.named, by simp only [kindOf, c1]; exact B.stored⟩
    rw [Res.bind_eq_ok] at h
    obtain ⟨d2, hd2, h⟩ := h
    have hd2f : BasicInv ⟨d2, st.handles⟩ ∧ Inv 0 W ⟨d2, st.handles⟩ := by
      split at hd2
      · simp only [Res.ok.injEq] at hd2
        subst hd2; exact ⟨B1, I1⟩
      · refine ⟨?_, I1.create hd2⟩
        obtain ⟨f1, f2, f3, _, _, f4, f5⟩ := createGroup_ok hd2
        constructor
        · intro nm id g hn hg
          simp only [f4, GoMap.get?_set] at hn
          simp only [f5] at hg
          split at hn
          · rename_i e
            subst e
            have e' : d1.ags.length = id := Option.some.inj hn
            rw [← e', List.getElem?_append_right (by omega)] at hg
            simp only [Nat.sub_self, List.getElem?_cons_zero, Option.some.injEq] at hg
            subst hg
            rw [ck1, defaultKind, ck2]
            cases a.isBin <;> simp
          · obtain ⟨g0, hg0⟩ := I1.agmap _ _ hn
            rw [List.getElem?_append_left (List.getElem?_eq_some_iff.1 hg0).1] at hg
            exact B1.named _ _ _ hn hg
        · intro h s hs
          obtain ⟨i, g, q1, q2, _⟩ := I1.valid _ _ hs
          have := B1.stored _ _ hs
          simp only [kindOf, q1, q2, f5, Option.bind_some] at this ⊢
          rw [List.getElem?_append_left (List.getElem?_eq_some_iff.1 q2).1, q2]
          exact this
    obtain ⟨B2, I2⟩ := hd2f
    split at h
    · cases h
    · rename_i id hid
      obtain ⟨g, hg⟩ := I2.agmap _ _ hid
      rw [pushAttr_ok hg] at h
      simp only [Res.ok.injEq] at h
      subst h
      have hidl : id < d2.ags.length := (List.getElem?_eq_some_iff.1 hg).1
      have hgk : g.kind = defaultKind a := by rw [← ck1]; exact B2.named _ _ _ hid hg
      have hkk : ∀ s : Spec, kindOf { d2 with ags := d2.ags.set id (g.addAttr a), attributes := d2.attributes ++ [a] } s
          = kindOf d2 s := by
        intro s
        unfold kindOf
        congr 1
        funext i
        by_cases hi : id = i
        · subst hi
          simp only [hg, List.getElem?_set_self hidl, Option.map_some, Group.addAttr]
        · simp [List.getElem?_set_ne hi]
      constructor
      · intro nm i x hn hx
        rcases getElem?_set_some hg hx with ⟨e, ex⟩ | ⟨_, ex⟩
        · subst e; subst ex
          exact B2.named nm id g hn hg
        · exact B2.named _ _ _ hn ex
      · intro h s hs
        rw [hkk]
        rw [List.getElem?_append] at hs
        split at hs
        · exact B2.stored _ _ hs
        · have hz : h - st.handles.length = 0 := by
            by_cases hz : h - st.handles.length = 0
            · exact hz
            · rw [List.getElem?_eq_none (by simp; omega)] at hs; simp at hs
          rw [hz] at hs
          simp only [List.getElem?_cons_zero, Option.some.injEq] at hs
          subst hs
          show kindOf d2 _ = some (defaultKind a)
          simp [kindOf, hg, hgk]

theorem basic_noLate {ops : List Op} (hb : ∀ op ∈ ops, basicOp op = true) : noLateGroupAdd ops := by
  intro pre n post e a ag hm
  have := hb (Op.addTo a ag) (by rw [e]; simp [hm])
  simp [basicOp] at this

theorem run_basic (pg : Nat) (ops : List Op) (st : St) (hb : ∀ op ∈ ops, basicOp op = true)
    (h : run pg ops = Res.ok st) : BasicInv st ∧ st.handles.map Spec.attr = addedAttrs ops := by
  induction ops using List.reverseRecOn generalizing st with
  | nil =>
    simp only [run, List.foldl_nil, Res.ok.injEq] at h
    subst h
    refine ⟨⟨?_, ?_⟩, rfl⟩
    · intro _ _ _ hn; simp [St.init, Dense.new, GoMap.get?] at hn
    · intro _ _ hn; simp [St.init] at hn
  | append_singleton ops op ih =>
    rw [run_snoc, Res.bind_eq_ok] at h
    obtain ⟨st0, h0, h1⟩ := h
    have hb0 : ∀ op ∈ ops, basicOp op = true := fun o ho => hb o (by simp [ho])
    obtain ⟨B, ha⟩ := ih st0 hb0 h0
    obtain ⟨I, _, _⟩ := run_inv pg ops st0 (basic_noLate hb0) h0
    have hop := hb op (by simp)
    cases op with
    | create _ _ => simp [basicOp] at hop
    | addTo _ _ => simp [basicOp] at hop
    | addClass a =>
      simp only [step] at h1
      rcases absorb_ok h1 with e | e
      · subst e; exact ⟨B, by simp [ha, addedAttrs]⟩
      · rw [Res.map_eq_ok] at e
        obtain ⟨d', h3, h4⟩ := e
        subst h4
        obtain ⟨s, _, e⟩ := addClass_ok h3
        subst e
        exact ⟨⟨B.named, B.stored⟩, by simp [ha, addedAttrs]⟩
    | removeClass a =>
      simp only [step] at h1
      rcases absorb_ok h1 with e | e
      · subst e; exact ⟨B, by simp [ha, addedAttrs]⟩
      · rw [Res.map_eq_ok] at e
        obtain ⟨d', h3, h4⟩ := e
        subst h4
        obtain ⟨s, _, e⟩ := removeClass_ok h3
        subst e
        exact ⟨⟨B.named, B.stored⟩, by simp [ha, addedAttrs]⟩
    | add a =>
      simp only [step, Res.map_eq_ok] at h1
      obtain ⟨p, h1, h2⟩ := h1
      subst h2
      refine ⟨basic_add I B h1, ?_⟩
      have := (I.add h1).2.2.1
      simp [ha, addedAttrs, this]
    | extend n =>
      simp only [step, Res.ok.injEq] at h1
      subst h1
      refine ⟨⟨?_, ?_⟩, by simp [ha, addedAttrs]⟩
      · intro nm i x hn hx
        simp only [Dense.extend, List.getElem?_map, Option.map_eq_some_iff] at hx
        obtain ⟨g0, e1, e2⟩ := hx
        subst e2
        exact B.named nm i g0 hn e1
      · intro h s hs
        have := B.stored h s hs
        simp only [kindOf, Dense.extend, List.getElem?_map] at this ⊢
        rw [← this]
        congr 1
        funext i
        cases st0.d.ags[i]? <;> rfl
    | set k row v =>
      simp only [step] at h1
      split at h1
      · cases h1
      · rename_i s hs
        rw [Res.map_eq_ok] at h1
        obtain ⟨d', h1, h2⟩ := h1
        subst h2
        refine ⟨⟨?_, ?_⟩, by simp [ha, addedAttrs]⟩
        · intro nm i x hn hx
          have hk := kindOf_set (t := ⟨some i, 0, s.attr⟩) h1
          simp only [kindOf, Option.bind_some, hx, Option.map_some] at hk
          obtain ⟨id, g, g', q1, q2, _, _, _, _, e⟩ := dense_set_ok I hs h1
          rw [e] at hn
          obtain ⟨x0, hx0⟩ := I.agmap _ _ hn
          rw [hx0] at hk
          have : x.kind = x0.kind := by simpa using hk
          rw [this]
          exact B.named _ _ _ hn hx0
        · intro h t ht
          rw [kindOf_set h1]
          exact B.stored h t ht

end Golearn
