import Verif.Proofs.Schema
import Verif.Proofs.History
import Verif.Proofs.Accept

/-! # When calls of goroutines that build one table panic -/

namespace Golearn

/-- Every group that has a name is there. -/
def Mapped (d : Dense) : Prop := ∀ name id, d.agMap.get? name = some id → id < d.ags.length

theorem mapped_same {d d' : Dense} (h : Mapped d) (h1 : d'.agMap = d.agMap) (h2 : d'.ags.length = d.ags.length) : Mapped d' := by
  intro name id hn
  rw [h1] at hn
  rw [h2]
  exact h name id hn

theorem createGroup_mapped {d d' : Dense} {name : String} {size : Nat} (h : Mapped d) (hc : d.createGroup name size = .ok d') :
    Mapped d' ∧ ∃ id, d'.agMap.get? name = some id := by
  unfold Dense.createGroup at hc
  cases hf : d.fixed with
  | true => rw [hf] at hc; cases hc
  | false =>
    rw [hf, if_neg (by decide)] at hc
    have hc := Res.ok.inj hc
    subst hc
    refine ⟨fun n id hn => ?_, d.ags.length, by show (d.agMap.set name _).get? name = _; rw [GoMap.get?_set, if_pos rfl]⟩
    simp only [List.length_append, List.length_cons, List.length_nil]
    by_cases he : name = n
    · subst he
      simp only [GoMap.get?_set, if_true, Option.some.injEq] at hn
      omega
    · simp only [GoMap.get?_set, if_neg he] at hn
      have := h n id hn
      omega

theorem pushAttr_mapped {d d' : Dense} {id : Nat} {a : Attr} {s : Spec} (h : Mapped d) (hp : d.pushAttr id a = .ok (d', s)) : Mapped d' := by
  unfold Dense.pushAttr at hp
  cases hg : d.ags[id]? with
  | none => rw [hg] at hp; cases hp
  | some g =>
    rw [hg] at hp
    have hp := congrArg Prod.fst (Res.ok.inj hp)
    simp only at hp
    subst hp
    exact mapped_same h rfl (by simp)

theorem push_there {d : Dense} {id : Nat} {a : Attr} (h : id < d.ags.length) : ∃ r, d.pushAttr id a = .ok r := by
  unfold Dense.pushAttr
  rw [List.getElem?_eq_getElem h]
  exact ⟨_, rfl⟩

theorem chooseGroup_agMap (pg : Nat) (d : Dense) (a : Attr) : (Dense.chooseGroup pg d a).1.agMap = d.agMap ∧ (Dense.chooseGroup pg d a).1.fixed = d.fixed := by
  unfold Dense.chooseGroup
  cases a.body <;> exact ⟨rfl, rfl⟩

/-- `AddAttribute` on a table that is not extended. -/
theorem addAttribute_mapped {pg : Nat} {d : Dense} {a : Attr} (h : Mapped d) (hf : d.fixed = false) :
    ∃ r, d.addAttribute pg a = .ok r ∧ Mapped r.1 := by
  unfold Dense.addAttribute
  rw [hf, if_neg (by decide)]
  have g1 : Mapped (Dense.chooseGroup pg d a).1 ∧ (Dense.chooseGroup pg d a).1.fixed = false :=
    ⟨mapped_same h (chooseGroup_agMap pg d a).1 (by rw [chooseGroup_ags]), by rw [(chooseGroup_agMap pg d a).2, hf]⟩
  revert g1
  generalize Dense.chooseGroup pg d a = c
  obtain ⟨d1, ag, isBin⟩ := c
  rintro ⟨g1, f1⟩
  simp only at g1 f1 ⊢
  cases hm : d1.agMap.get? ag with
  | some id =>
    simp only [Res.bind_ok, hm]
    obtain ⟨r, e⟩ := push_there (a := a) (g1 ag id hm)
    exact ⟨r, e, pushAttr_mapped (s := r.2) g1 e⟩
  | none =>
    have : ∃ d2, d1.createGroup ag (if isBin = true then 0 else 8) = .ok d2 := by
      unfold Dense.createGroup
      rw [f1, if_neg (by decide)]
      exact ⟨_, rfl⟩
    obtain ⟨d2, e2⟩ := this
    obtain ⟨g2, id, hi⟩ := createGroup_mapped g1 e2
    simp only [e2, Res.bind_ok, hi]
    obtain ⟨r, e⟩ := push_there (a := a) (g2 ag id hi)
    exact ⟨r, e, pushAttr_mapped (s := r.2) g2 e⟩

theorem addTo_mapped {d : Dense} {a : Attr} {ag : String} (h : Mapped d) :
    d.addAttributeToGroup a ag = .err ∨ ∃ r, d.addAttributeToGroup a ag = .ok r ∧ Mapped r.1 := by
  unfold Dense.addAttributeToGroup
  cases hm : d.agMap.get? ag with
  | none => exact .inl rfl
  | some id =>
    have hi := h ag id hm
    simp only [List.getElem?_eq_getElem hi]
    split
    · exact .inl rfl
    · obtain ⟨r, e⟩ := push_there (a := a) hi
      exact .inr ⟨r, e, pushAttr_mapped (s := r.2) h e⟩

/-- Only `AddAttribute` panics, and only on a table that is extended. -/
theorem atomic_mapped {pg : Nat} {d : Dense} (h : Mapped d) (op : SchemaOp) :
    ((∃ a, op = .add a) ∧ d.fixed = true ∧ schemaAtomic pg d op = none) ∨ ∃ d' out, schemaAtomic pg d op = some (d', out) ∧ Mapped d' := by
  cases op with
  | create name size =>
    right
    simp only [schemaAtomic, Dense.createAttributeGroup]
    cases hc : d.createGroup name size with
    | ok d1 => exact ⟨d1, .done, rfl, (createGroup_mapped h hc).1⟩
    | err => exact ⟨d, .failed, rfl, h⟩
    | panic => exact ⟨d, .failed, rfl, h⟩
  | add a =>
    cases hf : d.fixed with
    | true =>
      refine .inl ⟨⟨a, rfl⟩, rfl, ?_⟩
      simp only [schemaAtomic, Dense.addAttribute, hf, if_true]
    | false =>
      right
      obtain ⟨r, e, hm⟩ := addAttribute_mapped (pg := pg) (a := a) h hf
      simp only [schemaAtomic, e]
      exact ⟨_, _, rfl, hm⟩
  | addTo a ag =>
    right
    rcases addTo_mapped (a := a) (ag := ag) h with e | ⟨r, e, hm⟩
    · simp only [schemaAtomic, e]
      exact ⟨_, _, rfl, h⟩
    · simp only [schemaAtomic, e]
      exact ⟨_, _, rfl, hm⟩
  | find a =>
    right
    simp only [schemaAtomic]
    cases hc : d.getAttribute a with
    | ok s => exact ⟨_, _, rfl, h⟩
    | err => exact ⟨_, _, rfl, h⟩
    | panic => exact absurd hc (getAttribute_ne_panic d a)
  | attributes => exact .inr ⟨_, _, rfl, h⟩
  | classes => exact .inr ⟨_, _, rfl, h⟩
  | addClass a =>
    right
    simp only [schemaAtomic, Dense.addClassAttribute]
    cases hc : d.getAttribute a with
    | ok s => exact ⟨_, _, rfl, mapped_same h rfl rfl⟩
    | err => exact ⟨_, _, rfl, h⟩
    | panic => exact absurd hc (getAttribute_ne_panic d a)
  | removeClass a =>
    right
    simp only [schemaAtomic, Dense.removeClassAttribute]
    cases hc : d.getAttribute a with
    | ok s => exact ⟨_, _, rfl, mapped_same h rfl rfl⟩
    | err => exact ⟨_, _, rfl, h⟩
    | panic => exact absurd hc (getAttribute_ne_panic d a)
  | extend rows => exact .inr ⟨_, _, rfl, mapped_same h rfl (by simp [Dense.extend])⟩

theorem createGroup_fixed {d d' : Dense} {name : String} {size : Nat} (h : d.createGroup name size = .ok d') : d'.fixed = d.fixed := by
  unfold Dense.createGroup at h
  cases hf : d.fixed with
  | true => rw [hf] at h; cases h
  | false =>
    rw [hf, if_neg (by decide)] at h
    have h := Res.ok.inj h
    subst h
    rfl

theorem pushAttr_fixed {d : Dense} {id : Nat} {a : Attr} {r : Dense × Spec} (h : d.pushAttr id a = .ok r) : r.1.fixed = d.fixed := by
  unfold Dense.pushAttr at h
  cases hg : d.ags[id]? with
  | none => rw [hg] at h; cases h
  | some g =>
    rw [hg] at h
    have h := Res.ok.inj h
    subst h
    rfl

theorem addAttribute_keeps_fixed {pg : Nat} {d : Dense} {a : Attr} {r : Dense × Spec} (h : d.addAttribute pg a = .ok r) : r.1.fixed = d.fixed := by
  unfold Dense.addAttribute at h
  cases hf : d.fixed with
  | true => rw [hf] at h; cases h
  | false =>
    rw [hf, if_neg (by decide)] at h
    have f1 : (Dense.chooseGroup pg d a).1.fixed = false := by rw [(chooseGroup_agMap pg d a).2, hf]
    revert h f1
    generalize Dense.chooseGroup pg d a = c
    obtain ⟨d1, ag, isBin⟩ := c
    intro h f1
    obtain ⟨d2, h1, h2⟩ := Res.bind_eq_ok.1 h
    have f2 : d2.fixed = false := by
      cases hm : d1.agMap.get? ag with
      | some id =>
        rw [hm] at h1
        have := Res.ok.inj h1
        subst this
        exact f1
      | none =>
        rw [hm] at h1
        rw [createGroup_fixed h1, f1]
    cases hm : d2.agMap.get? ag with
    | none => rw [hm] at h2; cases h2
    | some id =>
      rw [hm] at h2
      rw [pushAttr_fixed h2, f2]

theorem atomic_fixed {pg : Nat} {d d' : Dense} {op : SchemaOp} {out : SchemaOut} (hx : ∀ n, op ≠ .extend n)
    (h : schemaAtomic pg d op = some (d', out)) : d'.fixed = d.fixed := by
  cases op with
  | create name size =>
    simp only [schemaAtomic, Dense.createAttributeGroup] at h
    cases hc : d.createGroup name size with
    | ok d1 => simp only [hc] at h; cases h; exact createGroup_fixed hc
    | err => simp only [hc] at h; cases h; rfl
    | panic => simp only [hc] at h; cases h; rfl
  | add a =>
    simp only [schemaAtomic] at h
    cases hc : d.addAttribute pg a with
    | ok r => obtain ⟨d1, s⟩ := r; simp only [hc] at h; cases h; exact addAttribute_keeps_fixed hc
    | err => simp only [hc] at h; cases h; rfl
    | panic => simp only [hc] at h; cases h
  | addTo a ag =>
    simp only [schemaAtomic] at h
    cases hc : d.addAttributeToGroup a ag with
    | ok r =>
      obtain ⟨d1, s⟩ := r; simp only [hc] at h; cases h
      unfold Dense.addAttributeToGroup at hc
      cases hm : d.agMap.get? ag with
      | none => rw [hm] at hc; cases hc
      | some id =>
        rw [hm] at hc
        simp only at hc
        cases hg : d.ags[id]? with
        | none => rw [hg] at hc; cases hc
        | some g =>
          rw [hg] at hc
          simp only at hc
          split at hc
          · cases hc
          · exact pushAttr_fixed hc
    | err => simp only [hc] at h; cases h; rfl
    | panic => simp only [hc] at h; cases h
  | find a =>
    simp only [schemaAtomic] at h
    cases hc : d.getAttribute a with
    | ok s => simp only [hc] at h; cases h; rfl
    | err => simp only [hc] at h; cases h; rfl
    | panic => simp only [hc] at h; cases h
  | attributes => cases h; rfl
  | classes => cases h; rfl
  | addClass a =>
    simp only [schemaAtomic] at h
    cases hc : d.addClassAttribute a with
    | ok d1 =>
      simp only [hc] at h; cases h
      obtain ⟨s, _, e⟩ := Res.map_eq_ok.1 hc
      subst e
      rfl
    | err => simp only [hc] at h; cases h; rfl
    | panic => simp only [hc] at h; cases h
  | removeClass a =>
    simp only [schemaAtomic] at h
    cases hc : d.removeClassAttribute a with
    | ok d1 =>
      simp only [hc] at h; cases h
      obtain ⟨s, _, e⟩ := Res.map_eq_ok.1 hc
      subst e
      rfl
    | err => simp only [hc] at h; cases h; rfl
    | panic => simp only [hc] at h; cases h
  | extend rows => exact absurd rfl (hx rows)

/-- A step: it panics in `AddAttribute` on a table that is extended, or it keeps the groups; and only `Extend` makes a table extended. -/
theorem builderStep_mapped {pg : Nat} {d : Dense} (h : Mapped d) (w : Builder) :
    ((∃ a rest, w.todo = .add a :: rest) ∧ d.fixed = true) ∨
    ∃ d' w' r, builderStep pg d w = some (d', w', r) ∧ Mapped d' ∧ (∀ x ∈ w'.todo, x ∈ w.todo) ∧
      ((∀ x ∈ w.todo, ∀ n, x ≠ .extend n) → d'.fixed = d.fixed) := by
  obtain ⟨todo, pc⟩ := w
  cases pc with
  | mark op s on => exact .inr ⟨_, _, _, rfl, mapped_same h rfl rfl, fun _ hx => hx, fun _ => rfl⟩
  | idle =>
    cases todo with
    | nil => exact .inr ⟨_, _, _, rfl, h, fun _ hx => hx, fun _ => rfl⟩
    | cons op rest =>
      have look : ∀ a on, ∃ d' w' r, schemaLook d op a on rest = some (d', w', r) ∧ Mapped d' ∧ (∀ x ∈ w'.todo, x ∈ op :: rest) ∧
          ((∀ x ∈ op :: rest, ∀ n, x ≠ .extend n) → d'.fixed = d.fixed) := by
        intro a on
        unfold schemaLook
        cases hc : d.getAttribute a with
        | ok s => exact ⟨_, _, _, rfl, h, fun x hx => List.mem_cons_of_mem _ hx, fun _ => rfl⟩
        | err => exact ⟨_, _, _, rfl, h, fun x hx => List.mem_cons_of_mem _ hx, fun _ => rfl⟩
        | panic => exact absurd hc (getAttribute_ne_panic d a)
      have other : (schemaAtomic pg d op = none ∧ (∃ a, op = .add a) ∧ d.fixed = true) ∨
          ∃ d' out, schemaAtomic pg d op = some (d', out) ∧ Mapped d' ∧ ((∀ n, op ≠ .extend n) → d'.fixed = d.fixed) := by
        rcases atomic_mapped (pg := pg) h op with ⟨h1, h2, h3⟩ | ⟨d', out, h1, h2⟩
        · exact .inl ⟨h3, h1, h2⟩
        · exact .inr ⟨d', out, h1, h2, fun hx => atomic_fixed hx h1⟩
      have atomic : builderStep pg d ⟨op :: rest, .idle⟩ = (match schemaAtomic pg d op with
            | none => none
            | some (d', out) => some (d', ⟨rest, .idle⟩, some (op, out))) →
          ((∃ a rest', op :: rest = .add a :: rest') ∧ d.fixed = true) ∨
          ∃ d' w' r, builderStep pg d ⟨op :: rest, .idle⟩ = some (d', w', r) ∧ Mapped d' ∧ (∀ x ∈ w'.todo, x ∈ op :: rest) ∧
            ((∀ x ∈ op :: rest, ∀ n, x ≠ .extend n) → d'.fixed = d.fixed) := by
        intro e
        rcases other with ⟨_, ⟨a, h1⟩, h2⟩ | ⟨d', out, h1, h2, h3⟩
        · exact .inl ⟨⟨a, rest, by rw [h1]⟩, h2⟩
        · rw [h1] at e
          exact .inr ⟨d', _, _, e, h2, fun x hx => List.mem_cons_of_mem _ hx, fun hx => h3 (hx op List.mem_cons_self)⟩
      cases op with
      | addClass a => exact .inr (look a true)
      | removeClass a => exact .inr (look a false)
      | _ => exact atomic rfl

/-- If nobody extends a table that is not extended, or nobody calls `AddAttribute`, no schedule panics. -/
theorem runs_no_panic {pg : Nat} : ∀ (sched : List Nat) {st : SchemaSt}, Mapped st.d →
    ((∀ w ∈ st.builders, ∀ x ∈ w.todo, ∀ n, x ≠ .extend n) ∧ st.d.fixed = false) ∨ (∀ w ∈ st.builders, ∀ x ∈ w.todo, ∀ a, x ≠ .add a) →
    ∃ st', st.runs pg sched = some st'
  | [], st, _, _ => ⟨st, rfl⟩
  | i :: sched, st, hm, hd => by
    cases hw : st.builders[i]? with
    | none =>
      rw [SchemaSt.runs]
      simp only [SchemaSt.step, hw]
      exact runs_no_panic sched hm hd
    | some w =>
      have hmem := List.mem_of_getElem? hw
      rcases builderStep_mapped (pg := pg) hm w with ⟨⟨a, rest, ht⟩, hf⟩ | ⟨d', w', r, e, hm', hsub, hfix⟩
      · rcases hd with ⟨_, h2⟩ | h2
        · rw [hf] at h2; cases h2
        · exact absurd rfl (h2 w hmem (.add a) (by rw [ht]; exact List.mem_cons_self) a)
      · have key : ∀ log, ∃ st', (SchemaSt.mk d' (st.builders.set i w') log).runs pg sched = some st' := by
          intro log
          apply runs_no_panic sched hm'
          rcases hd with ⟨h1, h2⟩ | h1
          · refine .inl ⟨fun u hu x hx => ?_, (hfix (h1 w hmem)).trans h2⟩
            rcases List.mem_or_eq_of_mem_set hu with hu | rfl
            · exact h1 u hu x hx
            · exact h1 w hmem x (hsub x hx)
          · refine .inr fun u hu x hx => ?_
            rcases List.mem_or_eq_of_mem_set hu with hu | rfl
            · exact h1 u hu x hx
            · exact h1 w hmem x (hsub x hx)
        rw [SchemaSt.runs]
        cases r with
        | none => simp only [SchemaSt.step, hw, e]; exact key _
        | some q => obtain ⟨op, out⟩ := q; simp only [SchemaSt.step, hw, e]; exact key _

/-- Every table that a history leads to. -/
theorem run_mapped (pg : Nat) (ops : List Op) (st : St) (h : run pg ops = .ok st) : Mapped st.d := by
  induction ops using List.reverseRecOn generalizing st with
  | nil =>
    have h := Res.ok.inj h
    subst h
    intro name id hn
    cases hn
  | append_singleton ops op ih =>
    rw [run_snoc] at h
    obtain ⟨st1, h1, h2⟩ := Res.bind_eq_ok.1 h
    have hm := ih st1 h1
    have absorbed : ∀ {r : Res St}, (∀ s, r = .ok s → Mapped s.d) → absorb st1 r = .ok st → Mapped st.d := by
      intro r hr ha
      cases r with
      | ok s => have ha := Res.ok.inj ha; subst ha; exact hr _ rfl
      | err => have ha := Res.ok.inj ha; subst ha; exact hm
      | panic => cases ha
    cases op with
    | create name size =>
      refine absorbed (fun s hs => ?_) h2
      obtain ⟨d', hd, e⟩ := Res.map_eq_ok.1 hs
      subst e
      unfold Dense.createAttributeGroup at hd
      cases hc : d'.fixed with
      | _ =>
        cases hg : st1.d.createGroup name size with
        | ok d2 => rw [hg] at hd; have hd := Res.ok.inj hd; subst hd; exact (createGroup_mapped hm hg).1
        | err => rw [hg] at hd; cases hd
        | panic => rw [hg] at hd; cases hd
    | add a =>
      obtain ⟨r, hr, e⟩ := Res.map_eq_ok.1 h2
      subst e
      cases hf : st1.d.fixed with
      | true => rw [addAttribute_fixed hf a] at hr; cases hr
      | false =>
        obtain ⟨r', e', hm'⟩ := addAttribute_mapped (pg := pg) (a := a) hm hf
        rw [e'] at hr
        have := Res.ok.inj hr
        subst this
        exact hm'
    | addTo a ag =>
      refine absorbed (fun s hs => ?_) h2
      obtain ⟨r, hr, e⟩ := Res.map_eq_ok.1 hs
      subst e
      rcases addTo_mapped (a := a) (ag := ag) hm with e' | ⟨r', e', hm'⟩
      · rw [e'] at hr; cases hr
      · rw [e'] at hr
        have := Res.ok.inj hr
        subst this
        exact hm'
    | addClass a =>
      refine absorbed (fun s hs => ?_) h2
      obtain ⟨d', hd, e⟩ := Res.map_eq_ok.1 hs
      subst e
      obtain ⟨s, _, e⟩ := Res.map_eq_ok.1 hd
      subst e
      exact mapped_same hm rfl rfl
    | removeClass a =>
      refine absorbed (fun s hs => ?_) h2
      obtain ⟨d', hd, e⟩ := Res.map_eq_ok.1 hs
      subst e
      obtain ⟨s, _, e⟩ := Res.map_eq_ok.1 hd
      subst e
      exact mapped_same hm rfl rfl
    | extend n =>
      have h2 := Res.ok.inj h2
      subst h2
      exact mapped_same hm rfl (by simp [Dense.extend])
    | set k row v =>
      unfold step at h2
      cases hk : st1.handles[k]? with
      | none => simp only [hk] at h2; cases h2
      | some s =>
        simp only [hk] at h2
        obtain ⟨d', hd, e⟩ := Res.map_eq_ok.1 h2
        subst e
        unfold Dense.set at hd
        cases hp : s.pond with
        | none => rw [hp] at hd; cases hd
        | some id =>
          rw [hp] at hd
          simp only at hd
          cases hg : st1.d.ags[id]? with
          | none => rw [hg] at hd; cases hd
          | some g =>
            rw [hg] at hd
            simp only at hd
            obtain ⟨g', _, e⟩ := Res.map_eq_ok.1 hd
            subst e
            exact mapped_same hm rfl (by simp)

end Golearn
