import Verif.Spec.Schema
import Verif.Props.C28
import Verif.Proofs.GetAttr
import Verif.Proofs.DenseTable
import Verif.Proofs.Arff

/-! # Goroutines that build one table -/

namespace Golearn

/-! ## What a call does to the attributes -/

theorem schema_findInGroup_append (id : Nat) (a b : Attr) (hb : b.equals a = false) : ∀ (as : List Attr) (j : Nat),
    Dense.findInGroup id a (as ++ [b]) j = Dense.findInGroup id a as j
  | [], j => by
    show (if b.equals a = true then _ else _) = none
    rw [hb, if_neg (by decide)]
    rfl
  | x :: as, j => by
    rw [List.cons_append, Dense.findInGroup, Dense.findInGroup, schema_findInGroup_append id a b hb as]

theorem schema_find_set (a b : Attr) (hb : b.equals a = false) : ∀ (gs : List Group) (id : Nat) (g : Group) (k : Nat), gs[id]? = some g →
    Dense.findInGroups a (gs.set id (g.addAttr b)) k = Dense.findInGroups a gs k
  | [], _, _, _, h => by cases h
  | x :: gs, 0, g, k, h => by
    simp only [List.getElem?_cons_zero, Option.some.injEq] at h
    subst h
    rw [List.set_cons_zero, Dense.findInGroups, Dense.findInGroups]
    show (match Dense.findInGroup k a (x.attrs ++ [b]) 0 with | some s => some s | none => Dense.findInGroups a gs (k + 1)) = _
    rw [schema_findInGroup_append k a b hb]
    rfl
  | x :: gs, id + 1, g, k, h => by
    rw [List.set_cons_succ, Dense.findInGroups, Dense.findInGroups, schema_find_set a b hb gs id g (k + 1) (by simpa using h)]

theorem schema_find_empty (a : Attr) (g : Group) (hg : g.attrs = []) : ∀ (gs : List Group) (k : Nat),
    Dense.findInGroups a (gs ++ [g]) k = Dense.findInGroups a gs k
  | [], k => by
    show (match Dense.findInGroup k a g.attrs 0 with | some s => some s | none => none) = none
    rw [hg]
    rfl
  | x :: gs, k => by rw [List.cons_append, Dense.findInGroups, Dense.findInGroups, schema_find_empty a g hg gs]

theorem schema_flat_set (b : Attr) : ∀ (gs : List Group) (id : Nat) (g : Group), gs[id]? = some g →
    ((gs.set id (g.addAttr b)).flatMap (·.attrs)).Perm (gs.flatMap (·.attrs) ++ [b])
  | [], _, _, h => by cases h
  | x :: gs, 0, g, h => by
    simp only [List.getElem?_cons_zero, Option.some.injEq] at h
    subst h
    rw [List.set_cons_zero, List.flatMap_cons, List.flatMap_cons]
    show ((x.attrs ++ [b]) ++ _).Perm _
    rw [List.append_assoc, List.append_assoc]
    exact (List.perm_append_comm).append_left _
  | x :: gs, id + 1, g, h => by
    rw [List.set_cons_succ, List.flatMap_cons, List.flatMap_cons, List.append_assoc]
    exact (schema_flat_set b gs id g (by simpa using h)).append_left _

/-- The attributes of `d'` are those of `d` with those of `l`, and what is found in `d` is found there too. -/
def Grown (d d' : Dense) (l : List Attr) : Prop :=
  d'.allAttributes.Perm (d.allAttributes ++ l) ∧ ∀ a, (∀ b ∈ l, b.equals a = false) → d'.getAttribute a = d.getAttribute a

theorem Grown.same {d d' : Dense} (h : d'.ags.map Group.attrs = d.ags.map Group.attrs) : Grown d d' [] := by
  refine ⟨?_, fun a _ => ?_⟩
  · rw [List.append_nil]
    have : d'.allAttributes = d.allAttributes := by
      show d'.ags.flatMap Group.attrs = d.ags.flatMap Group.attrs
      rw [List.flatMap_def, List.flatMap_def, h]
    rw [this]
  · unfold Dense.getAttribute
    rw [findInGroups_congr a _ _ 0 h]

theorem Grown.trans {d d' d'' : Dense} {l l' : List Attr} (h : Grown d d' l) (h' : Grown d' d'' l') : Grown d d'' (l ++ l') :=
  ⟨h'.1.trans (by rw [← List.append_assoc]; exact h.1.append_right _), fun a ha =>
    (h'.2 a fun b hb => ha b (List.mem_append_right _ hb)).trans (h.2 a fun b hb => ha b (List.mem_append_left _ hb))⟩

theorem pushAttr_grown {d d' : Dense} {id : Nat} {a : Attr} {s : Spec} (h : d.pushAttr id a = .ok (d', s)) : Grown d d' [a] := by
  unfold Dense.pushAttr at h
  cases hg : d.ags[id]? with
  | none => rw [hg] at h; cases h
  | some g =>
    rw [hg] at h
    have h := congrArg Prod.fst (Res.ok.inj h)
    simp only at h
    subst h
    refine ⟨schema_flat_set a d.ags id g hg, fun q hq => ?_⟩
    unfold Dense.getAttribute
    simp only [schema_find_set q a (hq a List.mem_cons_self) d.ags id g 0 hg]

theorem createGroup_grown {d d' : Dense} {name : String} {size : Nat} (h : d.createGroup name size = .ok d') : Grown d d' [] := by
  unfold Dense.createGroup at h
  cases hf : d.fixed with
  | true => rw [hf] at h; cases h
  | false =>
    rw [hf, if_neg (by decide)] at h
    have h := Res.ok.inj h
    subst h
    have he : ∀ g : Group, g = (if size ≠ 0 then ⟨.fixed size, [], []⟩ else ⟨.binary, [], []⟩) → g.attrs = [] := by
      rintro g rfl
      split <;> rfl
    refine ⟨?_, fun a _ => ?_⟩
    · show ((d.ags ++ [_]).flatMap Group.attrs).Perm _
      rw [List.flatMap_append, List.flatMap_cons, he _ rfl, List.append_nil, List.flatMap_nil, List.append_nil, List.append_nil]
      exact List.Perm.refl _
    · unfold Dense.getAttribute
      simp only [schema_find_empty a _ (he _ rfl)]

theorem chooseGroup_ags (pg : Nat) (d : Dense) (a : Attr) : (Dense.chooseGroup pg d a).1.ags = d.ags := by
  unfold Dense.chooseGroup
  cases a.body <;> rfl

theorem addAttribute_grown {pg : Nat} {d d' : Dense} {a : Attr} {s : Spec} (h : d.addAttribute pg a = .ok (d', s)) : Grown d d' [a] := by
  unfold Dense.addAttribute at h
  cases hf : d.fixed with
  | true => rw [hf] at h; cases h
  | false =>
    rw [hf, if_neg (by decide)] at h
    have g1 : Grown d (Dense.chooseGroup pg d a).1 [] := Grown.same (by rw [chooseGroup_ags])
    revert h g1
    generalize Dense.chooseGroup pg d a = c
    obtain ⟨d1, ag, isBin⟩ := c
    intro h g1
    obtain ⟨d2, h1, h2⟩ := Res.bind_eq_ok.1 h
    have g2 : Grown d1 d2 [] := by
      cases hm : d1.agMap.get? ag with
      | some id =>
        rw [hm] at h1
        have := Res.ok.inj h1
        subst this
        exact Grown.same rfl
      | none =>
        rw [hm] at h1
        exact createGroup_grown h1
    cases hm : d2.agMap.get? ag with
    | none => rw [hm] at h2; cases h2
    | some id =>
      rw [hm] at h2
      exact (g1.trans g2).trans (pushAttr_grown h2)

theorem addTo_grown {d d' : Dense} {a : Attr} {ag : String} {s : Spec} (h : d.addAttributeToGroup a ag = .ok (d', s)) : Grown d d' [a] := by
  unfold Dense.addAttributeToGroup at h
  cases hm : d.agMap.get? ag with
  | none => rw [hm] at h; cases h
  | some id =>
    rw [hm] at h
    simp only at h
    cases hg : d.ags[id]? with
    | none => rw [hg] at h; cases h
    | some g =>
      rw [hg] at h
      simp only at h
      split at h
      · cases h
      · exact pushAttr_grown h

/-- A call adds at most its attribute. -/
theorem atomic_grown {pg : Nat} {d d' : Dense} {op : SchemaOp} {out : SchemaOut} (h : schemaAtomic pg d op = some (d', out)) :
    ∃ l, l.Sublist op.added.toList ∧ Grown d d' l := by
  have refl : Grown d d [] := Grown.same rfl
  cases op with
  | create name size =>
    simp only [schemaAtomic, Dense.createAttributeGroup] at h
    cases hc : d.createGroup name size with
    | ok d1 => simp only [hc] at h; cases h; exact ⟨[], List.nil_sublist _, createGroup_grown hc⟩
    | err => simp only [hc] at h; cases h; exact ⟨[], List.nil_sublist _, refl⟩
    | panic => simp only [hc] at h; cases h; exact ⟨[], List.nil_sublist _, refl⟩
  | add a =>
    simp only [schemaAtomic] at h
    cases hc : d.addAttribute pg a with
    | ok r => obtain ⟨d1, s⟩ := r; simp only [hc] at h; cases h; exact ⟨[a], List.Sublist.refl _, addAttribute_grown hc⟩
    | err => simp only [hc] at h; cases h; exact ⟨[], List.nil_sublist _, refl⟩
    | panic => simp only [hc] at h; cases h
  | addTo a ag =>
    simp only [schemaAtomic] at h
    cases hc : d.addAttributeToGroup a ag with
    | ok r => obtain ⟨d1, s⟩ := r; simp only [hc] at h; cases h; exact ⟨[a], List.Sublist.refl _, addTo_grown hc⟩
    | err => simp only [hc] at h; cases h; exact ⟨[], List.nil_sublist _, refl⟩
    | panic => simp only [hc] at h; cases h
  | find a =>
    simp only [schemaAtomic] at h
    cases hc : d.getAttribute a with
    | ok s => simp only [hc] at h; cases h; exact ⟨[], List.nil_sublist _, refl⟩
    | err => simp only [hc] at h; cases h; exact ⟨[], List.nil_sublist _, refl⟩
    | panic => simp only [hc] at h; cases h
  | attributes => cases h; exact ⟨[], List.nil_sublist _, refl⟩
  | classes => cases h; exact ⟨[], List.nil_sublist _, refl⟩
  | addClass a =>
    simp only [schemaAtomic] at h
    cases hc : d.addClassAttribute a with
    | ok d1 =>
      simp only [hc] at h; cases h
      obtain ⟨s, _, e⟩ := Res.map_eq_ok.1 hc
      subst e
      exact ⟨[], List.nil_sublist _, Grown.same rfl⟩
    | err => simp only [hc] at h; cases h; exact ⟨[], List.nil_sublist _, refl⟩
    | panic => simp only [hc] at h; cases h
  | removeClass a =>
    simp only [schemaAtomic] at h
    cases hc : d.removeClassAttribute a with
    | ok d1 =>
      simp only [hc] at h; cases h
      obtain ⟨s, _, e⟩ := Res.map_eq_ok.1 hc
      subst e
      exact ⟨[], List.nil_sublist _, Grown.same rfl⟩
    | err => simp only [hc] at h; cases h; exact ⟨[], List.nil_sublist _, refl⟩
    | panic => simp only [hc] at h; cases h
  | extend rows =>
    cases h
    refine ⟨[], List.nil_sublist _, Grown.same ?_⟩
    simp only [Dense.extend, List.map_map]
    rfl

/-- A call that returns a specification has added its attribute, any other has added none. -/
theorem atomic_attributes {pg : Nat} {d d' : Dense} {op : SchemaOp} {out : SchemaOut} (h : schemaAtomic pg d op = some (d', out)) :
    d'.allAttributes.Perm (d.allAttributes ++ (match out with | .spec _ => op.added | _ => none).toList) := by
  have none : op.added = none → d'.allAttributes.Perm (d.allAttributes ++ (match out with | .spec _ => op.added | _ => none).toList) := by
    intro hn
    obtain ⟨l, hl, hg⟩ := atomic_grown h
    rw [hn] at hl ⊢
    have e : l = [] := List.sublist_nil.1 hl
    subst e
    cases out <;> exact hg.1
  cases op with
  | add a =>
    simp only [schemaAtomic] at h
    cases hc : d.addAttribute pg a with
    | ok r => obtain ⟨d1, s⟩ := r; simp only [hc] at h; cases h; exact (addAttribute_grown hc).1
    | err => simp only [hc] at h; cases h; rw [Option.toList_none, List.append_nil]
    | panic => simp only [hc] at h; cases h
  | addTo a ag =>
    simp only [schemaAtomic] at h
    cases hc : d.addAttributeToGroup a ag with
    | ok r => obtain ⟨d1, s⟩ := r; simp only [hc] at h; cases h; exact (addTo_grown hc).1
    | err => simp only [hc] at h; cases h; rw [Option.toList_none, List.append_nil]
    | panic => simp only [hc] at h; cases h
  | _ => exact none rfl

theorem getAttribute_mem {d : Dense} {a : Attr} {s : Spec} (h : d.getAttribute a = .ok s) :
    s.attr ∈ d.allAttributes ∧ s.attr.equals a = true := by
  have hs := findInGroups_spec a d.ags 0
  unfold Dense.getAttribute at h
  cases hf : Dense.findInGroups a d.ags 0 with
  | none => rw [hf] at h; cases h
  | some s' =>
    rw [hf] at h hs
    have e := Res.ok.inj h
    subst e
    obtain ⟨i, g, _, _, _, h1, h2⟩ := hs
    exact ⟨List.mem_of_find?_eq_some h2, h1⟩

/-- What a goroutine has found is found still after a call of another one that adds another attribute. -/
theorem found_stays {d d' : Dense} {l rest : List Attr} (hg : Grown d d' l)
    (hp : (d.allAttributes ++ (l ++ rest)).Pairwise fun a b => a.equals b = false) {a : Attr} {s : Spec} (h : d.getAttribute a = .ok s) :
    d'.getAttribute a = .ok s := by
  obtain ⟨h1, h2⟩ := getAttribute_mem h
  rw [hg.2 a fun b hb => ?_]
  · exact h
  · have hne := (List.pairwise_append.1 hp).2.2 s.attr h1 b (List.mem_append_left _ hb)
    cases he : b.equals a with
    | false => rfl
    | true => rw [C28_equals_trans _ _ _ h2 (C28_equals_symm _ _ he)] at hne; cases hne

/-! ## The invariant -/

theorem replays_snoc {pg : Nat} {r : Returned} {d1 d2 : Dense} (h : schemaAtomic pg d1 r.op = some (d2, r.out)) :
    ∀ {d : Dense} {log : List Returned}, Replays pg d log d1 → Replays pg d (log ++ [r]) d2
  | d, [], hr => by
    have hr : d = d1 := hr
    subst hr
    exact ⟨d2, h, rfl⟩
  | d, x :: log, hr => by
    obtain ⟨d', h1, h2⟩ := hr
    exact ⟨d', h1, replays_snoc h h2⟩

/-- The attributes that goroutines are still to add. -/
def toAdd (ws : List Builder) : List Attr := ws.flatMap fun w => w.todo.filterMap SchemaOp.added

theorem builders_split {ws : List Builder} {i : Nat} {w : Builder} (h : ws[i]? = some w) :
    ∃ L R, ws = L ++ w :: R ∧ ∀ w', ws.set i w' = L ++ w' :: R := by
  have hi : i < ws.length := (List.getElem?_eq_some_iff.1 h).1
  have he : ws[i] = w := (List.getElem?_eq_some_iff.1 h).2
  refine ⟨ws.take i, ws.drop (i + 1), ?_, fun w' => ?_⟩
  · rw [← he, ← List.drop_eq_getElem_cons hi, List.take_append_drop]
  · rw [List.set_eq_take_append_cons_drop, if_pos hi]

theorem toAdd_same {ws : List Builder} {i : Nat} {w w' : Builder} (h : ws[i]? = some w) (ht : w'.todo.filterMap SchemaOp.added = w.todo.filterMap SchemaOp.added) :
    toAdd (ws.set i w') = toAdd ws := by
  obtain ⟨L, R, e1, e2⟩ := builders_split h
  rw [e2 w', e1]
  simp only [toAdd, List.flatMap_append, List.flatMap_cons, ht]

theorem toAdd_next {ws : List Builder} {i : Nat} {w : Builder} {op : SchemaOp} {rest : List SchemaOp} {pc : SchemaPc} (h : ws[i]? = some w)
    (ht : w.todo = op :: rest) : (toAdd ws).Perm (op.added.toList ++ toAdd (ws.set i ⟨rest, pc⟩)) := by
  obtain ⟨L, R, e1, e2⟩ := builders_split h
  rw [e2 ⟨rest, pc⟩, e1]
  simp only [toAdd, List.flatMap_append, List.flatMap_cons, ht]
  have : (op :: rest).filterMap SchemaOp.added = op.added.toList ++ rest.filterMap SchemaOp.added := by
    rw [List.filterMap_cons]
    cases op.added <;> rfl
  rw [this, List.append_assoc]
  rw [← List.append_assoc, ← List.append_assoc (op.added.toList)]
  exact List.perm_append_comm.append_right _

structure SchemaInv (pg : Nat) (d0 : Dense) (progs : List (List SchemaOp)) (st : SchemaSt) : Prop where
  replay : Replays pg d0 st.log st.d
  differ : (st.d.allAttributes ++ toAdd st.builders).Pairwise fun a b => a.equals b = false
  found : ∀ w ∈ st.builders, ∀ op s on, w.pc = .mark op s on → ∃ a, ((op = .addClass a ∧ on = true) ∨ (op = .removeClass a ∧ on = false)) ∧
    st.d.getAttribute a = .ok s
  order : ∀ (i : Nat) (w : Builder) (p : List SchemaOp), st.builders[i]? = some w → progs[i]? = some p →
    returnedBy i st.log ++ w.pc.pending ++ w.todo = p

theorem schema_start_inv {pg : Nat} {d : Dense} {progs : List (List SchemaOp)} (h : addsDiffer d progs) :
    SchemaInv pg d progs (SchemaSt.start d progs) where
  replay := rfl
  differ := by
    have : toAdd (SchemaSt.start d progs).builders = progs.flatten.filterMap SchemaOp.added := by
      simp only [toAdd, SchemaSt.start, List.filterMap_flatten, List.flatMap_def, List.map_map]
      rfl
    rw [this]
    exact h
  found := by
    intro w hw op s on hm
    obtain ⟨p, _, rfl⟩ := List.mem_map.1 hw
    cases hm
  order := by
    intro i w p hw hp
    simp only [SchemaSt.start, List.getElem?_map, hp, Option.map_some, Option.some.injEq] at hw
    subst hw
    rfl

theorem returnedBy_snoc (i : Nat) (log : List Returned) (j : Nat) (op : SchemaOp) (out : SchemaOut) :
    returnedBy i (log ++ [⟨j, op, out⟩]) = returnedBy i log ++ if j = i then [op] else [] := by
  simp only [returnedBy, List.filter_append, List.map_append]
  congr 1
  by_cases h : j = i
  · rw [if_pos h, List.filter_cons_of_pos (by simpa using h)]; rfl
  · rw [if_neg h, List.filter_cons_of_neg (by simpa using h)]; rfl

theorem equals_false_symm {a b : Attr} (h : a.equals b = false) : b.equals a = false := by
  cases he : b.equals a with
  | false => rfl
  | true => rw [C28_equals_symm _ _ he] at h; cases h

/-- A call that returns in its step, and that leaves no call under way. -/
theorem inv_returns {pg : Nat} {d0 : Dense} {progs : List (List SchemaOp)} {st : SchemaSt} (h : SchemaInv pg d0 progs st) {i : Nat} {w : Builder}
    (hw : st.builders[i]? = some w) {op : SchemaOp} {rest : List SchemaOp} (hsplit : w.pc.pending ++ w.todo = op :: rest)
    (hadd : (toAdd st.builders).Perm (op.added.toList ++ toAdd (st.builders.set i ⟨rest, .idle⟩))) {d : Dense} {out : SchemaOut}
    (hs : schemaAtomic pg st.d op = some (d, out)) :
    SchemaInv pg d0 progs ⟨d, st.builders.set i ⟨rest, .idle⟩, st.log ++ [⟨i, op, out⟩]⟩ := by
  obtain ⟨l, hl, hg⟩ := atomic_grown hs
  have hi : i < st.builders.length := (List.getElem?_eq_some_iff.1 hw).1
  have hsym : ∀ {x y : Attr}, x.equals y = false → y.equals x = false := fun h => equals_false_symm h
  have hp : (st.d.allAttributes ++ (l ++ toAdd (st.builders.set i ⟨rest, .idle⟩))).Pairwise fun a b => a.equals b = false := by
    have h1 := ((hadd.append_left st.d.allAttributes).pairwise_iff (R := fun a b : Attr => a.equals b = false) hsym).1 h.differ
    exact h1.sublist ((hl.append (List.Sublist.refl _)).append_left _)
  refine ⟨replays_snoc (r := ⟨i, op, out⟩) hs h.replay, ?_, ?_, ?_⟩
  · have := hg.1.append_right (toAdd (st.builders.set i ⟨rest, .idle⟩))
    rw [List.append_assoc] at this
    exact (this.pairwise_iff (R := fun a b : Attr => a.equals b = false) hsym).2 hp
  · intro u hu op' s on hm
    rcases List.mem_or_eq_of_mem_set hu with hu | rfl
    · obtain ⟨a, h1, h2⟩ := h.found u hu op' s on hm
      exact ⟨a, h1, found_stays hg hp h2⟩
    · cases hm
  · intro j u p hu hpj
    rw [returnedBy_snoc]
    by_cases hij : i = j
    · subst hij
      simp only [List.getElem?_set_self hi, Option.some.injEq] at hu
      subst hu
      have := h.order i w p hw hpj
      rw [List.append_assoc, hsplit] at this
      rw [if_pos rfl, ← this]
      simp [SchemaPc.pending]
    · simp only [List.getElem?_set_ne hij] at hu
      rw [if_neg hij, List.append_nil]
      exact h.order j u p hu hpj

/-- A goroutine finds the attribute, and its call goes on. -/
theorem inv_looks {pg : Nat} {d0 : Dense} {progs : List (List SchemaOp)} {st : SchemaSt} (h : SchemaInv pg d0 progs st) {i : Nat} {w : Builder}
    (hw : st.builders[i]? = some w) {op : SchemaOp} {rest : List SchemaOp} (hpc : w.pc = .idle) (ht : w.todo = op :: rest)
    {a : Attr} {on : Bool} (ha : (op = .addClass a ∧ on = true) ∨ (op = .removeClass a ∧ on = false)) {s : Spec}
    (hs : st.d.getAttribute a = .ok s) :
    SchemaInv pg d0 progs { st with builders := st.builders.set i ⟨rest, .mark op s on⟩ } := by
  have hi : i < st.builders.length := (List.getElem?_eq_some_iff.1 hw).1
  refine ⟨h.replay, ?_, ?_, ?_⟩
  · show (st.d.allAttributes ++ toAdd (st.builders.set i _)).Pairwise _
    rw [toAdd_same (w' := ⟨rest, .mark op s on⟩) hw]
    · exact h.differ
    · rw [ht]
      rcases ha with ⟨rfl, _⟩ | ⟨rfl, _⟩ <;> rfl
  · intro u hu op' s' on' hm
    rcases List.mem_or_eq_of_mem_set hu with hu | rfl
    · exact h.found u hu op' s' on' hm
    · injection hm with h1 h2 h3
      subst h1 h2 h3
      exact ⟨a, ha, hs⟩
  · intro j u p hu hpj
    by_cases hij : i = j
    · subst hij
      simp only [List.getElem?_set_self hi, Option.some.injEq] at hu
      subst hu
      have := h.order i w p hw hpj
      rw [hpc, ht] at this
      rw [← this]
      simp [SchemaPc.pending]
    · simp only [List.getElem?_set_ne hij] at hu
      exact h.order j u p hu hpj

theorem look_inv {pg : Nat} {d0 : Dense} {progs : List (List SchemaOp)} {st : SchemaSt} (h : SchemaInv pg d0 progs st) {i : Nat} {w : Builder}
    (hw : st.builders[i]? = some w) {op : SchemaOp} {rest : List SchemaOp} (hpc : w.pc = .idle) (ht : w.todo = op :: rest)
    {a : Attr} {on : Bool} (ha : (op = .addClass a ∧ on = true) ∨ (op = .removeClass a ∧ on = false)) {st' : SchemaSt}
    (hs : (match schemaLook st.d op a on rest with
      | none => none
      | some (d, w', none) => some { st with d := d, builders := st.builders.set i w' }
      | some (d, w', some (op, out)) => some { d := d, builders := st.builders.set i w', log := st.log ++ [⟨i, op, out⟩] }) = some st') :
    SchemaInv pg d0 progs st' := by
  cases hg : st.d.getAttribute a with
  | ok s =>
    simp only [schemaLook, hg, Option.some.injEq] at hs
    subst hs
    exact inv_looks h hw hpc ht ha hg
  | err =>
    simp only [schemaLook, hg, Option.some.injEq] at hs
    subst hs
    refine inv_returns h hw (by rw [hpc, ht]; rfl) (toAdd_next hw ht) ?_
    rcases ha with ⟨rfl, _⟩ | ⟨rfl, _⟩
    · simp only [schemaAtomic, Dense.addClassAttribute, hg]; rfl
    · simp only [schemaAtomic, Dense.removeClassAttribute, hg]; rfl
  | panic => simp only [schemaLook, hg] at hs; cases hs

theorem schema_step_inv {pg : Nat} {d0 : Dense} {progs : List (List SchemaOp)} {st st' : SchemaSt} (h : SchemaInv pg d0 progs st) {i : Nat}
    (hs : st.step pg i = some st') : SchemaInv pg d0 progs st' := by
  unfold SchemaSt.step at hs
  cases hw : st.builders[i]? with
  | none =>
    rw [hw] at hs
    injection hs with hs
    subst hs
    exact h
  | some w =>
    rw [hw] at hs
    simp only at hs
    cases hpc : w.pc with
    | mark op s on =>
      simp only [builderStep, hpc, Option.some.injEq] at hs
      subst hs
      obtain ⟨a, ha, hg⟩ := h.found w (List.mem_of_getElem? hw) op s on hpc
      refine inv_returns h hw (by rw [hpc]; rfl) ?_ ?_
      · rw [toAdd_same (w' := ⟨w.todo, .idle⟩) hw rfl]
        rcases ha with ⟨rfl, _⟩ | ⟨rfl, _⟩ <;> exact List.Perm.refl _
      · rcases ha with ⟨rfl, rfl⟩ | ⟨rfl, rfl⟩
        · simp only [schemaAtomic, Dense.addClassAttribute, hg, Res.map_ok]
        · simp only [schemaAtomic, Dense.removeClassAttribute, hg, Res.map_ok]
    | idle =>
      cases ht : w.todo with
      | nil =>
        simp only [builderStep, hpc, ht, Option.some.injEq] at hs
        subst hs
        have : st.builders.set i w = st.builders := by
          apply List.ext_getElem?
          intro j
          by_cases hij : i = j
          · subst hij
            rw [List.getElem?_set_self (List.getElem?_eq_some_iff.1 hw).1, hw]
          · rw [List.getElem?_set_ne hij]
        rw [this]
        exact h
      | cons op rest =>
        cases op with
        | addClass a =>
          simp only [builderStep, hpc, ht] at hs
          exact look_inv h hw hpc ht (.inl ⟨rfl, rfl⟩) hs
        | removeClass a =>
          simp only [builderStep, hpc, ht] at hs
          exact look_inv h hw hpc ht (.inr ⟨rfl, rfl⟩) hs
        | _ =>
          simp only [builderStep, hpc, ht] at hs
          split at hs
          · cases hs
          · rename_i heq
            split at heq
            · cases heq
            · rename_i hat
              cases heq
          · rename_i heq
            split at heq
            · cases heq
            · rename_i hat
              injection heq with heq
              injection heq with e1 heq
              injection heq with e2 heq
              injection heq with heq
              injection heq with e3 e4
              subst e1 e2 e3 e4
              injection hs with hs
              subst hs
              exact inv_returns h hw (by rw [hpc, ht]; rfl) (toAdd_next hw ht) hat

theorem schema_runs_inv {pg : Nat} {d0 : Dense} {progs : List (List SchemaOp)} : ∀ (sched : List Nat) {st st' : SchemaSt},
    SchemaInv pg d0 progs st → st.runs pg sched = some st' → SchemaInv pg d0 progs st'
  | [], st, st', h, hs => by
    injection hs with hs
    subst hs
    exact h
  | i :: sched, st, st', h, hs => by
    rw [SchemaSt.runs] at hs
    cases e : st.step pg i with
    | none => rw [e] at hs; cases hs
    | some st1 =>
      rw [e] at hs
      exact schema_runs_inv sched (schema_step_inv h e) hs

end Golearn
