import Verif.Spec.Template
import Verif.Proofs.Csv
import Verif.Props.C34

/-! # Reading with a template: lemmas -/

namespace Golearn

/-! ## Maps -/

theorem get?_zipIdx (names : List String) (hn : names.Nodup) (k : Nat) (i : Nat) (s : String) (h : names[i]? = some s) :
    GoMap.get? (names.zipIdx k : GoMap String Nat) s = some (k + i) := by
  induction names generalizing k i with
  | nil => simp at h
  | cons n ns ih =>
    rw [List.zipIdx_cons, GoMap.get?]
    rw [List.nodup_cons] at hn
    cases i with
    | zero => simp at h; simp [h]
    | succ i =>
      have hm : s ∈ ns := List.mem_of_getElem? (by simpa using h)
      rw [if_neg (by rintro rfl; exact hn.1 hm), ih hn.2 (k + 1) i (by simpa using h)]
      congr 1; omega

theorem get?_zipIdx_none (names : List String) (k : Nat) (s : String) (h : s ∉ names) :
    GoMap.get? (names.zipIdx k : GoMap String Nat) s = none := by
  induction names generalizing k with
  | nil => rfl
  | cons n ns ih =>
    simp only [List.mem_cons, not_or] at h
    rw [List.zipIdx_cons, GoMap.get?, if_neg (fun e => h.1 e.symm), ih _ h.2]

theorem get?_zipIdx_swap (names : List String) (k i : Nat) :
    GoMap.get? ((names.zipIdx k).map Prod.swap : GoMap Nat String) (k + i) = names[i]? := by
  induction names generalizing k i with
  | nil => rfl
  | cons n ns ih =>
    rw [List.zipIdx_cons, List.map_cons, Prod.swap, GoMap.get?]
    cases i with
    | zero => simp
    | succ i =>
      rw [if_neg (by simp), List.getElem?_cons_succ, ← ih (k + 1) i]
      congr 1; omega

theorem set_zipIdx (names : List String) (k : Nat) (s : String) (h : s ∉ names) :
    GoMap.set (names.zipIdx k : GoMap String Nat) s (k + names.length) = (names ++ [s]).zipIdx k := by
  induction names generalizing k with
  | nil => simp [GoMap.set]
  | cons n ns ih =>
    simp only [List.mem_cons, not_or] at h
    rw [List.zipIdx_cons, GoMap.set, if_neg (fun e => h.1 e.symm), List.cons_append, List.zipIdx_cons, ← ih _ h.2, List.length_cons]
    congr 2; omega

theorem set_zipIdx_swap (names : List String) (k : Nat) (s : String) :
    GoMap.set ((names.zipIdx k).map Prod.swap : GoMap Nat String) (k + names.length) s = ((names ++ [s]).zipIdx k).map Prod.swap := by
  induction names generalizing k with
  | nil => simp [GoMap.set]
  | cons n ns ih =>
    rw [List.zipIdx_cons, List.map_cons, Prod.swap, GoMap.set, if_neg (by simp), List.cons_append, List.zipIdx_cons, List.map_cons, ← ih,
      List.length_cons]
    congr 2; omega

theorem mem_set_true {κ : Type} [DecidableEq κ] (m : GoMap κ Bool) (k s : κ) :
    (s, true) ∈ m.set k true ↔ s = k ∨ (s, true) ∈ m := by
  induction m with
  | nil => simp [GoMap.set]
  | cons p m ih =>
    obtain ⟨k', v'⟩ := p
    rw [GoMap.set]
    split
    · rename_i h
      subst h
      simp only [List.mem_cons, Prod.mk.injEq]
      tauto
    · simp only [List.mem_cons, Prod.mk.injEq, ih]
      tauto

theorem mem_allClassAttributes {d : Dense} {a : Attr} : a ∈ d.allClassAttributes ↔ ∃ s : Spec, (s, true) ∈ d.classAttrs ∧ s.attr = a := by
  simp only [Dense.allClassAttributes, List.mem_map, List.mem_filter]
  constructor
  · rintro ⟨⟨s, b⟩, ⟨h1, h2⟩, h3⟩
    simp only at h2
    subst h2
    exact ⟨s, h1, h3⟩
  · rintro ⟨s, h1, h2⟩
    exact ⟨(s, true), ⟨h1, rfl⟩, h2⟩

/-! ## Names of groups -/

theorem GroupNamed.new : GroupNamed Dense.new [] := ⟨List.nodup_nil, rfl, rfl, rfl⟩

theorem GroupNamed.create {d : Dense} {names : List String} (N : GroupNamed d names) {n : String} (hn : n ∉ names) {k : Nat} {d' : Dense}
    (h : d.createGroup n k = Res.ok d') : GroupNamed d' (names ++ [n]) := by
  obtain ⟨h1, h2, h3, h4⟩ := N
  unfold Dense.createGroup at h
  split at h
  · cases h
  · simp only [Res.ok.injEq] at h
    subst h
    refine ⟨?_, by simp [h2], ?_, ?_⟩
    · rw [List.nodup_append]
      refine ⟨h1, List.nodup_singleton _, ?_⟩
      intro a ha b hb
      rw [List.mem_singleton] at hb
      rintro rfl
      exact hn (hb ▸ ha)
    · show d.agMap.set n d.ags.length = _
      have := set_zipIdx names 0 n hn
      rw [Nat.zero_add] at this
      rw [h3, ← h2]; exact this
    · show d.agRevMap.set d.ags.length n = _
      have := set_zipIdx_swap names 0 n
      rw [Nat.zero_add] at this
      rw [h4, ← h2]; exact this

theorem GroupNamed.congr {d d' : Dense} {names : List String} (N : GroupNamed d names) (h1 : d'.ags.length = d.ags.length) (h2 : d'.agMap = d.agMap)
    (h3 : d'.agRevMap = d.agRevMap) : GroupNamed d' names := by
  obtain ⟨n1, n2, n3, n4⟩ := N
  exact ⟨n1, by rw [n2, h1], by rw [h2, n3], by rw [h3, n4]⟩

theorem GroupNamed.push {d : Dense} {names : List String} (N : GroupNamed d names) {id : Nat} {a : Attr} {q : Dense × Spec}
    (h : d.pushAttr id a = Res.ok q) : GroupNamed q.1 names := by
  unfold Dense.pushAttr at h
  split at h
  · cases h
  · simp only [Res.ok.injEq] at h
    subst h
    exact N.congr (by simp) rfl rfl

theorem GroupNamed.addAttribute {pg : Nat} {d : Dense} {names : List String} (N : GroupNamed d names) {a : Attr} {q : Dense × Spec}
    (h : d.addAttribute pg a = Res.ok q) : ∃ names', GroupNamed q.1 names' := by
  unfold Dense.addAttribute at h
  split at h
  · cases h
  · rcases hc : Dense.chooseGroup pg d a with ⟨d1, ag, bn⟩
    have N1 : GroupNamed d1 names := by
      unfold Dense.chooseGroup at hc
      split at hc <;>
        · simp only [Prod.mk.injEq] at hc
          rw [← hc.1]
          exact N.congr rfl rfl rfl
    rw [hc] at h
    simp only at h
    rw [Res.bind_eq_ok] at h
    obtain ⟨d2, e1, e2⟩ := h
    have N2 : ∃ names', GroupNamed d2 names' := by
      split at e1
      · simp only [Res.ok.injEq] at e1
        exact ⟨names, e1 ▸ N1⟩
      · rename_i hnone
        refine ⟨names ++ [ag], N1.create ?_ e1⟩
        intro hm
        obtain ⟨i, hi⟩ := List.getElem?_of_mem hm
        have := get?_zipIdx names N1.1 0 i ag hi
        rw [← N1.2.2.1, hnone] at this
        cases this
    obtain ⟨names', N2⟩ := N2
    split at e2
    · cases e2
    · exact ⟨names', N2.push e2⟩

theorem GroupNamed.set {d d' : Dense} {names : List String} (N : GroupNamed d names) {s : Spec} {r : Nat} {v : Bytes} (h : d.set s r v = Res.ok d') :
    GroupNamed d' names := by
  unfold Dense.set at h
  split at h
  · cases h
  · split at h
    · cases h
    · rw [Res.map_eq_ok] at h
      obtain ⟨g, _, rfl⟩ := h
      exact N.congr (by simp) rfl rfl

theorem GroupNamed.addClass {d d' : Dense} {names : List String} (N : GroupNamed d names) {a : Attr} (h : d.addClassAttribute a = Res.ok d') :
    GroupNamed d' names := by
  rw [Dense.addClassAttribute, Res.map_eq_ok] at h
  obtain ⟨s, _, rfl⟩ := h
  exact N.congr rfl rfl rfl

/-- The groups of a grid that was made without named groups have different names. -/
theorem run_named (pg : Nat) (ops : List Op) (hb : ∀ op ∈ ops, basicOp op = true) (st : St) (h : run pg ops = Res.ok st) :
    ∃ names, GroupNamed st.d names := by
  induction ops using List.reverseRecOn generalizing st with
  | nil =>
    simp only [run, List.foldl_nil, Res.ok.injEq] at h
    subst h
    exact ⟨[], GroupNamed.new⟩
  | append_singleton ops op ih =>
    have e : run pg (ops ++ [op]) = (run pg ops).bind fun st => step pg st op := by
      simp [run, List.foldl_append]
    rw [e, Res.bind_eq_ok] at h
    obtain ⟨st0, h0, h1⟩ := h
    obtain ⟨names, N⟩ := ih (fun o ho => hb o (by simp [ho])) st0 h0
    have hop := hb op (by simp)
    have habs : ∀ {r : Res St}, absorb st0 r = Res.ok st → r = Res.err ∧ st = st0 ∨ r = Res.ok st := by
      intro r hr
      cases r with
      | ok x => right; exact hr
      | err => left; simp only [absorb, Res.ok.injEq] at hr; exact ⟨rfl, hr.symm⟩
      | panic => cases hr
    cases op with
    | create _ _ => cases hop
    | addTo _ _ => cases hop
    | add a =>
      simp only [step] at h1
      rw [Res.map_eq_ok] at h1
      obtain ⟨q, hq, rfl⟩ := h1
      exact N.addAttribute hq
    | addClass a =>
      simp only [step] at h1
      rcases habs h1 with ⟨_, rfl⟩ | h1
      · exact ⟨names, N⟩
      · rw [Res.map_eq_ok] at h1
        obtain ⟨q, hq, rfl⟩ := h1
        exact ⟨names, N.addClass hq⟩
    | removeClass a =>
      simp only [step] at h1
      rcases habs h1 with ⟨_, rfl⟩ | h1
      · exact ⟨names, N⟩
      · rw [Res.map_eq_ok] at h1
        obtain ⟨q, hq, rfl⟩ := h1
        rw [Dense.removeClassAttribute, Res.map_eq_ok] at hq
        obtain ⟨s, _, rfl⟩ := hq
        exact ⟨names, N.congr rfl rfl rfl⟩
    | extend n =>
      simp only [step, Res.ok.injEq] at h1
      subst h1
      exact ⟨names, N.congr (by simp [Dense.extend]) rfl rfl⟩
    | set k r v =>
      simp only [step] at h1
      split at h1
      · cases h1
      · rw [Res.map_eq_ok] at h1
        obtain ⟨q, hq, rfl⟩ := h1
        exact ⟨names, N.set hq⟩

/-! ## The copy of the structure -/

/-- The kind of the copy of a group. -/
def copyKind (t : Dense) (n : String) : GKind := if groupSize t n ≠ 0 then .fixed (groupSize t n) else .binary

/-- A grid whose groups are `ord`, with the attributes `as`, each in the group `grp` says. -/
structure Copied (t : Dense) (ord : List String) (grp : Attr → String) (as : List Attr) (st : St) : Prop where
  agMap : st.d.agMap = ord.zipIdx
  ags : st.d.ags = ord.map fun n => ⟨copyKind t n, as.filter fun a => grp a == n, []⟩
  free : st.d.fixed = false
  noClass : st.d.classAttrs = []
  handles : st.handles.map Spec.attr = as
  kinds : ∀ s ∈ st.handles, kindOf st.d s = some (copyKind t (grp s.attr))

theorem copyGroups_run (pg : Nat) (t : Dense) (grp : Attr → String) (ord : List String) (hn : ord.Nodup) :
    ∃ st, run pg (ord.map fun n => Op.create n (groupSize t n)) = Res.ok st ∧ st.d = copyGroups t ord ∧ Copied t ord grp [] st := by
  suffices H : ∃ st, run pg (ord.map fun n => Op.create n (groupSize t n)) = Res.ok st ∧ st.d = copyGroups t ord ∧ Copied t ord grp [] st ∧
      GroupNamed st.d ord by
    obtain ⟨st, h1, h2, h3, _⟩ := H
    exact ⟨st, h1, h2, h3⟩
  induction ord using List.reverseRecOn with
  | nil => exact ⟨St.init, rfl, rfl, ⟨rfl, rfl, rfl, rfl, rfl, by simp [St.init]⟩, GroupNamed.new⟩
  | append_singleton ord n ih =>
    have hn' : ord.Nodup ∧ n ∉ ord := by
      rw [List.nodup_append] at hn
      exact ⟨hn.1, fun h => hn.2.2 n h n (by simp) rfl⟩
    obtain ⟨st, r1, r2, C, N⟩ := ih hn'.1
    have hc : st.d.createGroup n (groupSize t n) = Res.ok { st.d with
        agMap := st.d.agMap.set n st.d.ags.length
        agRevMap := st.d.agRevMap.set st.d.ags.length n
        ags := st.d.ags ++ [⟨copyKind t n, [], []⟩] } := by
      unfold Dense.createGroup copyKind
      rw [if_neg (by simp [C.free])]
      by_cases h : groupSize t n = 0 <;> simp [h]
    have hc' : st.d.createAttributeGroup n (groupSize t n) = st.d.createGroup n (groupSize t n) := by
      unfold Dense.createAttributeGroup
      rw [hc]
    have N' := N.create hn'.2 hc
    refine ⟨⟨_, st.handles⟩, ?_, ?_, ?_, N'⟩
    · rw [List.map_append, List.map_cons, List.map_nil, run_snoc, r1, Res.bind_ok]
      simp only [step]
      rw [hc', hc, Res.map_ok]
      rfl
    · rw [copyGroups, List.foldl_append]
      have r2' : copyGroups t ord = st.d := r2.symm
      rw [copyGroups] at r2'
      rw [r2']
      simp only [List.foldl_cons, List.foldl_nil]
      rw [hc', hc]
    · have hh : st.handles = [] := by
        have := C.handles
        simpa using this
      refine ⟨N'.2.2.1, ?_, C.free, C.noClass, C.handles, ?_⟩
      · show st.d.ags ++ _ = _
        rw [C.ags, List.map_append]
        rfl
      · simp [hh]

/-- What has to be known about an attribute of the template to copy it. -/
structure Copyable (t : Dense) (ord : List String) (grp : Attr → String) (a : Attr) : Prop where
  found : ∃ s id, t.getAttribute a = Res.ok s ∧ s.pond = some id ∧ t.agRevMap.get? id = some (grp a)
  known : grp a ∈ ord

theorem Copied.add {pg : Nat} {t : Dense} {ord : List String} (hn : ord.Nodup) {grp : Attr → String} {as : List Attr} {st : St}
    (C : Copied t ord grp as st) {a : Attr} (ha : grp a ∈ ord) (hc : ∀ b ∈ as, grp b = grp a → b.compatible a = true) :
    ∃ q, st.d.addAttributeToGroup a (grp a) = Res.ok q ∧ Copied t ord grp (as ++ [a]) ⟨q.1, st.handles ++ [q.2]⟩ ∧
      step pg st (Op.addTo a (grp a)) = Res.ok ⟨q.1, st.handles ++ [q.2]⟩ := by
  obtain ⟨id, hid⟩ := List.getElem?_of_mem ha
  have h1 : st.d.agMap.get? (grp a) = some id := by
    rw [C.agMap]
    have := get?_zipIdx ord hn 0 id _ hid
    simpa using this
  have h2 : st.d.ags[id]? = some ⟨copyKind t (grp a), as.filter fun b => grp b == grp a, []⟩ := by
    rw [C.ags, List.getElem?_map, hid]; rfl
  have h3 : st.d.addAttributeToGroup a (grp a) = st.d.pushAttr id a := by
    unfold Dense.addAttributeToGroup
    simp only [h1, h2]
    rw [if_neg]
    rw [Bool.not_eq_true, List.any_eq_false]
    intro b hb
    rw [List.mem_filter] at hb
    simp [hc b hb.1 (by simpa using hb.2)]
  have h4 := pushAttr_ok (a := a) h2
  refine ⟨_, h3.trans h4, ?_, ?_⟩
  · have hset : st.d.ags.set id (Group.addAttr ⟨copyKind t (grp a), as.filter fun b => grp b == grp a, []⟩ a) =
        ord.map fun n => ⟨copyKind t n, (as ++ [a]).filter fun b => grp b == n, []⟩ := by
      refine List.ext_getElem? fun k => ?_
      rw [List.getElem?_set, List.getElem?_map, C.ags, List.getElem?_map, List.length_map]
      split
      · rename_i hk
        subst hk
        rw [hid, if_pos (List.getElem?_eq_some_iff.1 hid).1]
        simp [Group.addAttr, List.filter_append]
      · rename_i hk
        cases hk' : ord[k]? with
        | none => rfl
        | some n =>
          have hne : grp a ≠ n := by
            intro e
            rw [← e] at hk'
            exact hk ((List.getElem?_inj (List.getElem?_eq_some_iff.1 hid).1 hn).1 (hid.trans hk'.symm))
          simp [List.filter_append, hne]
    have hkind : ∀ s, kindOf { st.d with
        ags := st.d.ags.set id (Group.addAttr ⟨copyKind t (grp a), as.filter fun b => grp b == grp a, []⟩ a)
        attributes := st.d.attributes ++ [a] } s = kindOf st.d s := by
      intro s
      unfold kindOf
      congr 1
      funext k
      simp only [hset]
      simp only [C.ags, List.getElem?_map]
      cases ord[k]? <;> rfl
    refine ⟨C.agMap, hset, C.free, C.noClass, ?_, ?_⟩
    · simp [C.handles]
    · intro s hs
      rw [hkind]
      rw [List.mem_append, List.mem_singleton] at hs
      rcases hs with hs | rfl
      · exact C.kinds s hs
      · simp only [kindOf, Option.bind_some, h2, Option.map_some]
  · simp only [step]
    rw [h3, h4]
    rfl

theorem copyAttrs_run (pg : Nat) (t : Dense) (ord : List String) (hn : ord.Nodup) (grp : Attr → String) (as : List Attr)
    (hcopy : ∀ a ∈ as, Copyable t ord grp a) (pre : List Attr) (hcomp : ∀ a ∈ pre ++ as, ∀ b ∈ pre ++ as, grp b = grp a → b.compatible a = true)
    (ops : List Op) (st : St) (hrun : run pg ops = Res.ok st) (C : Copied t ord grp pre st) :
    ∃ st', run pg (ops ++ as.map fun a => Op.addTo a (grp a)) = Res.ok st' ∧ copyAttrs t as st.d = Res.ok st'.d ∧
      Copied t ord grp (pre ++ as) st' := by
  induction as generalizing pre ops st with
  | nil => exact ⟨st, by simpa using hrun, rfl, by simpa using C⟩
  | cons a as ih =>
    have K := hcopy a (by simp)
    obtain ⟨q, q1, q2, q3⟩ := C.add (pg := pg) hn K.known fun b hb h => hcomp a (by simp) b (by simp [hb]) h
    obtain ⟨st', r1, r2, r3⟩ := ih (fun b hb => hcopy b (by simp [hb])) (pre ++ [a]) (by simpa using hcomp) (ops ++ [Op.addTo a (grp a)])
      ⟨q.1, st.handles ++ [q.2]⟩ (by rw [run_snoc, hrun, Res.bind_ok, q3]) q2
    refine ⟨st', ?_, ?_, ?_⟩
    · rw [← r1]; simp
    · obtain ⟨s, id, s1, s2, s3⟩ := K.found
      rw [copyAttrs, s1]
      simp only [s2, Option.bind_some, s3, q1]
      exact r2
    · simpa using r3

/-- The name of the group of an attribute. -/
def groupName (t : Dense) (a : Attr) : String :=
  match t.getAttribute a with
  | .ok s => ((s.pond.bind fun id => t.agRevMap.get? id).getD "")
  | _ => ""

theorem groupName_spec {rows : Nat} {t : Dense} (D : DenseOK rows t) {names : List String} (N : GroupNamed t names) {a : Attr} (ha : a ∈ t.allAttributes) :
    ∃ s id g, t.getAttribute a = Res.ok s ∧ s.attr = a ∧ s.pond = some id ∧ t.ags[id]? = some g ∧ a ∈ g.attrs ∧
      t.agRevMap.get? id = some (groupName t a) ∧ names[id]? = some (groupName t a) ∧ g.kind = defaultKind a := by
  obtain ⟨s, h1, h2, _⟩ := D.presents.read a ha
  have h1' : t.getAttribute a = Res.ok s := h1
  have hf := findInGroups_spec a t.ags 0
  rw [Dense.getAttribute] at h1'
  split at h1'
  · rename_i s' hs
    simp only [Res.ok.injEq] at h1'
    subst h1'
    rw [hs] at hf
    obtain ⟨i, g, p1, p2, p3, p4, _⟩ := hf
    rw [Nat.zero_add] at p1
    have hlt : i < names.length := by rw [N.2.1]; exact (List.getElem?_eq_some_iff.1 p2).1
    have hrev : t.agRevMap.get? i = names[i]? := by
      rw [N.2.2.2]
      have := get?_zipIdx_swap names 0 i
      simpa using this
    have hgn : groupName t a = names[i] := by
      have h1'' : t.getAttribute a = Res.ok s' := h1
      rw [groupName, h1'']
      simp only [p1, Option.bind_some, hrev, List.getElem?_eq_getElem hlt, Option.getD_some]
    have hnm : names[i]? = some (groupName t a) := by rw [hgn, List.getElem?_eq_getElem hlt]
    refine ⟨s', i, g, h1, h2, p1, p2, ?_, ?_, hnm, ?_⟩
    · rw [h2] at p3
      exact List.mem_of_getElem? p3
    · rw [hrev, hnm]
    · obtain ⟨hd, W, hs', I, hk⟩ := D
      rw [h2] at p3
      obtain ⟨k, hk'⟩ := I.complete i g s'.position a p2 p3
      have := hk k _ hk'
      simp only [kindOf, Option.bind_some, p2, Option.map_some, Option.some.injEq] at this
      exact this
  · cases h1'

theorem groupSize_spec {t : Dense} {names : List String} (N : GroupNamed t names) {id : Nat} {g : Group} {n : String} (h1 : names[id]? = some n)
    (h2 : t.ags[id]? = some g) (a : Attr) (h3 : g.kind = defaultKind a) : copyKind t n = defaultKind a := by
  have : t.agMap.get? n = some id := by
    rw [N.2.2.1]
    have := get?_zipIdx names N.1 0 id n h1
    simpa using this
  rw [copyKind, groupSize, this, Option.bind_some, h2]
  obtain ⟨k, as, al⟩ := g
  simp only at h3
  subst h3
  unfold defaultKind
  cases a.isBin <;> rfl

/-- The copy of a template whose groups are compatible: the same attributes, in cells that are zero. -/
theorem copyDense_spec (pg : Nat) {rows : Nat} {t : Dense} (D : DenseOK rows t) {names : List String} (N : GroupNamed t names) (K : GroupsCompatible t)
    (ord : List String) (hord : ord.Perm names) (n : Nat) :
    ∃ d, copyDense t ord t.allAttributes = Res.ok d ∧ DenseOK n (d.extend n) ∧ (d.extend n).allAttributes.Perm t.allAttributes ∧
      (d.extend n).classAttrs = [] ∧ ∀ a ∈ t.allAttributes, ∀ r, r < n → (Grid.dense (d.extend n)).cell a r = zeroCell a := by
  have hn : ord.Nodup := hord.symm.nodup N.1
  obtain ⟨st0, r0, e0, C0⟩ := copyGroups_run pg t (groupName t) ord hn
  obtain ⟨st, r1, e1, C1⟩ := copyAttrs_run pg t ord hn (groupName t) t.allAttributes (by
      intro a ha
      obtain ⟨s, id, g, p1, p2, p3, p4, p5, p6, p7, p8⟩ := groupName_spec D N ha
      exact ⟨⟨s, id, p1, p3, p6⟩, hord.symm.subset (List.mem_of_getElem? p7)⟩) [] (by
      rw [List.nil_append]
      intro a ha b hb h
      obtain ⟨s, id, g, p1, p2, p3, p4, p5, p6, p7, p8⟩ := groupName_spec D N ha
      obtain ⟨s', id', g', q1, q2, q3, q4, q5, q6, q7, q8⟩ := groupName_spec D N hb
      rw [h] at q7
      have : id' = id := (List.getElem?_inj (List.getElem?_eq_some_iff.1 q7).1 N.1).1 (q7.trans p7.symm)
      subst this
      rw [q4, Option.some.injEq] at p4
      subst p4
      exact K g' (List.mem_of_getElem? q4) b q5 a p5) _ st0 r0 C0
  rw [List.nil_append] at C1
  set ops := (ord.map fun n => Op.create n (groupSize t n)) ++ t.allAttributes.map fun a => Op.addTo a (groupName t a) with hops
  have hnoext : ∀ k, Op.extend k ∉ ops := by
    intro k hk
    rw [hops, List.mem_append, List.mem_map, List.mem_map] at hk
    rcases hk with ⟨_, _, h⟩ | ⟨_, _, h⟩ <;> cases h
  have hlate : noLateGroupAdd ops := by
    intro pre k post e
    exact absurd (by rw [e]; simp) (hnoext k)
  have h0 : totalRows ops = 0 := by
    have : ∀ l : List Op, (∀ k, Op.extend k ∉ l) → totalRows l = 0 := by
      intro l
      induction l with
      | nil => intro _; rfl
      | cons o l ih =>
        intro h
        have := ih fun k hk => h k (by simp [hk])
        cases o with
        | extend k => exact absurd (by simp) (h k)
        | _ => simpa [totalRows, rowsOf] using this
    exact this ops hnoext
  obtain ⟨I, hW, _⟩ := run_inv pg ops st hlate r1
  have I' := I.extend (n := n) hW
  rw [h0, Nat.zero_add] at I'
  have hall : (st.d.extend n).allAttributes = st.d.allAttributes := by
    simp [Dense.allAttributes, Dense.extend, List.flatMap_map, Group.resize]
  have hperm : (st.d.extend n).allAttributes.Perm t.allAttributes := by
    rw [hall, ← C1.handles]; exact I.listed
  have hkind : ∀ s, kindOf (st.d.extend n) s = kindOf st.d s := by
    intro s
    unfold kindOf
    congr 1
    funext i
    simp only [Dense.extend, List.getElem?_map]
    cases st.d.ags[i]? <;> rfl
  have hdef : ∀ s ∈ st.handles, kindOf st.d s = some (defaultKind s.attr) := by
    intro s hs
    have hm : s.attr ∈ t.allAttributes := by rw [← C1.handles]; exact List.mem_map_of_mem hs
    obtain ⟨_, id, g, p1, p2, p3, p4, p5, p6, p7, p8⟩ := groupName_spec D N hm
    rw [C1.kinds s hs, groupSize_spec N p7 p4 s.attr p8]
  have D' : DenseOK n (st.d.extend n) := by
    refine ⟨distinct_perm hperm.symm D.1, _, _, I', ?_⟩
    intro h s hs
    rw [hkind]
    exact hdef s (List.mem_of_getElem? hs)
  refine ⟨st.d, ?_, D', hperm, C1.noClass, ?_⟩
  · rw [copyDense, ← e0]; exact e1
  · intro a ha r hr
    have hm : a ∈ st.handles.map Spec.attr := by rw [C1.handles]; exact ha
    obtain ⟨s, hs, hsa⟩ := List.mem_map.1 hm
    obtain ⟨h, hgt⟩ := List.getElem?_of_mem hs
    obtain ⟨k, hk, hg⟩ := ((C05_extend pg _ st n hlate r1).2.2.2.2 h s hgt).2 r (by omega) (by omega)
    have hk' := hdef s hs
    rw [hk, Option.some.injEq, hsa] at hk'
    subst hk'
    have hc := dense_cell I' D'.1 hs (r := r) (by omega)
    rw [hsa] at hc
    have hc' : (st.d.extend n).get s r = Res.ok ((Grid.dense (st.d.extend n)).cell a r) := hc
    rw [hg, Res.ok.injEq] at hc'
    rw [← hc', defaultKind, zeroCell]
    split
    · rfl
    · decide

/-! ## Templates that cannot be copied -/

theorem copyAttrs_ne_err (t : Dense) (as : List Attr) (d : Dense) : copyAttrs t as d ≠ Res.err := by
  induction as generalizing d with
  | nil => simp [copyAttrs]
  | cons a as ih =>
    rw [copyAttrs]
    split
    · split
      · simp
      · split
        · exact ih _
        · simp
    · simp

theorem copyAttrs_compatible (t : Dense) (ord : List String) (hn : ord.Nodup) (grp : Attr → String) (as : List Attr)
    (hcopy : ∀ a ∈ as, Copyable t ord grp a) (pre : List Attr) (st : St) (C : Copied t ord grp pre st) (d : Dense)
    (h : copyAttrs t as st.d = Res.ok d) (l1 : List Attr) (c : Attr) (l2 : List Attr) (e : as = l1 ++ c :: l2) (b : Attr) (hb : b ∈ pre ++ l1)
    (hbc : grp b = grp c) : b.compatible c = true := by
  induction as generalizing pre st l1 with
  | nil => simp at e
  | cons a as ih =>
    have K := hcopy a (by simp)
    obtain ⟨s, id, s1, s2, s3⟩ := K.found
    rw [copyAttrs, s1] at h
    simp only [s2, Option.bind_some, s3] at h
    have hca : ∀ b ∈ pre, grp b = grp a → b.compatible a = true := by
      intro b hb hg
      obtain ⟨id', hid⟩ := List.getElem?_of_mem K.known
      have h1 : st.d.agMap.get? (grp a) = some id' := by
        rw [C.agMap]
        have := get?_zipIdx ord hn 0 id' _ hid
        simpa using this
      have h2 : st.d.ags[id']? = some ⟨copyKind t (grp a), pre.filter fun b => grp b == grp a, []⟩ := by
        rw [C.ags, List.getElem?_map, hid]; rfl
      by_contra hc
      have : st.d.addAttributeToGroup a (grp a) = Res.err := by
        unfold Dense.addAttributeToGroup
        simp only [h1, h2]
        rw [if_pos]
        rw [List.any_eq_true]
        exact ⟨b, List.mem_filter.2 ⟨hb, by simpa using hg⟩, by simpa using hc⟩
      rw [this] at h
      cases h
    obtain ⟨q, q1, q2, _⟩ := C.add (pg := 0) hn K.known hca
    rw [q1] at h
    cases l1 with
    | nil =>
      simp only [List.nil_append, List.cons.injEq] at e
      rw [List.append_nil] at hb
      rw [← e.1]
      exact hca b hb (by rw [hbc, e.1])
    | cons a' l1 =>
      simp only [List.cons_append, List.cons.injEq] at e
      exact ih (fun b hb => hcopy b (by simp [hb])) (pre ++ [a]) ⟨q.1, st.handles ++ [q.2]⟩ q2 h l1 e.2 (by rw [e.1]; simpa using hb)

theorem compatible_refl (a : Attr) : a.compatible a = true := by
  obtain ⟨p, b⟩ := a
  cases b <;> simp [Attr.compatible, Attr.sameValues_iff]

theorem compatible_symm {a b : Attr} (h : a.compatible b = true) : b.compatible a = true := by
  obtain ⟨p, x⟩ := a
  obtain ⟨q, y⟩ := b
  cases x <;> cases y <;> simp_all [Attr.compatible, Attr.sameValues_iff]

theorem mem_order {α : Type} {l : List α} {a b : α} (ha : a ∈ l) (hb : b ∈ l) (h : a ≠ b) :
    (∃ l1 l2, l = l1 ++ b :: l2 ∧ a ∈ l1) ∨ ∃ l1 l2, l = l1 ++ a :: l2 ∧ b ∈ l1 := by
  obtain ⟨l1, l2, rfl⟩ := List.append_of_mem ha
  rw [List.mem_append, List.mem_cons] at hb
  rcases hb with hb | rfl | hb
  · exact Or.inr ⟨l1, l2, rfl, hb⟩
  · exact absurd rfl h
  · obtain ⟨m1, m2, rfl⟩ := List.append_of_mem hb
    exact Or.inl ⟨l1 ++ a :: m1, m2, by simp, by simp⟩

/-- A template with incompatible attributes in a group cannot be copied. -/
theorem copyDense_panics {rows : Nat} {t : Dense} (D : DenseOK rows t) {names : List String} (N : GroupNamed t names) (K : ¬ GroupsCompatible t)
    (ord : List String) (hord : ord.Perm names) : copyDense t ord t.allAttributes = Res.panic := by
  have hn : ord.Nodup := hord.symm.nodup N.1
  obtain ⟨st0, r0, e0, C0⟩ := copyGroups_run 0 t (groupName t) ord hn
  have hcopy : ∀ a ∈ t.allAttributes, Copyable t ord (groupName t) a := by
    intro a ha
    obtain ⟨s, id, g, p1, p2, p3, p4, p5, p6, p7, p8⟩ := groupName_spec D N ha
    exact ⟨⟨s, id, p1, p3, p6⟩, hord.symm.subset (List.mem_of_getElem? p7)⟩
  cases hc : copyDense t ord t.allAttributes with
  | panic => rfl
  | err => exact absurd hc (copyAttrs_ne_err _ _ _)
  | ok d =>
    exfalso
    rw [copyDense, ← e0] at hc
    simp only [GroupsCompatible, not_forall] at K
    obtain ⟨g, hg, a, ha, b, hb, hab⟩ := K
    have hall : ∀ x ∈ g.attrs, x ∈ t.allAttributes := fun x hx => List.mem_flatMap.2 ⟨g, hg, hx⟩
    obtain ⟨i, hi⟩ := List.getElem?_of_mem hg
    have hnodup : t.allAttributes.Nodup := distinct_nodup D.1
    have hdisj := (List.nodup_flatMap.1 hnodup).2
    rw [List.pairwise_iff_getElem] at hdisj
    have hname : ∀ x ∈ g.attrs, names[i]? = some (groupName t x) := by
      intro x hx
      obtain ⟨s, id, g', p1, p2, p3, p4, p5, p6, p7, p8⟩ := groupName_spec D N (hall x hx)
      obtain ⟨hi1, hi2⟩ := List.getElem?_eq_some_iff.1 hi
      obtain ⟨hj1, hj2⟩ := List.getElem?_eq_some_iff.1 p4
      have : i = id := by
        rcases Nat.lt_trichotomy i id with h | h | h
        · exact absurd (hdisj i id hi1 hj1 h) (by
            simp only [Function.onFun, hi2, hj2]
            exact fun hd => hd hx p5)
        · exact h
        · exact absurd (hdisj id i hj1 hi1 h) (by
            simp only [Function.onFun, hi2, hj2]
            exact fun hd => hd p5 hx)
      rw [this]; exact p7
    have hgrp : groupName t a = groupName t b := by
      have := (hname a ha).symm.trans (hname b hb)
      simpa using this
    have hne : a ≠ b := by
      rintro rfl
      exact hab (compatible_refl a)
    rcases mem_order (hall a ha) (hall b hb) hne with ⟨l1, l2, e, hm⟩ | ⟨l1, l2, e, hm⟩
    · exact hab (copyAttrs_compatible t ord hn _ _ hcopy [] st0 C0 d hc l1 b l2 e a (by simpa using hm) hgrp)
    · exact hab (compatible_symm (copyAttrs_compatible t ord hn _ _ hcopy [] st0 C0 d hc l1 a l2 e b (by simpa using hm) hgrp.symm))

/-! ## Columns and attributes of the template -/

theorem matchAttr_none {a : Attr} {ts : List Attr} (h : a.name ∉ ts.map Attr.name) : matchAttr a ts = a := by
  have : ∀ (l : List Attr) (acc : Attr), a.name ∉ l.map Attr.name →
      l.foldl (fun acc b => if a.equals b then b else if a.name = b.name then b else acc) acc = acc := by
    intro l
    induction l with
    | nil => intro _ _; rfl
    | cons b l ih =>
      intro acc hl
      simp only [List.map_cons, List.mem_cons, not_or] at hl
      rw [List.foldl_cons, if_neg (fun e => hl.1 (equals_name e)), if_neg hl.1]
      exact ih acc hl.2
  exact this ts a h

theorem matchAttr_some {a b : Attr} {ts : List Attr} (hn : (ts.map Attr.name).Nodup) (hb : b ∈ ts) (h : a.name = b.name) : matchAttr a ts = b := by
  have hnone : ∀ (l : List Attr) (acc : Attr), a.name ∉ l.map Attr.name →
      l.foldl (fun acc b => if a.equals b then b else if a.name = b.name then b else acc) acc = acc := by
    intro l
    induction l with
    | nil => intro _ _; rfl
    | cons b l ih =>
      intro acc hl
      simp only [List.map_cons, List.mem_cons, not_or] at hl
      rw [List.foldl_cons, if_neg (fun e => hl.1 (equals_name e)), if_neg hl.1]
      exact ih acc hl.2
  have : ∀ (l : List Attr) (acc : Attr), (l.map Attr.name).Nodup → b ∈ l →
      l.foldl (fun acc b => if a.equals b then b else if a.name = b.name then b else acc) acc = b := by
    intro l
    induction l with
    | nil => intro _ _ h; cases h
    | cons c l ih =>
      intro acc hl hm
      rw [List.map_cons, List.nodup_cons] at hl
      rw [List.foldl_cons]
      rcases List.mem_cons.1 hm with rfl | hm
      · rw [hnone _ _ (by rw [h]; exact hl.1)]
        simp [h]
      · exact ih _ hl.2 hm
  exact this ts a hn hb

theorem envOf_cat {as : List Attr} (hp : (as.map Attr.ptr).Nodup) {a : Attr} (ha : a ∈ as) {n : String} {vs : List String} (hb : a.body = .cat n vs) :
    envOf as a.ptr = vs := by
  have : as.find? (fun b => b.ptr == a.ptr) = some a := by
    induction as with
    | nil => cases ha
    | cons b as ih =>
      rw [List.map_cons, List.nodup_cons] at hp
      rcases List.mem_cons.1 ha with rfl | ha
      · simp
      · rw [List.find?_cons_of_neg]
        · exact ih hp.2 ha
        · simp only [beq_iff_eq]
          intro e
          exact hp.1 (e ▸ List.mem_map_of_mem ha)
  rw [envOf, this]
  obtain ⟨p, b⟩ := a
  simp only at hb
  subst hb
  rfl

theorem addTemplateClasses_spec {rows : Nat} {d : Dense} (D : DenseOK rows d) (cs : List Attr) (hc : ∀ a ∈ cs, a ∈ d.allAttributes) :
    ∃ d', addTemplateClasses d cs = Res.ok d' ∧ (∃ m, d' = { d with classAttrs := m }) ∧
      ∀ a, a ∈ d'.allClassAttributes ↔ a ∈ cs ∨ a ∈ d.allClassAttributes := by
  induction cs generalizing d with
  | nil => exact ⟨d, rfl, ⟨d.classAttrs, rfl⟩, by simp⟩
  | cons c cs ih =>
    obtain ⟨s, h1, h2, _⟩ := D.presents.read c (hc c (by simp))
    have h1' : d.getAttribute c = Res.ok s := h1
    obtain ⟨d', e, ⟨m, hm⟩, hcl⟩ := ih (d := { d with classAttrs := d.classAttrs.set s true }) (D.withClass _) fun a ha => hc a (by simp [ha])
    refine ⟨d', ?_, ⟨m, by rw [hm]⟩, ?_⟩
    · rw [addTemplateClasses, Dense.addClassAttribute, h1', Res.map_ok, Res.bind_ok]
      exact e
    · intro a
      rw [hcl a, mem_allClassAttributes, mem_allClassAttributes]
      simp only [mem_set_true, List.mem_cons]
      constructor
      · rintro (h | ⟨s', rfl | h, h3⟩)
        · exact Or.inl (Or.inr h)
        · exact Or.inl (Or.inl (by rw [← h3, h2]))
        · exact Or.inr ⟨s', h, h3⟩
      · rintro ((rfl | h) | ⟨s', h, h3⟩)
        · exact Or.inr ⟨s, Or.inl rfl, h2⟩
        · exact Or.inl h
        · exact Or.inr ⟨s', Or.inr h, h3⟩

end Golearn
