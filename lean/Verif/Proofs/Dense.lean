import Verif.Proofs.Group
import Verif.Spec.History

namespace Golearn

namespace GoMap
variable {κ ν : Type} [DecidableEq κ]

theorem get?_set (m : GoMap κ ν) (k k' : κ) (v : ν) :
    (m.set k v).get? k' = if k = k' then some v else m.get? k' := by
  induction m with
  | nil => simp [set, get?]
  | cons p rest ih =>
    obtain ⟨k0, v0⟩ := p
    unfold set
    split
    · rename_i h
      subst h
      simp only [get?]
      split <;> rfl
    · rename_i h
      simp only [get?, ih]
      by_cases h1 : k0 = k'
      · subst h1
        simp [Ne.symm h]
      · simp [h1]

end GoMap

/-- Kind of the group a specification points into. -/
def kindOf (d : Dense) (s : Spec) : Option GKind :=
  s.pond.bind fun id => (d.ags[id]?).map Group.kind

/-- Invariant relating a state to the calls made so far. -/
structure Inv (rows : Nat) (W : Nat → Nat → Option Bytes) (st : St) : Prop where
  hrows : st.d.maxRow = rows
  sized : ∀ (id : Nat) (g : Group), st.d.ags[id]? = some g → g.Sized rows
  unfixed : st.d.fixed = false → rows = 0
  kindpos : ∀ (id : Nat) (g : Group), st.d.ags[id]? = some g → g.kind ≠ .fixed 0
  agmap : ∀ (name : String) (id : Nat), st.d.agMap.get? name = some id → ∃ g, st.d.ags[id]? = some g
  valid : ∀ (h : Nat) (s : Spec), st.handles[h]? = some s → ∃ (id : Nat) (g : Group), s.pond = some id ∧ st.d.ags[id]? = some g ∧
    g.attrs[s.position]? = some s.attr
  inj : ∀ (h h' : Nat) (s s' : Spec), st.handles[h]? = some s → st.handles[h']? = some s' →
    s.pond = s'.pond → s.position = s'.position → h = h'
  complete : ∀ (id : Nat) (g : Group) (p : Nat) (a : Attr), st.d.ags[id]? = some g → g.attrs[p]? = some a →
    ∃ h : Nat, st.handles[h]? = some ⟨some id, p, a⟩
  listed : st.d.allAttributes.Perm (st.handles.map Spec.attr)
  cells : ∀ (h : Nat) (s : Spec) (r : Nat), st.handles[h]? = some s → r < rows →
    ∃ k, kindOf st.d s = some k ∧ st.d.get s r = Res.ok (cellValue k (W h r))

theorem Inv.init : Inv 0 (fun _ _ => none) St.init := by
  constructor <;> simp [St.init, Dense.new, Dense.allAttributes, GoMap.get?]

theorem flatMap_set_perm (ags : List Group) (id : Nat) (g : Group) (a : Attr)
    (h : ags[id]? = some g) :
    ((ags.set id (g.addAttr a)).flatMap (·.attrs)).Perm (ags.flatMap (·.attrs) ++ [a]) := by
  induction ags generalizing id with
  | nil => simp at h
  | cons x xs ih =>
    cases id with
    | zero =>
      simp only [List.getElem?_cons_zero, Option.some.injEq] at h
      subst h
      simp only [List.set_cons_zero, List.flatMap_cons, Group.addAttr, List.append_assoc]
      exact List.Perm.append_left _ List.perm_append_comm
    | succ n =>
      simp only [List.getElem?_cons_succ] at h
      simp only [List.set_cons_succ, List.flatMap_cons, List.append_assoc]
      exact List.Perm.append_left _ (ih n h)

theorem pushAttr_ok {d : Dense} {id : Nat} {a : Attr} {g : Group} (h : d.ags[id]? = some g) :
    d.pushAttr id a = Res.ok (
      { d with ags := d.ags.set id (g.addAttr a), attributes := d.attributes ++ [a] },
      ⟨some id, g.attrs.length, a⟩) := by
  simp [Dense.pushAttr, h]

theorem getElem?_set_some {α : Type} {l : List α} {i j : Nat} {x y z : α} (h : l[i]? = some z)
    (h2 : (l.set i x)[j]? = some y) : (i = j ∧ y = x) ∨ (i ≠ j ∧ l[j]? = some y) := by
  by_cases hij : i = j
  · subst hij
    rw [List.getElem?_set_self (by
      rcases List.getElem?_eq_some_iff.1 h with ⟨hl, _⟩; exact hl)] at h2
    left; exact ⟨rfl, (Option.some.inj h2).symm⟩
  · right
    rw [List.getElem?_set_ne hij] at h2
    exact ⟨hij, h2⟩

theorem Inv.push {W : Nat → Nat → Option Bytes} {st : St} {d' : Dense} {id : Nat} {a : Attr}
    {g : Group} (I : Inv 0 W st) (hg : st.d.ags[id]? = some g)
    (hags : d'.ags = st.d.ags.set id (g.addAttr a)) (hmax : d'.maxRow = st.d.maxRow)
    (hmap : d'.agMap = st.d.agMap) :
    Inv 0 W ⟨d', st.handles ++ [⟨some id, g.attrs.length, a⟩]⟩ := by
  have hidl : id < st.d.ags.length := (List.getElem?_eq_some_iff.1 hg).1
  constructor
  · simpa [hmax] using I.hrows
  · intro id' g' h
    simp only [hags] at h
    rcases getElem?_set_some hg h with ⟨_, e⟩ | ⟨_, e⟩
    · have := I.sized _ _ hg
      subst e
      simpa [Group.Sized, Group.addAttr] using this
    · exact I.sized _ _ e
  · intro _; rfl
  · intro id' g' h
    simp only [hags] at h
    rcases getElem?_set_some hg h with ⟨_, e⟩ | ⟨_, e⟩
    · subst e; exact I.kindpos id g hg
    · exact I.kindpos _ _ e
  · intro name id' h
    simp only [hmap] at h
    obtain ⟨g', hg'⟩ := I.agmap _ _ h
    simp only [hags]
    have : id' < (st.d.ags.set id (g.addAttr a)).length := by
      simpa using (List.getElem?_eq_some_iff.1 hg').1
    exact ⟨_, List.getElem?_eq_getElem this⟩
  · intro h s hs
    rw [List.getElem?_append] at hs
    split at hs
    · obtain ⟨i, g', h1, h2, h3⟩ := I.valid _ _ hs
      by_cases hi : id = i
      · subst hi
        refine ⟨id, g.addAttr a, h1, ?_, ?_⟩
        · simp [hags, hidl]
        · have : g' = g := by rw [hg] at h2; exact (Option.some.inj h2).symm
          subst this
          simp only [Group.addAttr]
          rw [List.getElem?_append_left (List.getElem?_eq_some_iff.1 h3).1]
          exact h3
      · refine ⟨i, g', h1, ?_, h3⟩
        simp only [hags]
        rw [List.getElem?_set_ne hi]; exact h2
    · have hz : h - st.handles.length = 0 := by
        by_cases hz : h - st.handles.length = 0
        · exact hz
        · rw [List.getElem?_eq_none (by simp; omega)] at hs; simp at hs
      rw [hz] at hs
      simp only [List.getElem?_cons_zero, Option.some.injEq] at hs
      subst hs
      exact ⟨id, g.addAttr a, rfl, by simp [hags, hidl], by simp [Group.addAttr]⟩
  · intro h h' s s' hs hs' e1 e2
    have old : ∀ (k : Nat) (t : Spec), st.handles[k]? = some t → ¬ (t.pond = some id ∧ t.position = g.attrs.length) := by
      intro k t ht ⟨q1, q2⟩
      obtain ⟨i, g', h1, h2, h3⟩ := I.valid _ _ ht
      rw [q1] at h1
      have : i = id := (Option.some.inj h1).symm
      subst this
      rw [hg] at h2
      have : g' = g := (Option.some.inj h2).symm
      subst this
      rw [q2] at h3
      simp at h3
    have cases_ : ∀ (k : Nat) (t : Spec), (st.handles ++ [⟨some id, g.attrs.length, a⟩])[k]? = some t →
        (st.handles[k]? = some t) ∨ (k = st.handles.length ∧ t = ⟨some id, g.attrs.length, a⟩) := by
      intro k t ht
      rw [List.getElem?_append] at ht
      split at ht
      · left; exact ht
      · right
        have hz : k - st.handles.length = 0 := by
          by_cases hz : k - st.handles.length = 0
          · exact hz
          · rw [List.getElem?_eq_none (by simp; omega)] at ht; simp at ht
        rw [hz] at ht
        simp only [List.getElem?_cons_zero, Option.some.injEq] at ht
        exact ⟨by omega, ht.symm⟩
    rcases cases_ _ _ hs with c | ⟨c, ct⟩ <;> rcases cases_ _ _ hs' with c' | ⟨c', ct'⟩
    · exact I.inj _ _ _ _ c c' e1 e2
    · subst ct'; exact absurd ⟨e1, e2⟩ (old _ _ c)
    · subst ct; exact absurd ⟨e1.symm, e2.symm⟩ (old _ _ c')
    · omega
  · intro id' g' p b hid hp
    simp only [hags] at hid
    rcases getElem?_set_some hg hid with ⟨e, eg⟩ | ⟨_, e⟩
    · subst e; subst eg
      simp only [Group.addAttr] at hp
      rw [List.getElem?_append] at hp
      split at hp
      · obtain ⟨h, hh⟩ := I.complete _ _ _ _ hg hp
        exact ⟨h, by rw [List.getElem?_append_left (List.getElem?_eq_some_iff.1 hh).1]; exact hh⟩
      · have hz : p - g.attrs.length = 0 := by
          by_cases hz : p - g.attrs.length = 0
          · exact hz
          · rw [List.getElem?_eq_none (by simp; omega)] at hp; simp at hp
        rw [hz] at hp
        simp only [List.getElem?_cons_zero, Option.some.injEq] at hp
        subst hp
        have : p = g.attrs.length := by omega
        subst this
        exact ⟨st.handles.length, by simp⟩
    · obtain ⟨h, hh⟩ := I.complete _ _ _ _ e hp
      exact ⟨h, by rw [List.getElem?_append_left (List.getElem?_eq_some_iff.1 hh).1]; exact hh⟩
  · simp only [Dense.allAttributes, hags, List.map_append, List.map_cons, List.map_nil]
    exact (flatMap_set_perm _ _ _ _ hg).trans (List.Perm.append_right _ I.listed)
  · intro h s r _ hr
    omega

theorem createGroup_ok {d d' : Dense} {name : String} {size : Nat}
    (h : d.createGroup name size = Res.ok d') :
    d.fixed = false ∧ d'.fixed = d.fixed ∧ d'.maxRow = d.maxRow ∧ d'.classAttrs = d.classAttrs ∧
      d'.attributes = d.attributes ∧
      d'.agMap = d.agMap.set name d.ags.length ∧
      d'.ags = d.ags ++ [if size ≠ 0 then ⟨.fixed size, [], []⟩ else ⟨.binary, [], []⟩] := by
  unfold Dense.createGroup at h
  split at h
  · cases h
  · rename_i hf
    simp only [Res.ok.injEq] at h
    subst h
    simp [hf]

theorem Inv.create {W : Nat → Nat → Option Bytes} {rows : Nat} {d d' : Dense} {hs : List Spec}
    {name : String} {size : Nat} (I : Inv rows W ⟨d, hs⟩)
    (h : d.createGroup name size = Res.ok d') : Inv rows W ⟨d', hs⟩ := by
  obtain ⟨hf, hf', hm, _, _, hmap, hags⟩ := createGroup_ok h
  have r0 : rows = 0 := I.unfixed hf
  subst r0
  have hget : ∀ (id : Nat) (g : Group), d'.ags[id]? = some g → d.ags[id]? = some g ∨
      (id = d.ags.length ∧ g = (if size ≠ 0 then ⟨.fixed size, [], []⟩ else ⟨.binary, [], []⟩)) := by
    intro id g hg
    rw [hags, List.getElem?_append] at hg
    split at hg
    · left; exact hg
    · right
      have hz : id - d.ags.length = 0 := by
        by_cases hz : id - d.ags.length = 0
        · exact hz
        · rw [List.getElem?_eq_none (by simp; omega)] at hg; simp at hg
      rw [hz] at hg
      simp only [List.getElem?_cons_zero, Option.some.injEq] at hg
      exact ⟨by omega, hg.symm⟩
  have hkeep : ∀ (id : Nat) (g : Group), d.ags[id]? = some g → d'.ags[id]? = some g := by
    intro id g hg
    rw [hags, List.getElem?_append_left (List.getElem?_eq_some_iff.1 hg).1]; exact hg
  constructor
  · exact hm.trans I.hrows
  · intro id g hg
    rcases hget _ _ hg with e | ⟨_, e⟩
    · exact I.sized _ _ e
    · subst e; by_cases hz : size = 0 <;> simp [Group.Sized, hz]
  · intro _; rfl
  · intro id g hg
    rcases hget _ _ hg with e | ⟨_, e⟩
    · exact I.kindpos _ _ e
    · subst e; by_cases hz : size = 0 <;> simp [hz]
  · intro nm id hn
    simp only [hmap, GoMap.get?_set] at hn
    split at hn
    · simp only [Option.some.injEq] at hn
      subst hn
      exact ⟨_, by simp only [hags]; rw [List.getElem?_append_right (by omega)]; simp; rfl⟩
    · obtain ⟨g, hg⟩ := I.agmap _ _ hn
      exact ⟨g, hkeep _ _ hg⟩
  · intro h s hh
    obtain ⟨i, g', h1, h2, h3⟩ := I.valid _ _ hh
    exact ⟨i, g', h1, hkeep _ _ h2, h3⟩
  · exact I.inj
  · intro id g p a hg hp
    rcases hget _ _ hg with e | ⟨_, e⟩
    · exact I.complete _ _ _ _ e hp
    · subst e; by_cases hz : size = 0 <;> simp [hz] at hp
  · have := I.listed
    simp only [Dense.allAttributes, hags, List.flatMap_append] at this ⊢
    by_cases hz : size = 0 <;> simpa [hz] using this
  · intro h s r _ hr
    omega

theorem Inv.extend {W : Nat → Nat → Option Bytes} {rows n : Nat} {st : St}
    (I : Inv rows W st) (hW : ∀ h r, rows ≤ r → W h r = none) :
    Inv (rows + n) W ⟨st.d.extend n, st.handles⟩ := by
  have hget : ∀ (id : Nat) (g : Group), (st.d.extend n).ags[id]? = some g →
      ∃ g0, st.d.ags[id]? = some g0 ∧ g = g0.resize (n * g0.rowSize) := by
    intro id g hg
    simp only [Dense.extend, List.getElem?_map, Option.map_eq_some_iff] at hg
    obtain ⟨g0, h1, h2⟩ := hg
    exact ⟨g0, h1, h2.symm⟩
  have hput : ∀ (id : Nat) (g : Group), st.d.ags[id]? = some g →
      (st.d.extend n).ags[id]? = some (g.resize (n * g.rowSize)) := by
    intro id g hg
    simp [Dense.extend, hg]
  constructor
  · simp [Dense.extend, I.hrows]
  · intro id g hg
    obtain ⟨g0, h1, h2⟩ := hget _ _ hg
    subst h2
    exact Group.resize_sized (I.sized _ _ h1)
  · intro hf; simp [Dense.extend] at hf
  · intro id g hg
    obtain ⟨g0, h1, h2⟩ := hget _ _ hg
    subst h2
    exact I.kindpos id g0 h1
  · intro nm id hn
    obtain ⟨g, hg⟩ := I.agmap _ _ hn
    exact ⟨_, hput _ _ hg⟩
  · intro h s hh
    obtain ⟨i, g', h1, h2, h3⟩ := I.valid _ _ hh
    exact ⟨i, _, h1, hput _ _ h2, h3⟩
  · exact I.inj
  · intro id g p a hg hp
    obtain ⟨g0, h1, h2⟩ := hget _ _ hg
    subst h2
    exact I.complete _ _ _ _ h1 hp
  · have := I.listed
    simpa [Dense.allAttributes, Dense.extend, List.flatMap_map, Group.resize] using this
  · intro h s r hh hr
    obtain ⟨i, g, h1, h2, h3⟩ := I.valid _ _ hh
    have hc : s.position < g.attrs.length := (List.getElem?_eq_some_iff.1 h3).1
    have hk : kindOf (st.d.extend n) s = some g.kind := by
      simp [kindOf, h1, hput _ _ h2, Group.resize]
    refine ⟨g.kind, hk, ?_⟩
    have hgetd : (st.d.extend n).get s r = (g.resize (n * g.rowSize)).get s.position r := by
      simp [Dense.get, h1, hput _ _ h2]
    rw [hgetd]
    by_cases hlt : r < rows
    · rw [Group.get_resize_old (I.sized _ _ h2) hc hlt]
      obtain ⟨k, hk1, hk2⟩ := I.cells _ _ _ hh hlt
      have : k = g.kind := by
        simp [kindOf, h1, h2] at hk1; exact hk1.symm
      subst this
      simpa [Dense.get, h1, h2] using hk2
    · rw [Group.get_resize_new (I.sized _ _ h2) hc (by omega) hr, hW _ _ (by omega)]

/-- Update of the abstract cell map by one write. -/
def updW (W : Nat → Nat → Option Bytes) (h row : Nat) (v : Bytes) : Nat → Nat → Option Bytes :=
  fun h' r' => if h = h' ∧ row = r' then some v else W h' r'

theorem dense_set_ok {W : Nat → Nat → Option Bytes} {rows row h : Nat} {st : St} {s : Spec}
    {d' : Dense} {v : Bytes}
    (I : Inv rows W st) (hs : st.handles[h]? = some s) (hset : st.d.set s row v = Res.ok d') :
    ∃ id g g', s.pond = some id ∧ st.d.ags[id]? = some g ∧ s.position < g.attrs.length ∧
      row < rows ∧ acceptable g.kind v ∧ g.set s.position row v = Res.ok g' ∧
      d' = { st.d with ags := st.d.ags.set id g' } := by
  obtain ⟨id, g, h1, h2, h3⟩ := I.valid _ _ hs
  have hc : s.position < g.attrs.length := (List.getElem?_eq_some_iff.1 h3).1
  simp only [Dense.set, h1, h2, Res.map_eq_ok] at hset
  obtain ⟨g', hg', e⟩ := hset
  refine ⟨id, g, g', h1, h2, hc, ?_, ?_, hg', e.symm⟩
  · by_cases hr : row < rows
    · exact hr
    · rw [Group.set_panic_row (I.sized _ _ h2) (by omega) (I.kindpos _ _ h2)] at hg'
      cases hg'
  · by_cases hv : acceptable g.kind v
    · exact hv
    · rw [Group.set_panic_value hv] at hg'
      cases hg'

theorem Inv.set {W : Nat → Nat → Option Bytes} {rows row h : Nat} {st : St} {s : Spec} {d' : Dense}
    {v : Bytes}
    (I : Inv rows W st) (hs : st.handles[h]? = some s) (hset : st.d.set s row v = Res.ok d') :
    row < rows ∧ Inv rows (updW W h row v) ⟨d', st.handles⟩ := by
  obtain ⟨id, g, g', h1, h2, hc, hr, hv, hg', e⟩ := dense_set_ok I hs hset
  refine ⟨hr, ?_⟩
  obtain ⟨g'', hg'', hkind, hattrs, hsz, hsame, hother⟩ :=
    Group.set_spec (I.sized _ _ h2) hc hr hv
  rw [hg'] at hg''
  have : g' = g'' := by simpa using hg''
  subst this
  have hidl : id < st.d.ags.length := (List.getElem?_eq_some_iff.1 h2).1
  have hget : ∀ (i : Nat) (x : Group), d'.ags[i]? = some x →
      (id = i ∧ x = g') ∨ (id ≠ i ∧ st.d.ags[i]? = some x) := by
    intro i x hx
    rw [e] at hx
    exact getElem?_set_some h2 hx
  have hput : ∀ (i : Nat) (x : Group), st.d.ags[i]? = some x →
      ∃ x', d'.ags[i]? = some x' ∧ x'.kind = x.kind ∧ x'.attrs = x.attrs := by
    intro i x hx
    by_cases hi : id = i
    · subst hi
      have : x = g := by rw [h2] at hx; exact (Option.some.inj hx).symm
      subst this
      exact ⟨g', by rw [e]; simp [hidl], hkind, hattrs⟩
    · exact ⟨x, by rw [e]; simp [List.getElem?_set_ne hi, hx], rfl, rfl⟩
  constructor
  · rw [e]; exact I.hrows
  · intro i x hx
    rcases hget _ _ hx with ⟨_, ex⟩ | ⟨_, ex⟩
    · subst ex; exact hsz
    · exact I.sized _ _ ex
  · rw [e]; exact I.unfixed
  · intro i x hx
    rcases hget _ _ hx with ⟨_, ex⟩ | ⟨_, ex⟩
    · subst ex; rw [hkind]; exact I.kindpos _ _ h2
    · exact I.kindpos _ _ ex
  · intro nm i hn
    rw [e] at hn
    obtain ⟨x, hx⟩ := I.agmap _ _ hn
    obtain ⟨x', hx', _⟩ := hput _ _ hx
    exact ⟨x', hx'⟩
  · intro k t ht
    obtain ⟨i, x, q1, q2, q3⟩ := I.valid _ _ ht
    obtain ⟨x', hx', _, ha⟩ := hput _ _ q2
    exact ⟨i, x', q1, hx', by rw [ha]; exact q3⟩
  · exact I.inj
  · intro i x p a hx hp
    rcases hget _ _ hx with ⟨ei, ex⟩ | ⟨_, ex⟩
    · subst ei; subst ex
      rw [hattrs] at hp
      exact I.complete _ _ _ _ h2 hp
    · exact I.complete _ _ _ _ ex hp
  · have hl := I.listed
    have : d'.allAttributes = st.d.allAttributes := by
      rw [e]
      simp only [Dense.allAttributes]
      apply congrArg List.flatten
      apply List.ext_getElem?
      intro i
      simp only [List.getElem?_map]
      by_cases hi : id = i
      · subst hi
        simp [hidl, h2, hattrs]
        rw [List.getElem?_eq_getElem hidl] at h2
        simp only [Option.some.injEq] at h2
        rw [h2]
      · rw [List.getElem?_set_ne hi]
    simpa [this] using hl
  · intro k t r ht hrr
    obtain ⟨i, x, q1, q2, q3⟩ := I.valid _ _ ht
    obtain ⟨kk, hk1, hk2⟩ := I.cells _ _ _ ht hrr
    have hcx : t.position < x.attrs.length := (List.getElem?_eq_some_iff.1 q3).1
    by_cases hi : id = i
    · subst hi
      have hxg : x = g := by rw [h2] at q2; exact (Option.some.inj q2).symm
      subst hxg
      have hkk : kk = x.kind := by simp [kindOf, q1, q2] at hk1; exact hk1.symm
      subst hkk
      have hd' : d'.ags[id]? = some g' := by rw [e]; simp [hidl]
      refine ⟨x.kind, by simp [kindOf, q1, hd', hkind], ?_⟩
      simp only [Dense.get, q1, hd']
      by_cases hp : h = k ∧ row = r
      · obtain ⟨hp1, hp2⟩ := hp
        subst hp1; subst hp2
        rw [hs] at ht
        have : s = t := Option.some.inj ht
        subst this
        simp only [updW, and_self, if_true]
        exact hsame
      · have hne : (t.position, r) ≠ (s.position, row) := by
          intro hh
          simp only [Prod.mk.injEq] at hh
          apply hp
          exact ⟨I.inj _ _ _ _ hs ht (by rw [h1, q1]) hh.1.symm, hh.2.symm⟩
        rw [hother _ _ hcx hrr hne]
        simp only [updW, if_neg hp]
        simpa [Dense.get, q1, q2] using hk2
    · have hd' : d'.ags[i]? = some x := by rw [e]; simp [List.getElem?_set_ne hi, q2]
      refine ⟨kk, by simpa [kindOf, q1, hd', q2] using hk1, ?_⟩
      have hp : ¬ (h = k ∧ row = r) := by
        intro ⟨hh, _⟩
        subst hh
        rw [hs] at ht
        have : s = t := Option.some.inj ht
        subst this
        rw [h1] at q1
        exact hi (Option.some.inj q1)
      simp only [updW, if_neg hp]
      simpa [Dense.get, q1, hd', q2] using hk2

/-- Changing only class attributes or counters does not disturb the invariant. -/
theorem Inv.congr {W : Nat → Nat → Option Bytes} {rows : Nat} {d d' : Dense} {hs : List Spec}
    (I : Inv rows W ⟨d, hs⟩) (h1 : d'.ags = d.ags) (h2 : d'.maxRow = d.maxRow)
    (h3 : d'.fixed = d.fixed) (h4 : d'.agMap = d.agMap) : Inv rows W ⟨d', hs⟩ := by
  constructor
  · rw [h2]; exact I.hrows
  · simp only [h1]; exact I.sized
  · rw [h3]; exact I.unfixed
  · simp only [h1]; exact I.kindpos
  · simp only [h1, h4]; exact I.agmap
  · simp only [h1]; exact I.valid
  · exact I.inj
  · simp only [h1]; exact I.complete
  · simp only [Dense.allAttributes, h1]; exact I.listed
  · simp only [kindOf, Dense.get, h1]; exact I.cells

theorem chooseGroup_frame (pg : Nat) (d : Dense) (a : Attr) :
    (d.chooseGroup pg a).1.ags = d.ags ∧ (d.chooseGroup pg a).1.maxRow = d.maxRow ∧
    (d.chooseGroup pg a).1.fixed = d.fixed ∧ (d.chooseGroup pg a).1.agMap = d.agMap ∧
    (d.chooseGroup pg a).1.classAttrs = d.classAttrs := by
  unfold Dense.chooseGroup
  cases a.body <;> simp

theorem Inv.add {W : Nat → Nat → Option Bytes} {rows pg : Nat} {st : St} {a : Attr}
    {p : Dense × Spec} (I : Inv rows W st) (h : st.d.addAttribute pg a = Res.ok p) :
    st.d.fixed = false ∧ p.1.fixed = false ∧ p.2.attr = a ∧
      Inv rows W ⟨p.1, st.handles ++ [p.2]⟩ := by
  unfold Dense.addAttribute at h
  split at h
  · cases h
  · rename_i hf
    have hf : st.d.fixed = false := by simpa using hf
    have r0 : rows = 0 := I.unfixed hf
    subst r0
    obtain ⟨c1, c2, c3, c4, _⟩ := chooseGroup_frame pg st.d a
    generalize hcg : st.d.chooseGroup pg a = cg at h c1 c2 c3 c4
    obtain ⟨d1, ag, isBin⟩ := cg
    simp only at h c1 c2 c3 c4
    have I1 : Inv 0 W ⟨d1, st.handles⟩ := Inv.congr (d := st.d) I c1 c2 c3 c4
    rw [Res.bind_eq_ok] at h
    obtain ⟨d2, hd2, h⟩ := h
    have hd2f : d2.fixed = false ∧ Inv 0 W ⟨d2, st.handles⟩ := by
      split at hd2
      · simp only [Res.ok.injEq] at hd2
        subst hd2; exact ⟨by rw [c3]; exact hf, I1⟩
      · obtain ⟨f1, f2, _⟩ := createGroup_ok hd2
        exact ⟨by rw [f2]; exact f1, I1.create hd2⟩
    obtain ⟨hf2, I2⟩ := hd2f
    split at h
    · cases h
    · rename_i id hid
      obtain ⟨g, hg⟩ := I2.agmap _ _ hid
      rw [pushAttr_ok hg] at h
      simp only [Res.ok.injEq] at h
      subst h
      exact ⟨hf, hf2, rfl, I2.push (st := ⟨d2, st.handles⟩) hg rfl rfl rfl⟩

theorem Inv.addTo {W : Nat → Nat → Option Bytes} {rows : Nat} {st : St} {a : Attr} {ag : String}
    {p : Dense × Spec} (I : Inv rows W st) (h : st.d.addAttributeToGroup a ag = Res.ok p)
    (hf : st.d.fixed = false) :
    p.1.fixed = false ∧ p.2.attr = a ∧ Inv rows W ⟨p.1, st.handles ++ [p.2]⟩ := by
  have r0 : rows = 0 := I.unfixed hf
  subst r0
  unfold Dense.addAttributeToGroup at h
  split at h
  · cases h
  · rename_i id hid
    obtain ⟨g, hg⟩ := I.agmap _ _ hid
    rw [hg] at h
    simp only at h
    split at h
    · cases h
    · rw [pushAttr_ok hg] at h
      simp only [Res.ok.injEq] at h
      subst h
      exact ⟨hf, rfl, I.push hg rfl rfl rfl⟩

theorem absorb_ok {st st' : St} {r : Res St} (h : absorb st r = Res.ok st') :
    st' = st ∨ r = Res.ok st' := by
  cases r with
  | ok x => simp only [absorb] at h; right; exact h
  | err => simp only [absorb, Res.ok.injEq] at h; left; exact h.symm
  | panic => simp [absorb] at h

end Golearn
