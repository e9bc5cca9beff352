import Verif.Proofs.Memory
import Verif.Spec.Sharing

/-! # Lemmas on client histories with shared memory -/

namespace Golearn

/-- No two groups share an array, and a slice into a table's array was handed out by that table. -/
structure World.Inv (w : World) : Prop where
  ok : TablesOk w.tables w.mem
  sep : ∀ (i j : Nat) (t u : HTable) (b : Nat), w.tables[i]? = some t → w.tables[j]? = some u →
    b ∈ t.bufs → b ∈ u.bufs → i = j
  inb : ∀ h ∈ w.held, InB w.mem h.slice
  own : ∀ h ∈ w.held, ∀ (i : Nat) (t : HTable), w.tables[i]? = some t → h.slice.buf ∈ t.bufs →
    h.source = some i
  same : ∀ h ∈ w.held, ∀ h' ∈ w.held, h.slice.buf = h'.slice.buf → h.source = h'.source

theorem tableAt_some {ts : List HTable} {i : Nat} {t : HTable} (h : ts[i]? = some t) :
    tableAt ts i = t := by simp [tableAt, h]

/-- The arrays a step may write to. -/
def MOp.writes (w : World) : MOp → Nat → Prop
  | .set i _ _ _, b => b ∈ (tableAt w.tables i).bufs
  | .swap i _ _, b => b ∈ (tableAt w.tables i).bufs
  | .poke k _, b => ∃ h, w.held[k]? = some h ∧ b = h.slice.buf
  | _, _ => False

/-- The table a step gives a new structure or new storage. -/
def MOp.rebuilds : MOp → Option Nat
  | .build i _ => some i
  | .extend i _ => some i
  | _ => none

/-- What one step does to memory. -/
structure Effect (w : World) (op : MOp) (w' : World) : Prop where
  inv : w'.Inv
  ext : Ext (op.writes w) w.mem w'.mem
  held : ∃ new, w'.held = w.held ++ new ∧ ∀ h ∈ new, w.mem.length ≤ h.slice.buf ∨
    ∃ (i : Nat) (t : HTable), w.tables[i]? = some t ∧ h.slice.buf ∈ t.bufs
  tables : ∀ (j : Nat) (t : HTable), w.tables[j]? = some t → op.rebuilds ≠ some j →
    w'.tables[j]? = some t
  fresh : ∀ (j : Nat) (t' : HTable) (b : Nat), w'.tables[j]? = some t' → b ∈ t'.bufs →
    w.mem.length ≤ b ∨ ∃ t, w.tables[j]? = some t ∧ b ∈ t.bufs
  count : w.tables.length ≤ w'.tables.length

/-- Steps that change tables or memory but hand out nothing. -/
theorem inv_tables {w : World} (I : w.Inv) (S : Nat → Prop) (m' : Mem) (ts' : List HTable) (j0 : Nat)
    (e : Ext S w.mem m') (ok : TablesOk ts' m')
    (fresh : ∀ (j : Nat) (t' : HTable) (b : Nat), ts'[j]? = some t' → b ∈ t'.bufs →
      (∃ t, w.tables[j]? = some t ∧ b ∈ t.bufs) ∨ (w.mem.length ≤ b ∧ j = j0)) :
    World.Inv ⟨m', ts', w.held⟩ := by
  have lt : ∀ (j : Nat) (t : HTable) (b : Nat), w.tables[j]? = some t → b ∈ t.bufs → b < w.mem.length :=
    fun j t b h hb => (I.ok t (List.mem_of_getElem? h)).valid b hb
  refine ⟨ok, ?_, ?_, ?_, I.same⟩
  · intro i j t u b ht hu hbt hbu
    rcases fresh i t b ht hbt with ⟨t0, ht0, hb0⟩ | ⟨hb0, rfl⟩
    · rcases fresh j u b hu hbu with ⟨u0, hu0, hb1⟩ | ⟨hb1, rfl⟩
      · exact I.sep i j t0 u0 b ht0 hu0 hb0 hb1
      · have := lt _ _ _ ht0 hb0; omega
    · rcases fresh j u b hu hbu with ⟨u0, hu0, hb1⟩ | ⟨hb1, rfl⟩
      · have := lt _ _ _ hu0 hb1; omega
      · rfl
  · exact fun h hh => (I.inb h hh).ext e
  · intro h hh i t ht hb
    rcases fresh i t _ ht hb with ⟨t0, ht0, hb0⟩ | ⟨hb0, rfl⟩
    · exact I.own h hh i t0 ht0 hb0
    · have := (I.inb h hh).1; omega

/-- Steps that hand out one slice. -/
theorem inv_held {w : World} (I : w.Inv) (m' : Mem) (h : Held) (g : Grow w.mem m')
    (hin : InB m' h.slice)
    (hown : w.mem.length ≤ h.slice.buf ∨
      ∃ (i : Nat) (t : HTable), w.tables[i]? = some t ∧ h.slice.buf ∈ t.bufs ∧ h.source = some i) :
    World.Inv ⟨m', w.tables, w.held ++ [h]⟩ := by
  have ownH : ∀ (i : Nat) (t : HTable), w.tables[i]? = some t → h.slice.buf ∈ t.bufs →
      h.source = some i := by
    intro i t ht hb
    rcases hown with hge | ⟨j, u, hu, hbu, hs⟩
    · have := (I.ok t (List.mem_of_getElem? ht)).valid _ hb; omega
    · rw [I.sep i j t u _ ht hu hb hbu]; exact hs
  have sameH : ∀ h' ∈ w.held, h'.slice.buf = h.slice.buf → h'.source = h.source := by
    intro h' hh' e
    rcases hown with hge | ⟨j, u, hu, hbu, hs⟩
    · have := (I.inb h' hh').1; omega
    · rw [hs]; exact I.own h' hh' j u hu (e ▸ hbu)
  refine ⟨I.ok.ext g, I.sep, ?_, ?_, ?_⟩
  · intro h' hh'
    rcases List.mem_append.1 hh' with hh' | hh'
    · exact (I.inb h' hh').ext g
    · rw [List.mem_singleton] at hh'; subst hh'; exact hin
  · intro h' hh'
    rcases List.mem_append.1 hh' with hh' | hh'
    · exact I.own h' hh'
    · rw [List.mem_singleton] at hh'; subst hh'; exact ownH
  · intro a ha b hb e
    rcases List.mem_append.1 ha with ha | ha <;> rcases List.mem_append.1 hb with hb | hb
    · exact I.same a ha b hb e
    · rw [List.mem_singleton.1 hb] at e ⊢; exact sameH a ha e
    · rw [List.mem_singleton.1 ha] at e ⊢; exact (sameH b hb e.symm).symm
    · rw [List.mem_singleton.1 ha, List.mem_singleton.1 hb]

/-- Structural calls leave the stored bytes alone; new groups start empty. -/
theorem build_allocs (pg : Nat) {d d' : Dense} (b : Build) (h : b.apply pg d = Res.ok d') :
    ∃ k, d'.ags.map Group.alloc = d.ags.map Group.alloc ++ List.replicate k [] := by
  have push : ∀ (e : Dense) (id : Nat) (a : Attr) (p : Dense × Spec), e.pushAttr id a = Res.ok p →
      p.1.ags.map Group.alloc = e.ags.map Group.alloc := by
    intro e id a p hp
    unfold Dense.pushAttr at hp
    split at hp
    · cases hp
    · rename_i g hg
      cases hp
      simp only
      apply List.ext_getElem
      · simp
      · intro i h1 h2
        simp only [List.getElem_map, List.getElem_set]
        split
        · rename_i e'
          subst e'
          rw [List.getElem?_eq_some_iff] at hg
          obtain ⟨_, rfl⟩ := hg
          rfl
        · rfl
  have crea : ∀ (e e' : Dense) (name : String) (size : Nat), e.createGroup name size = Res.ok e' →
      e'.ags.map Group.alloc = e.ags.map Group.alloc ++ List.replicate 1 [] := by
    intro e e' name size he
    unfold Dense.createGroup at he
    split at he
    · cases he
    · cases he
      simp only [List.map_append, List.map_cons, List.map_nil, List.replicate_one]
      split <;> rfl
  have refl0 : d.ags.map Group.alloc = d.ags.map Group.alloc ++ List.replicate 0 [] := by simp
  cases b with
  | create name size =>
    simp only [Build.apply, Dense.createAttributeGroup] at h
    cases hc : d.createGroup name size with
    | ok e => rw [hc] at h; cases h; exact ⟨1, crea _ _ _ _ hc⟩
    | err => rw [hc] at h; cases h; exact ⟨0, refl0⟩
    | panic => rw [hc] at h; cases h; exact ⟨0, refl0⟩
  | add a =>
    simp only [Build.apply, Res.map_eq_ok] at h
    obtain ⟨p, hp, rfl⟩ := h
    unfold Dense.addAttribute at hp
    split at hp
    · cases hp
    · have hch : (Dense.chooseGroup pg d a).1.ags = d.ags := by
        unfold Dense.chooseGroup; split <;> rfl
      simp only at hp
      generalize Dense.chooseGroup pg d a = c at hp hch
      obtain ⟨d1, ag, isBin⟩ := c
      simp only [Res.bind_eq_ok] at hp hch
      obtain ⟨d2, hd2, hp⟩ := hp
      split at hp
      · cases hp
      · rw [push _ _ _ _ hp]
        split at hd2
        · cases hd2; exact ⟨0, by rw [hch]; simp⟩
        · exact ⟨1, by rw [crea _ _ _ _ hd2, hch]⟩
  | addTo a ag =>
    simp only [Build.apply] at h
    cases hc : d.addAttributeToGroup a ag with
    | err => rw [hc] at h; cases h; exact ⟨0, refl0⟩
    | panic => rw [hc] at h; cases h
    | ok p =>
      rw [hc] at h
      cases h
      unfold Dense.addAttributeToGroup at hc
      split at hc
      · cases hc
      · split at hc
        · cases hc
        · split at hc
          · cases hc
          · exact ⟨0, by rw [push _ _ _ _ hc]; simp⟩
  | addClass a =>
    simp only [Build.apply, Dense.addClassAttribute] at h
    cases hc : d.getAttribute a <;> rw [hc] at h <;> cases h <;> exact ⟨0, refl0⟩
  | removeClass a =>
    simp only [Build.apply, Dense.removeClassAttribute] at h
    cases hc : d.getAttribute a <;> rw [hc] at h <;> cases h <;> exact ⟨0, refl0⟩

theorem tablesOk_set {ts : List HTable} {m m' : Mem} {i : Nat} {t' : HTable} {S : Nat → Prop}
    (h : TablesOk ts m) (e : Ext S m m') (ht : t'.Ok m') : TablesOk (ts.set i t') m' := by
  intro t hm
  rcases List.mem_or_eq_of_mem_set hm with hm | rfl
  · exact (h t hm).ext e
  · exact ht

/-- The tables after replacing table `i`. -/
theorem set_fresh {w : World} {i : Nat} {t t1 : HTable} (hi : w.tables[i]? = some t)
    (hb : ∀ b ∈ t1.bufs, b ∈ t.bufs ∨ w.mem.length ≤ b) :
    ∀ (j : Nat) (t' : HTable) (b : Nat), (w.tables.set i t1)[j]? = some t' → b ∈ t'.bufs →
      (∃ t, w.tables[j]? = some t ∧ b ∈ t.bufs) ∨ (w.mem.length ≤ b ∧ j = i) := by
  intro j t' b ht' hbt
  rw [List.getElem?_set] at ht'
  split at ht'
  · rename_i e
    subst e
    split at ht'
    · simp only [Option.some.injEq] at ht'
      subst ht'
      rcases hb b hbt with hb | hb
      · exact Or.inl ⟨t, hi, hb⟩
      · exact Or.inr ⟨hb, rfl⟩
    · cases ht'
  · exact Or.inl ⟨t', ht', hbt⟩

theorem append_fresh {w : World} {t1 : HTable} (hb : ∀ b ∈ t1.bufs, w.mem.length ≤ b) :
    ∀ (j : Nat) (t' : HTable) (b : Nat), (w.tables ++ [t1])[j]? = some t' → b ∈ t'.bufs →
      (∃ t, w.tables[j]? = some t ∧ b ∈ t.bufs) ∨ (w.mem.length ≤ b ∧ j = w.tables.length) := by
  intro j t' b ht' hbt
  by_cases hj : j < w.tables.length
  · rw [List.getElem?_append_left hj] at ht'
    exact Or.inl ⟨t', ht', hbt⟩
  · rw [List.getElem?_append_right (by omega)] at ht'
    have : j - w.tables.length = 0 := by
      rw [List.getElem?_eq_some_iff] at ht'
      obtain ⟨h, _⟩ := ht'
      simp at h
      omega
    rw [this] at ht'
    simp only [List.getElem?_cons_zero, Option.some.injEq] at ht'
    subst ht'
    exact Or.inr ⟨hb b hbt, by omega⟩

theorem step_effect (pg : Nat) (srt : List Spec → List Spec) {w w' : World} (I : w.Inv) (op : MOp)
    (h : w.step pg srt op = Res.ok w') : Effect w op w' := by
  have same : ∀ (j : Nat) (t' : HTable) (b : Nat), w.tables[j]? = some t' → b ∈ t'.bufs →
      (∃ t, w.tables[j]? = some t ∧ b ∈ t.bufs) ∨ (w.mem.length ≤ b ∧ j = 0) :=
    fun j t' b ht hb => Or.inl ⟨t', ht, hb⟩
  have weak : ∀ {ts' : List HTable} {j0 : Nat},
      (∀ (j : Nat) (t' : HTable) (b : Nat), ts'[j]? = some t' → b ∈ t'.bufs →
      (∃ t, w.tables[j]? = some t ∧ b ∈ t.bufs) ∨ (w.mem.length ≤ b ∧ j = j0)) →
      (∀ (j : Nat) (t' : HTable) (b : Nat), ts'[j]? = some t' → b ∈ t'.bufs →
      w.mem.length ≤ b ∨ ∃ t, w.tables[j]? = some t ∧ b ∈ t.bufs) :=
    fun H j t' b h1 h2 => (H j t' b h1 h2).elim Or.inr fun k => Or.inl k.1
  have nohold : ∃ new, w.held = w.held ++ new ∧ ∀ h ∈ new, w.mem.length ≤ h.slice.buf ∨
      ∃ (i : Nat) (t : HTable), w.tables[i]? = some t ∧ h.slice.buf ∈ t.bufs := ⟨[], by simp, by simp⟩
  cases op with
  | new =>
    simp only [World.step] at h
    cases h
    have F := append_fresh (w := w) (t1 := ⟨Dense.new, []⟩) (by simp)
    refine ⟨inv_tables I (fun _ => False) _ _ _ (Ext.refl _ _) ?_ F, Ext.refl _ _, nohold, ?_, weak F,
      by simp⟩
    · intro t ht
      rcases List.mem_append.1 ht with ht | ht
      · exact I.ok t ht
      · rw [List.mem_singleton] at ht; subst ht; exact ⟨rfl, by simp, by simp⟩
    · intro j t ht _
      rw [List.getElem?_append_left (List.getElem?_eq_some_iff.1 ht).1]; exact ht
  | build i b =>
    simp only [World.step] at h
    split at h
    · cases h
    · rename_i t hi
      rw [Res.map_eq_ok] at h
      obtain ⟨d, hd, rfl⟩ := h
      have ht := I.ok t (List.mem_of_getElem? hi)
      obtain ⟨k, hk⟩ := build_allocs pg b hd
      obtain ⟨B1, B2, B3, B4⟩ := HTable.build_ok ht d k hk
      have F := set_fresh hi B4
      refine ⟨inv_tables I _ _ _ _ B2 (tablesOk_set I.ok B2 B1) F, B2.ext, nohold, ?_, weak F, by simp⟩
      intro j t ht hne
      rw [List.getElem?_set, if_neg (by rintro rfl; exact hne rfl)]; exact ht
  | extend i n =>
    simp only [World.step] at h
    split at h
    · cases h
    · rename_i t hi
      cases h
      obtain ⟨B1, B2, B3, B4⟩ := HTable.place_ok ((t.at_ w.mem).extend n) w.mem
      have F := set_fresh (t1 := (t.extend w.mem n).1) hi (fun b hb => Or.inr (B4 b hb))
      refine ⟨inv_tables I _ _ _ _ B2 (tablesOk_set I.ok B2 B1) F, B2.ext, nohold, ?_, weak F, by simp⟩
      intro j t ht hne
      simp only
      rw [List.getElem?_set, if_neg (by rintro rfl; exact hne rfl)]; exact ht
  | make x =>
    simp only [World.step] at h
    cases h
    obtain ⟨A1, A2, A3, A4, _⟩ := alloc_facts w.mem x
    refine ⟨inv_held I _ _ A1 A2 (Or.inl (Nat.le_of_eq A4.symm)), A1.ext, ⟨_, rfl, ?_⟩,
      fun j t ht _ => ht, weak same, Nat.le_refl _⟩
    intro h hh
    rw [List.mem_singleton] at hh; subst hh
    exact Or.inl (Nat.le_of_eq A4.symm)
  | get g s row =>
    simp only [World.step, Res.map_eq_ok] at h
    obtain ⟨p, hp, rfl⟩ := h
    obtain ⟨x, _, R⟩ := (HGrid.get_sim g I.ok s row).ok_left hp
    have own : w.mem.length ≤ p.2.buf ∨
        ∃ (i : Nat) (t : HTable), w.tables[i]? = some t ∧ p.2.buf ∈ t.bufs ∧ some g.root = some i := by
      rcases R.own with hb | hb
      · cases hr : w.tables[g.root]? with
        | none => rw [tableAt, hr] at hb; simp at hb
        | some t => rw [tableAt_some hr] at hb; exact Or.inr ⟨_, t, hr, hb, rfl⟩
      · exact Or.inl hb
    refine ⟨inv_held I _ _ R.grow R.inb own, R.grow.ext, ⟨_, rfl, ?_⟩,
      fun j t ht _ => ht, weak same, Nat.le_refl _⟩
    intro h hh
    rw [List.mem_singleton] at hh; subst hh
    exact own.imp id fun ⟨i, t, h1, h2, _⟩ => ⟨i, t, h1, h2⟩
  | storage i id =>
    simp only [World.step] at h
    split at h
    · cases h
    · rename_i t hi
      split at h
      · cases h
      · rename_i b hb
        cases h
        have hbm := List.mem_of_getElem? hb
        have ht := I.ok t (List.mem_of_getElem? hi)
        refine ⟨inv_held I _ _ (Ext.refl _ _) ⟨ht.valid b hbm, by simp⟩ (Or.inr ⟨i, t, hi, hbm, rfl⟩),
          Ext.refl _ _, ⟨_, rfl, ?_⟩, fun j t ht _ => ht, weak same, Nat.le_refl _⟩
        intro h hh
        rw [List.mem_singleton] at hh; subst hh
        exact Or.inr ⟨i, t, hi, hbm⟩
  | set i s row k =>
    simp only [World.step] at h
    split at h
    · rename_i t hd hi hk
      rw [Res.map_eq_ok] at h
      obtain ⟨m', hm, rfl⟩ := h
      have ht := I.ok t (List.mem_of_getElem? hi)
      obtain ⟨d, _, E, _⟩ := (HTable.set_sim ht s row hd.slice).ok_left hm
      have E' : Ext (MOp.writes w (.set i s row k)) w.mem m' :=
        E.mono (by intro b _ hb; simpa [MOp.writes, tableAt_some hi] using hb)
      exact ⟨inv_tables I _ _ _ 0 E (I.ok.ext E) same, E', nohold, fun j t ht _ => ht, weak same,
        Nat.le_refl _⟩
    · cases h
  | poke k x =>
    simp only [World.step] at h
    split at h
    · cases h
    · rename_i hd hk
      cases h
      have E := poke_ext (I.inb hd (List.mem_of_getElem? hk)) x
      have E' : Ext (MOp.writes w (.poke k x)) w.mem (w.mem.poke hd.slice x) :=
        E.mono (by rintro b _ rfl; exact ⟨hd, hk, rfl⟩)
      exact ⟨inv_tables I _ _ _ 0 E (I.ok.ext E) same, E', nohold, fun j t ht _ => ht, weak same,
        Nat.le_refl _⟩
  | swap i a b =>
    simp only [World.step] at h
    split at h
    · cases h
    · rename_i t hi
      rw [Res.map_eq_ok] at h
      obtain ⟨m', hm, rfl⟩ := h
      have ht := I.ok t (List.mem_of_getElem? hi)
      obtain ⟨d, _, E, _⟩ := (HTable.swapRows_sim srt ht a b).ok_left hm
      have E' : Ext (MOp.writes w (.swap i a b)) w.mem m' :=
        E.mono (by intro b _ hb; simpa [MOp.writes, tableAt_some hi] using hb)
      exact ⟨inv_tables I _ _ _ 0 E (I.ok.ext E) same, E', nohold, fun j t ht _ => ht, weak same,
        Nat.le_refl _⟩
  | copy g classes order =>
    simp only [World.step] at h
    split at h
    · rw [Res.map_eq_ok] at h
      obtain ⟨p, hp, rfl⟩ := h
      obtain ⟨d, _, G, K, B, _⟩ := (HGrid.copy_sim pg g classes order I.ok).ok_left hp
      have F := append_fresh B
      refine ⟨inv_tables I _ _ _ _ G ?_ F, G.ext, nohold, ?_, weak F, by simp⟩
      · intro t ht
        rcases List.mem_append.1 ht with ht | ht
        · exact (I.ok t ht).ext G
        · rw [List.mem_singleton] at ht; subst ht; exact K
      · intro j t ht _
        rw [List.getElem?_append_left (List.getElem?_eq_some_iff.1 ht).1]; exact ht
    · cases h

theorem worldRun_cons (pg : Nat) (srt : List Spec → List Spec) (w : World) (op : MOp) (ops : List MOp) :
    World.runFrom pg srt w (op :: ops) =
      (w.step pg srt op).bind fun w' => World.runFrom pg srt w' ops := by
  simp only [World.runFrom, List.foldl_cons, Res.bind_ok]
  cases w.step pg srt op with
  | ok w' => rfl
  | err => induction ops with
    | nil => rfl
    | cons o ops ih => simpa using ih
  | panic => induction ops with
    | nil => rfl
    | cons o ops ih => simpa using ih

theorem runFrom_inv (pg : Nat) (srt : List Spec → List Spec) (ops : List MOp) : ∀ {w w' : World},
    w.Inv → World.runFrom pg srt w ops = Res.ok w' → w'.Inv := by
  induction ops with
  | nil => intro w w' I h; cases h; exact I
  | cons op ops ih =>
    intro w w' I h
    rw [worldRun_cons, Res.bind_eq_ok] at h
    obtain ⟨w1, h1, h2⟩ := h
    exact ih (step_effect pg srt I op h1).inv h2

theorem run_inv_world (pg : Nat) (srt : List Spec → List Spec) (ops : List MOp) {w : World}
    (h : World.run pg srt ops = Res.ok w) : w.Inv :=
  runFrom_inv pg srt ops ⟨by intro t ht; simp at ht, by simp, by simp, by simp, by simp⟩ h

theorem runFrom_held (pg : Nat) (srt : List Spec → List Spec) (ops : List MOp) : ∀ {w w' : World},
    w.Inv → World.runFrom pg srt w ops = Res.ok w' → ∃ new, w'.held = w.held ++ new := by
  induction ops with
  | nil => intro w w' I h; cases h; exact ⟨[], by simp⟩
  | cons op ops ih =>
    intro w w' I h
    rw [worldRun_cons, Res.bind_eq_ok] at h
    obtain ⟨w1, h1, h2⟩ := h
    have E := step_effect pg srt I op h1
    obtain ⟨n1, e1, _⟩ := E.held
    obtain ⟨n2, e2⟩ := ih E.inv h2
    exact ⟨n1 ++ n2, by rw [e2, e1, List.append_assoc]⟩

theorem held_prefix {l new : List Held} {k : Nat} {h : Held} (hk : l[k]? = some h) :
    (l ++ new)[k]? = some h := by
  rw [List.getElem?_append_left (List.getElem?_eq_some_iff.1 hk).1]; exact hk

/-- A step that does not act on table `i` leaves it as it was. -/
theorem step_other (pg : Nat) (srt : List Spec → List Spec) {w w' : World} (I : w.Inv) (op : MOp)
    (h : w.step pg srt op = Res.ok w') {i : Nat} (hi : i < w.tables.length) (held : List Held)
    (hpre : ∃ new, held = w.held ++ new) (hno : ¬ op.actsOn held i) :
    tableAt w'.tables i = tableAt w.tables i ∧ w'.table i = w.table i := by
  have E := step_effect pg srt I op h
  have hti : w.tables[i]? = some w.tables[i] := List.getElem?_eq_getElem hi
  have hreb : op.rebuilds ≠ some i := by
    intro e
    cases op <;> simp only [MOp.rebuilds, Option.some.injEq, reduceCtorEq] at e <;>
      exact hno e
  have ht' := E.tables i _ hti hreb
  have e1 : tableAt w'.tables i = tableAt w.tables i := by
    rw [tableAt_some ht', tableAt_some hti]
  refine ⟨e1, ?_⟩
  simp only [World.table, e1]
  apply HTable.at_ext E.ext (I.ok.tableAt i)
  intro b hb hw
  rw [tableAt_some hti] at hb
  cases op with
  | set j s row k =>
    simp only [MOp.writes] at hw
    cases hj : w.tables[j]? with
    | none => simp [tableAt, hj] at hw
    | some u =>
      rw [tableAt_some hj] at hw
      exact hno (I.sep j i u _ b hj hti hw hb)
  | swap j a c =>
    simp only [MOp.writes] at hw
    cases hj : w.tables[j]? with
    | none => simp [tableAt, hj] at hw
    | some u =>
      rw [tableAt_some hj] at hw
      exact hno (I.sep j i u _ b hj hti hw hb)
  | poke k x =>
    obtain ⟨hd, hk, rfl⟩ := hw
    obtain ⟨new, rfl⟩ := hpre
    exact hno ⟨hd, held_prefix hk, I.own hd (List.mem_of_getElem? hk) i _ hti hb⟩
  | new => exact hw
  | build _ _ => exact hw
  | extend _ _ => exact hw
  | make _ => exact hw
  | get _ _ _ => exact hw
  | storage _ _ => exact hw
  | copy _ _ _ => exact hw

theorem runFrom_other (pg : Nat) (srt : List Spec → List Spec) (i : Nat) (held : List Held)
    (ops : List MOp) : ∀ {w w' : World}, w.Inv → World.runFrom pg srt w ops = Res.ok w' →
    (∃ new, held = w'.held ++ new) → i < w.tables.length → (∀ op ∈ ops, ¬ op.actsOn held i) →
    tableAt w'.tables i = tableAt w.tables i ∧ w'.table i = w.table i := by
  induction ops with
  | nil => intro w w' I h _ _ _; cases h; exact ⟨rfl, rfl⟩
  | cons op ops ih =>
    intro w w' I h hpre hi hno
    rw [worldRun_cons, Res.bind_eq_ok] at h
    obtain ⟨w1, h1, h2⟩ := h
    have E := step_effect pg srt I op h1
    obtain ⟨n1, e1⟩ := runFrom_held pg srt ops E.inv h2
    obtain ⟨n0, e0, _⟩ := E.held
    obtain ⟨n2, e2⟩ := hpre
    have a := step_other pg srt I op h1 hi held ⟨n0 ++ n1 ++ n2, by
      rw [e2, e1, e0]; simp⟩ (hno op (List.mem_cons_self ..))
    have b := ih E.inv h2 ⟨n2, e2⟩ (Nat.lt_of_lt_of_le hi E.count)
      (fun o ho => hno o (List.mem_cons_of_mem _ ho))
    exact ⟨b.1.trans a.1, b.2.trans a.2⟩

theorem grid_congr {w w' : World} (g : HGrid) (h : w'.table g.root = w.table g.root) :
    w'.grid g = w.grid g := by
  induction g with
  | table i => simp only [World.grid, HGrid.at_]; exact congrArg Grid.dense h
  | view src _ _ _ _ ih =>
    have := ih h
    simp only [World.grid, HGrid.at_] at this ⊢
    rw [this]
  | filt f src _ _ ih =>
    have := ih h
    simp only [World.grid, HGrid.at_] at this ⊢
    rw [this]

end Golearn
