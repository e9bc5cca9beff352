import Verif.Proofs.World

/-! # Lemmas on slices a client keeps -/

namespace Golearn

theorem runFrom_ext (pg : Nat) (srt : List Spec → List Spec) (ops : List MOp) : ∀ {w w' : World},
    w.Inv → World.runFrom pg srt w ops = Res.ok w' → Ext (fun _ => True) w.mem w'.mem := by
  induction ops with
  | nil => intro w w' I h; cases h; exact Ext.refl _ _
  | cons op ops ih =>
    intro w w' I h
    rw [worldRun_cons, Res.bind_eq_ok] at h
    obtain ⟨w1, h1, h2⟩ := h
    have E := step_effect pg srt I op h1
    exact (E.ext.mono (by simp)).trans (ih E.inv h2)

/-- Without structural calls on it and without `Extend`, a table keeps its layout and its arrays. -/
theorem runFrom_shape (pg : Nat) (srt : List Spec → List Spec) (i : Nat) (ops : List MOp) :
    ∀ {w w' : World}, w.Inv → World.runFrom pg srt w ops = Res.ok w' → i < w.tables.length →
    (∀ op ∈ ops, ¬ op.reshapes i) → tableAt w'.tables i = tableAt w.tables i := by
  induction ops with
  | nil => intro w w' I h _ _; cases h; rfl
  | cons op ops ih =>
    intro w w' I h hi hno
    rw [worldRun_cons, Res.bind_eq_ok] at h
    obtain ⟨w1, h1, h2⟩ := h
    have E := step_effect pg srt I op h1
    have hti : w.tables[i]? = some w.tables[i] := List.getElem?_eq_getElem hi
    have hreb : op.rebuilds ≠ some i := by
      intro e
      have := hno op (List.mem_cons_self ..)
      cases op <;> simp only [MOp.rebuilds, Option.some.injEq, reduceCtorEq] at e <;>
        exact this e
    have ht' := E.tables i _ hti hreb
    rw [ih E.inv h2 (Nat.lt_of_lt_of_le hi E.count) (fun o ho => hno o (List.mem_cons_of_mem _ ho)),
      tableAt_some ht', tableAt_some hti]

/-- The specification leads to a group of whole bytes. -/
def HTable.fixedAt (t : HTable) (s : Spec) : Prop :=
  ∃ id g size, s.pond = some id ∧ t.shape.ags[id]? = some g ∧ g.kind = GKind.fixed size

theorem HTable.get_fixed {t : HTable} {m : Mem} (ok : t.Ok m) {s : Spec} (hf : t.fixedAt s) {row : Nat}
    {p : Mem × BSlice} (h : t.get m s row = Res.ok p) :
    p.1 = m ∧ p.2.buf ∈ t.bufs ∧
      ∀ m', (∀ b ∈ t.bufs, (m'.arr b).length = (m.arr b).length) → t.get m' s row = Res.ok (m', p.2) := by
  obtain ⟨id, g, size, hp, hg, hk⟩ := hf
  unfold HTable.get at h ⊢
  simp only [hp, hg] at h ⊢
  cases hb : t.bufs[id]? with
  | none => rw [hb] at h; cases h
  | some b =>
    rw [hb] at h
    simp only [hk] at h ⊢
    split at h
    · cases h
    · rename_i hle
      cases h
      refine ⟨rfl, List.mem_of_getElem? hb, ?_⟩
      intro m' hl
      rw [hl b (List.mem_of_getElem? hb), if_neg hle]

/-- An unfiltered grid hands out the same window again while the table under it keeps its arrays. -/
theorem HGrid.get_fixed {ts : List HTable} {m : Mem} (ok : TablesOk ts m) (g : HGrid) (s : Spec)
    (hg : g.unfiltered) (hf : (tableAt ts g.root).fixedAt s) : ∀ {row : Nat} {p : Mem × BSlice},
    g.get ts m s row = Res.ok p → p.1 = m ∧ p.2.buf ∈ (tableAt ts g.root).bufs ∧
      ∀ ts' m', tableAt ts' g.root = tableAt ts g.root →
        (∀ b ∈ (tableAt ts g.root).bufs, (m'.arr b).length = (m.arr b).length) →
        g.get ts' m' s row = Res.ok (m', p.2) := by
  induction g with
  | table i =>
    intro row p h
    obtain ⟨a, b, c⟩ := HTable.get_fixed (ok.tableAt i) hf h
    refine ⟨a, b, fun ts' m' e hl => ?_⟩
    simp only [HGrid.get]
    rw [show tableAt ts' i = tableAt ts i from e]
    exact c m' hl
  | view src as rows cls mask ih =>
    intro row p h
    cases rows with
    | none => exact ih hg hf h
    | some rs =>
      simp only [HGrid.get] at h ⊢
      cases hr : rs.get? row with
      | some r => rw [hr] at h; exact ih hg hf h
      | none =>
        rw [hr] at h
        simp only at h ⊢
        cases mask with
        | true => cases h
        | false => exact ih hg hf h
  | filt f src cls unf ih => exact absurd hg (by simp [HGrid.unfiltered])

theorem fixedAt_of {w : World} {i : Nat} {s : Spec} (h : w.wholeBytes i s) :
    (tableAt w.tables i).fixedAt s ∧ i < w.tables.length := by
  obtain ⟨id, g, size, hp, hg, hk⟩ := h
  simp only [World.table, HTable.at_ags, List.getElem?_zipWith] at hg
  cases ha : (tableAt w.tables i).shape.ags[id]? with
  | none => simp [ha] at hg
  | some g0 =>
    cases hb : (tableAt w.tables i).bufs[id]? with
    | none => simp [ha, hb] at hg
    | some b =>
      simp only [ha, hb, Option.some.injEq] at hg
      subst hg
      refine ⟨⟨id, g0, size, hp, ha, hk⟩, ?_⟩
      by_contra hlt
      simp [tableAt, List.getElem?_eq_none (Nat.le_of_not_lt hlt), Dense.new] at ha

/-- An array in no table changes only by writes through slices that already showed it. -/
theorem runFrom_detached (pg : Nat) (srt : List Spec → List Spec) (b K : Nat) (ops : List MOp) :
    ∀ {w w' : World}, w.Inv → World.runFrom pg srt w ops = Res.ok w' → b < w.mem.length →
    (∀ (i : Nat) (t : HTable), w.tables[i]? = some t → b ∉ t.bufs) →
    (∀ (k : Nat) (h : Held), K ≤ k → w.held[k]? = some h → h.slice.buf ≠ b) →
    (∀ k x h, MOp.poke k x ∈ ops → k < K → w.held[k]? = some h → h.slice.buf ≠ b) →
    K ≤ w.held.length → w'.mem.arr b = w.mem.arr b := by
  induction ops with
  | nil => intro w w' I h _ _ _ _ _; cases h; rfl
  | cons op ops ih =>
    intro w w' I h hb hno hheld hpoke hK
    rw [worldRun_cons, Res.bind_eq_ok] at h
    obtain ⟨w1, h1, h2⟩ := h
    have E := step_effect pg srt I op h1
    obtain ⟨new, e, hnew⟩ := E.held
    have hsame : w1.mem.arr b = w.mem.arr b := by
      apply E.ext.same b hb
      intro hw
      cases op with
      | set j s row k =>
        simp only [MOp.writes] at hw
        cases hj : w.tables[j]? with
        | none => simp [tableAt, hj] at hw
        | some u => rw [tableAt_some hj] at hw; exact hno j u hj hw
      | swap j a c =>
        simp only [MOp.writes] at hw
        cases hj : w.tables[j]? with
        | none => simp [tableAt, hj] at hw
        | some u => rw [tableAt_some hj] at hw; exact hno j u hj hw
      | poke k x =>
        obtain ⟨hd, hk, rfl⟩ := hw
        by_cases hkK : k < K
        · exact hpoke k x hd (List.mem_cons_self ..) hkK hk rfl
        · exact hheld k hd (by omega) hk rfl
      | new => exact hw
      | build _ _ => exact hw
      | extend _ _ => exact hw
      | make _ => exact hw
      | get _ _ _ => exact hw
      | storage _ _ => exact hw
      | copy _ _ _ => exact hw
    rw [← hsame]
    apply ih E.inv h2 (Nat.lt_of_lt_of_le hb E.ext.le)
    · intro i t ht hbt
      rcases E.fresh i t b ht hbt with hge | ⟨t0, ht0, hb0⟩
      · omega
      · exact hno i t0 ht0 hb0
    · intro k h hk hh
      rw [e] at hh
      by_cases hlt : k < w.held.length
      · rw [List.getElem?_append_left hlt] at hh
        exact hheld k h hk hh
      · rw [List.getElem?_append_right (by omega)] at hh
        rcases hnew h (List.mem_of_getElem? hh) with hge | ⟨i, t, ht, hbt⟩
        · omega
        · intro e'
          exact hno i t ht (e' ▸ hbt)
    · intro k x h hm hk hh
      rw [e, List.getElem?_append_left (by omega)] at hh
      exact hpoke k x h (List.mem_cons_of_mem _ hm) hk hh
    · rw [e]; simp only [List.length_append]; omega

/-- The slice a client gets in a new array shows the same bytes until the client writes into it. -/
theorem snapshot (pg : Nat) (srt : List Spec → List Spec) {w w1 w2 : World} (I : w.Inv)
    {m' : Mem} {h : Held} (hw : w1 = { w with mem := m', held := w.held ++ [h] })
    (I1 : w1.Inv) (hge : w.mem.length ≤ h.slice.buf) (after : List MOp)
    (h2 : World.runFrom pg srt w1 after = Res.ok w2)
    (hpoke : ∀ x, MOp.poke w.held.length x ∉ after) :
    w2.shows w.held.length = w1.shows w.held.length := by
  have hh : w1.held[w.held.length]? = some h := by subst hw; simp
  have hlen : w1.held.length = w.held.length + 1 := by subst hw; simp
  have hk1 : ∀ k : Nat, k < w.held.length → w1.held[k]? = w.held[k]? := by
    intro k hk; subst hw; simp [List.getElem?_append_left hk]
  have hin := I1.inb h (List.mem_of_getElem? hh)
  obtain ⟨new, e⟩ := runFrom_held pg srt after I1 h2
  have key := runFrom_detached pg srt h.slice.buf (w.held.length + 1) after I1 h2 hin.1 (by
      intro i t ht hb
      have ht' : w.tables[i]? = some t := by subst hw; exact ht
      have := (I.ok t (List.mem_of_getElem? ht')).valid _ hb
      omega) (by
      intro k h' hk hk'
      have := (List.getElem?_eq_some_iff.1 hk').1
      omega) (by
      intro k x h' hm hk hk'
      by_cases hkl : k = w.held.length
      · subst hkl; exact absurd hm (hpoke x)
      · rw [hk1 k (by omega)] at hk'
        have := (I.inb h' (List.mem_of_getElem? hk')).1
        omega) (by omega)
  simp only [World.shows, hh, e, held_prefix hh, Option.map_some, Mem.bytes, key]

/-- Overwriting the array of one group. -/
theorem HTable.at_set {t : HTable} {m : Mem} (ok : t.Ok m) {id b : Nat} {g : Group}
    (hg : t.shape.ags[id]? = some g) (hb : t.bufs[id]? = some b) (y : Bytes) :
    t.at_ (m.set b y) = { t.at_ m with ags := (t.at_ m).ags.set id { g with alloc := y } } := by
  have hbv := ok.valid b (List.mem_of_getElem? hb)
  simp only [HTable.at_]
  congr 1
  apply List.ext_getElem
  · simp
  · intro i h1 h2
    simp only [List.getElem_zipWith, List.getElem_set]
    obtain ⟨hid, hbe⟩ := List.getElem?_eq_some_iff.1 hb
    rw [arr_set hbv]
    by_cases e : id = i
    · subst e
      obtain ⟨hgl, hge⟩ := List.getElem?_eq_some_iff.1 hg
      rw [hbe, hge, if_pos rfl, if_pos rfl]
    · rw [if_neg e, if_neg]
      intro e'
      apply e
      exact (ok.nodup.getElem_inj_iff).1 (hbe.trans e')

/-- Writing through a window that `Get` would hand out now has the effect of `Set`. -/
theorem HTable.poke_set {t : HTable} {m : Mem} (ok : t.Ok m) {s : Spec} (hf : t.fixedAt s) {row : Nat}
    {p : Mem × BSlice} (h : t.get m s row = Res.ok p) (x : Bytes) (hx : x.length = p.2.len) :
    (t.at_ m).set s row x = Res.ok (t.at_ (m.poke p.2 x)) := by
  obtain ⟨id, g, size, hp, hg, hk⟩ := hf
  unfold HTable.get at h
  simp only [hp, hg] at h
  cases hb : t.bufs[id]? with
  | none => rw [hb] at h; cases h
  | some b =>
    rw [hb] at h
    simp only [hk] at h
    split at h
    · cases h
    · rename_i hle
      cases h
      simp only at hx
      have hag : (t.at_ m).ags[id]? = some { g with alloc := m.arr b } := by
        simp [HTable.at_ags, List.getElem?_zipWith, hg, hb]
      unfold Dense.set
      simp only [hp, hag]
      have hoff : Group.offset { g with alloc := m.arr b } s.position row = g.offset s.position row := by
        obtain ⟨k, attrs, al⟩ := g
        simp [Group.offset, Group.rowSize]
      have hs : ({ g with alloc := m.arr b } : Group).set s.position row x =
          Res.ok { g with alloc := Group.splice (m.arr b) (g.offset s.position row) x } := by
        unfold Group.set
        rw [hoff]
        simp only [hk]
        rw [if_neg (by omega), if_neg (by omega), if_neg (by omega)]
      rw [hs, Res.map_ok]
      simp only [Mem.poke]
      rw [HTable.at_set ok hg hb, ← hx, List.take_length]

end Golearn
