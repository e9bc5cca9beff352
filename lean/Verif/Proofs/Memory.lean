import Verif.Model.Memory
import Mathlib.Data.List.Nodup
import Mathlib.Data.List.Basic
import Mathlib.Order.Basic

/-! # Lemmas on memory: the operations on arrays behave as the operations on values -/

namespace Golearn

/-- Two outcomes of the same kind, with related values. -/
def Sim {α β : Type} (P : α → β → Prop) : Res α → Res β → Prop
  | .ok a, .ok b => P a b
  | .err, .err => True
  | .panic, .panic => True
  | _, _ => False

theorem Sim.bind {α β γ δ : Type} {P : α → β → Prop} {Q : γ → δ → Prop} {r : Res α} {s : Res β}
    {f : α → Res γ} {g : β → Res δ} (h : Sim P r s) (k : ∀ a b, P a b → Sim Q (f a) (g b)) :
    Sim Q (r.bind f) (s.bind g) := by
  cases r <;> cases s <;> simp_all [Sim]

theorem Sim.map {α β γ δ : Type} {P : α → β → Prop} {Q : γ → δ → Prop} {r : Res α} {s : Res β}
    {f : α → γ} {g : β → δ} (h : Sim P r s) (k : ∀ a b, P a b → Q (f a) (g b)) :
    Sim Q (r.map f) (s.map g) := by
  cases r <;> cases s <;> simp_all [Sim, Res.map]

theorem Sim.mono {α β : Type} {P Q : α → β → Prop} {r : Res α} {s : Res β}
    (h : Sim P r s) (k : ∀ a b, P a b → Q a b) : Sim Q r s := by
  cases r <;> cases s <;> simp_all [Sim]

theorem Sim.ok_left {α β : Type} {P : α → β → Prop} {r : Res α} {s : Res β} {a : α}
    (h : Sim P r s) (e : r = Res.ok a) : ∃ b, s = Res.ok b ∧ P a b := by
  subst e; cases s <;> simp_all [Sim]

theorem Sim.ok_right {α β : Type} {P : α → β → Prop} {r : Res α} {s : Res β} {b : β}
    (h : Sim P r s) (e : s = Res.ok b) : ∃ a, r = Res.ok a ∧ P a b := by
  subst e; cases r <;> simp_all [Sim]

/-! ## Arrays -/

theorem arr_append_lt {m x : Mem} {b : Nat} (h : b < m.length) : Mem.arr (m ++ x) b = m.arr b := by
  simp [Mem.arr, List.getD_eq_getElem?_getD, List.getElem?_append_left h]

theorem arr_append_ge {m x : Mem} {b : Nat} (h : m.length ≤ b) :
    Mem.arr (m ++ x) b = Mem.arr x (b - m.length) := by
  simp [Mem.arr, List.getD_eq_getElem?_getD, List.getElem?_append_right h]

theorem arr_set {m : Mem} {b c : Nat} {x : Bytes} (h : b < m.length) :
    Mem.arr (m.set b x) c = if b = c then x else m.arr c := by
  simp only [Mem.arr, List.getD_eq_getElem?_getD, List.getElem?_set]
  by_cases e : b = c
  · subst e; simp [h]
  · simp [e]

/-- `m'` has all arrays of `m` at their old length, and those outside `S` with their old contents. -/
structure Ext (S : Nat → Prop) (m m' : Mem) : Prop where
  le : m.length ≤ m'.length
  len : ∀ b, b < m.length → (m'.arr b).length = (m.arr b).length
  same : ∀ b, b < m.length → ¬ S b → m'.arr b = m.arr b

abbrev Grow := Ext (fun _ => False)

theorem Ext.refl (S : Nat → Prop) (m : Mem) : Ext S m m := ⟨Nat.le_refl _, fun _ _ => rfl, fun _ _ _ => rfl⟩

theorem Ext.trans {S : Nat → Prop} {m1 m2 m3 : Mem} (h : Ext S m1 m2) (k : Ext S m2 m3) :
    Ext S m1 m3 :=
  ⟨Nat.le_trans h.le k.le, fun b hb => (k.len b (Nat.lt_of_lt_of_le hb h.le)).trans (h.len b hb),
    fun b hb hs => (k.same b (Nat.lt_of_lt_of_le hb h.le) hs).trans (h.same b hb hs)⟩

theorem Ext.mono {S T : Nat → Prop} {m1 m2 : Mem} (h : Ext S m1 m2) (k : ∀ b, b < m1.length → S b → T b) :
    Ext T m1 m2 :=
  ⟨h.le, h.len, fun b hb hs => h.same b hb (fun hS => hs (k b hb hS))⟩

theorem Grow.ext {S : Nat → Prop} {m1 m2 : Mem} (h : Grow m1 m2) : Ext S m1 m2 :=
  Ext.mono h (by simp)

theorem grow_append (m x : Mem) : Grow m (m ++ x) :=
  ⟨by simp, fun b hb => by rw [arr_append_lt hb], fun b hb _ => arr_append_lt hb⟩

theorem ext_set {m : Mem} {b : Nat} {x : Bytes} (hb : b < m.length) (hl : x.length = (m.arr b).length) :
    Ext (fun c => c = b) m (m.set b x) := by
  refine ⟨by simp, ?_, ?_⟩
  · intro c _
    rw [arr_set hb]
    split
    · rename_i e; rw [← e, hl]
    · rfl
  · intro c _ hs
    rw [arr_set hb, if_neg (fun e => hs e.symm)]

/-- The slice lies inside an existing array. -/
def InB (m : Mem) (v : BSlice) : Prop :=
  v.buf < m.length ∧ v.off + v.len ≤ (m.arr v.buf).length

theorem InB.ext {S : Nat → Prop} {m m' : Mem} {v : BSlice} (h : InB m v) (e : Ext S m m') : InB m' v :=
  ⟨Nat.lt_of_lt_of_le h.1 e.le, by rw [e.len _ h.1]; exact h.2⟩

theorem bytes_length {m : Mem} {v : BSlice} (h : InB m v) : (m.bytes v).length = v.len := by
  have := h.2
  simp only [Mem.bytes, List.length_take, List.length_drop]
  omega

theorem bytes_ext {S : Nat → Prop} {m m' : Mem} {v : BSlice} (e : Ext S m m') (h : v.buf < m.length)
    (hs : ¬ S v.buf) : m'.bytes v = m.bytes v := by
  simp only [Mem.bytes, e.same _ h hs]

theorem alloc_facts (m : Mem) (x : Bytes) : Grow m (m.alloc x).1 ∧ InB (m.alloc x).1 (m.alloc x).2 ∧
    (m.alloc x).1.bytes (m.alloc x).2 = x ∧ (m.alloc x).2.buf = m.length ∧
    (m.alloc x).1.length = m.length + 1 := by
  refine ⟨grow_append _ _, ⟨by simp [Mem.alloc], ?_⟩, ?_, rfl, by simp [Mem.alloc]⟩
  · simp only [Mem.alloc, arr_append_ge (Nat.le_refl _)]
    simp [Mem.arr]
  · simp only [Mem.alloc, Mem.bytes, arr_append_ge (Nat.le_refl _)]
    simp [Mem.arr]

theorem mem_splice_length (a : Bytes) (off : Nat) (v : Bytes) (h : off + v.length ≤ a.length) :
    (Group.splice a off v).length = a.length := by
  simp only [Group.splice, List.length_append, List.length_take, List.length_drop]
  omega

theorem poke_ext {m : Mem} {v : BSlice} (h : InB m v) (x : Bytes) :
    Ext (fun c => c = v.buf) m (m.poke v x) := by
  apply ext_set h.1
  apply mem_splice_length
  have := h.2
  simp only [List.length_take]
  omega

/-- `Group.set` keeps the length of the storage, the kind and the attributes. -/
theorem groupSet_facts {g g' : Group} {col row : Nat} {v : Bytes} (h : g.set col row v = Res.ok g') :
    g'.alloc.length = g.alloc.length ∧ g'.kind = g.kind ∧ g'.attrs = g.attrs := by
  unfold Group.set at h
  split at h
  · rename_i size _
    split at h
    · cases h
    · simp only at h
      split at h
      · cases h
      · split at h
        · cases h
        · cases h
          refine ⟨mem_splice_length _ _ _ ?_, rfl, rfl⟩
          rename_i h1 h2 h3
          omega
  · split at h
    · cases h
    · split at h
      · cases h
      · cases h
        simp

/-! ## Tables -/

namespace HTable

/-- Every group has its own existing array. -/
structure Ok (t : HTable) (m : Mem) : Prop where
  len : t.shape.ags.length = t.bufs.length
  nodup : t.bufs.Nodup
  valid : ∀ b ∈ t.bufs, b < m.length

theorem Ok.ext {S : Nat → Prop} {t : HTable} {m m' : Mem} (h : t.Ok m) (e : Ext S m m') : t.Ok m' :=
  ⟨h.len, h.nodup, fun b hb => Nat.lt_of_lt_of_le (h.valid b hb) e.le⟩

theorem at_ags (t : HTable) (m : Mem) : (t.at_ m).ags =
    List.zipWith (fun (g : Group) b => { g with alloc := m.arr b }) t.shape.ags t.bufs := rfl

theorem at_congr {t : HTable} {m m' : Mem} (h : ∀ b ∈ t.bufs, m'.arr b = m.arr b) :
    t.at_ m' = t.at_ m := by
  simp only [at_]
  congr 1
  apply List.ext_getElem
  · simp
  · intro i h1 h2
    simp only [List.getElem_zipWith]
    rw [h _ (List.getElem_mem _)]

theorem at_ext {S : Nat → Prop} {t : HTable} {m m' : Mem} (e : Ext S m m') (h : t.Ok m)
    (hs : ∀ b ∈ t.bufs, ¬ S b) : t.at_ m' = t.at_ m :=
  at_congr fun b hb => e.same b (h.valid b hb) (hs b hb)

/-- What `Get` hands out: nothing is overwritten, the slice shows the value, and it belongs to an
array of the table or to a new array. -/
structure Reads (m : Mem) (bufs : List Nat) (p : Mem × BSlice) (x : Bytes) : Prop where
  grow : Grow m p.1
  inb : InB p.1 p.2
  bytes : p.1.bytes p.2 = x
  own : p.2.buf ∈ bufs ∨ m.length ≤ p.2.buf

theorem get_sim {t : HTable} {m : Mem} (h : t.Ok m) (s : Spec) (row : Nat) :
    Sim (Reads m t.bufs) (t.get m s row) ((t.at_ m).get s row) := by
  unfold HTable.get Dense.get
  cases s.pond with
  | none => trivial
  | some id =>
    simp only [at_ags, List.getElem?_zipWith]
    cases hg : t.shape.ags[id]? with
    | none => trivial
    | some g =>
      cases hb : t.bufs[id]? with
      | none => trivial
      | some b =>
        have hbm : b ∈ t.bufs := List.mem_of_getElem? hb
        simp only [Option.map_some, Option.bind_some]
        obtain ⟨k, attrs, al⟩ := g
        have e : ∀ x : Bytes, (Group.offset ⟨k, attrs, x⟩ s.position row) =
            Group.offset ⟨k, attrs, al⟩ s.position row := by
          intro x; simp [Group.offset, Group.rowSize]
        cases k with
        | fixed size =>
          simp only [Group.get, e]
          by_cases hle : Group.offset ⟨.fixed size, attrs, al⟩ s.position row + size > (m.arr b).length
          · rw [if_pos hle, if_pos hle]; trivial
          · rw [if_neg hle, if_neg hle]
            exact ⟨Ext.refl _ _, ⟨h.valid b hbm, Nat.le_of_not_lt hle⟩, rfl, Or.inl hbm⟩
        | binary =>
          simp only [Group.get, e]
          cases hx : (m.arr b)[Group.offset ⟨.binary, attrs, al⟩ s.position row]? with
          | none => trivial
          | some x =>
            have F1 := alloc_facts m [1#8]
            have F0 := alloc_facts m [0#8]
            simp only
            by_cases hc : (x &&& ((1#8) <<< (s.position % 8))).toNat > 0
            · rw [if_pos hc, if_pos hc]
              exact ⟨F1.1, F1.2.1, F1.2.2.1, Or.inr (Nat.le_of_eq F1.2.2.2.1.symm)⟩
            · rw [if_neg hc, if_neg hc]
              exact ⟨F0.1, F0.2.1, F0.2.2.1, Or.inr (Nat.le_of_eq F0.2.2.2.1.symm)⟩

theorem set_sim {t : HTable} {m : Mem} (h : t.Ok m) (s : Spec) (row : Nat) (v : BSlice) :
    Sim (fun m' d => Ext (· ∈ t.bufs) m m' ∧ t.at_ m' = d) (t.set m s row v)
      ((t.at_ m).set s row (m.bytes v)) := by
  unfold HTable.set Dense.set
  cases s.pond with
  | none => trivial
  | some id =>
    simp only [at_ags, List.getElem?_zipWith]
    cases hg : t.shape.ags[id]? with
    | none => trivial
    | some g =>
      cases hb : t.bufs[id]? with
      | none => trivial
      | some b =>
        have hbm : b ∈ t.bufs := List.mem_of_getElem? hb
        simp only [Option.map_some, Option.bind_some]
        cases hset : ({ g with alloc := m.arr b } : Group).set s.position row (m.bytes v) with
        | err => trivial
        | panic => trivial
        | ok g' =>
          obtain ⟨hl, hk, ha⟩ := groupSet_facts hset
          have hbv := h.valid b hbm
          refine ⟨(ext_set hbv hl).mono (by rintro c _ rfl; exact hbm), ?_⟩
          simp only [at_]
          congr 1
          apply List.ext_getElem
          · simp
          · intro i h1 h2
            simp only [List.getElem_zipWith, List.getElem_set]
            have hi : i < t.bufs.length := by simp at h1; omega
            have hid : id < t.bufs.length := (List.getElem?_eq_some_iff.1 hb).1
            have hbe : t.bufs[id] = b := (List.getElem?_eq_some_iff.1 hb).2
            rw [arr_set hbv]
            by_cases e : id = i
            · subst e
              obtain ⟨hgl, hge⟩ := List.getElem?_eq_some_iff.1 hg
              rw [hbe, hge, if_pos rfl, if_pos rfl]
              cases g'
              simp only at hk ha
              simp [hk, ha]
            · rw [if_neg e, if_neg]
              intro e'
              apply e
              exact (h.nodup.getElem_inj_iff).1 (hbe.trans e')

theorem place_ok (d : Dense) (m : Mem) : (place d m).1.Ok (place d m).2 ∧
    Grow m (place d m).2 ∧ (place d m).1.at_ (place d m).2 = d ∧
    (∀ b ∈ (place d m).1.bufs, m.length ≤ b) := by
  refine ⟨⟨by simp [place], by simp [place, List.nodup_range'], ?_⟩, grow_append _ _, ?_, ?_⟩
  · intro b hb
    simp only [place, List.mem_range'_1] at hb
    simp only [place, List.length_append, List.length_map]
    omega
  · cases d
    simp only [at_, place]
    congr 1
    apply List.ext_getElem
    · simp
    · intro i h1 h2
      simp only [List.getElem_zipWith, List.getElem_map, List.getElem_range']
      rw [arr_append_ge (by omega)]
      simp [Mem.arr, h2]
  · intro b hb
    simp only [place, List.mem_range'_1] at hb
    exact hb.1

theorem build_ok {t : HTable} {m : Mem} (h : t.Ok m) (d : Dense) (k : Nat)
    (hd : d.ags.map Group.alloc = (t.at_ m).ags.map Group.alloc ++ List.replicate k []) :
    (t.build m d).1.Ok (t.build m d).2 ∧ Grow m (t.build m d).2 ∧
    (t.build m d).1.at_ (t.build m d).2 = d ∧
    (∀ b ∈ (t.build m d).1.bufs, b ∈ t.bufs ∨ m.length ≤ b) := by
  have hlen : d.ags.length = t.bufs.length + k := by
    have := congrArg List.length hd
    simp only [List.length_map, List.length_append, List.length_replicate, at_ags,
      List.length_zipWith, h.len] at this
    omega
  have hk : d.ags.length - t.bufs.length = k := by omega
  have hmem : ∀ b ∈ (t.build m d).1.bufs, b ∈ t.bufs ∨ (m.length ≤ b ∧ b < m.length + k) := by
    intro b hb
    simp only [build, hk, List.mem_append, List.mem_range'_1] at hb
    exact hb
  refine ⟨⟨by simp [build, hk, hlen], ?_, ?_⟩, grow_append _ _, ?_, ?_⟩
  · simp only [build, hk]
    rw [List.nodup_append]
    refine ⟨h.nodup, List.nodup_range', ?_⟩
    intro a ha b hb e
    have := h.valid a ha
    rw [List.mem_range'_1] at hb
    omega
  · intro b hb
    simp only [build, hk, List.length_append, List.length_replicate]
    rcases hmem b hb with hb | hb
    · have := h.valid b hb
      omega
    · exact hb.2
  · cases d with
    | mk d1 d2 ags d4 d5 d6 d7 d8 d9 d10 =>
    simp only [at_, build, hk]
    congr 1
    simp only at hd hlen
    apply List.ext_getElem
    · simp [hlen]
    · intro i h1 h2
      have hi := congrArg (fun l => l[i]?) hd
      simp only [List.getElem?_map, List.getElem?_eq_getElem h2, Option.map_some] at hi
      simp only [List.getElem_zipWith, List.getElem_map]
      have key : Mem.arr (m ++ List.replicate k [])
          ((t.bufs ++ List.range' m.length k)[i]'(by simp; omega)) = ags[i].alloc := by
        by_cases hib : i < t.bufs.length
        · rw [List.getElem_append_left hib, arr_append_lt (h.valid _ (List.getElem_mem _))]
          rw [List.getElem?_append_left (by simp [at_ags, h.len]; omega)] at hi
          have hia : i < t.shape.ags.length := by rw [h.len]; exact hib
          simp only [at_ags, List.getElem?_map, List.getElem?_zipWith,
            List.getElem?_eq_getElem hia, List.getElem?_eq_getElem hib] at hi
          simp only [Option.map_some, Option.some.injEq] at hi
          exact hi.symm
        · rw [List.getElem_append_right (by omega), List.getElem_range', arr_append_ge (by omega)]
          rw [List.getElem?_append_right (by simp [at_ags, h.len]; omega)] at hi
          simp only [List.length_map, at_ags, List.length_zipWith, h.len, Nat.min_self] at hi
          rw [List.getElem?_replicate] at hi
          split at hi
          · simp only [Option.some.injEq] at hi
            rw [hi]
            simp [Mem.arr, List.getD_eq_getElem?_getD, List.getElem?_replicate]
            split <;> rfl
          · cases hi
      rw [key]
  · intro b hb
    exact (hmem b hb).imp id (·.1)

/-- The swap of one cell, with the copy that keeps the second value. -/
theorem swapCell_sim {t : HTable} {m : Mem} (h : t.Ok m) (a : Spec) (i j : Nat) :
    Sim (fun m' d => Ext (· ∈ t.bufs) m m' ∧ t.at_ m' = d) (t.swapCell m a i j)
      (Golearn.swapCell (t.at_ m) a i j) := by
  unfold HTable.swapCell Golearn.swapCell
  refine (get_sim h a i).bind fun v1 x1 R1 => ?_
  have e1 : t.at_ v1.1 = t.at_ m := at_ext R1.grow h (by simp)
  have h1 := h.ext R1.grow
  have R2' := get_sim h1 a j
  rw [e1] at R2'
  refine R2'.bind fun v2 x2 R2 => ?_
  obtain ⟨A1, A2, A3, A4, A5⟩ := alloc_facts v2.1 (v2.1.bytes v2.2)
  obtain ⟨M, hM⟩ : ∃ M, M = (v2.1.alloc (v2.1.bytes v2.2)) := ⟨_, rfl⟩
  rw [← hM] at A1 A2 A3 A4 A5 ⊢
  have g12 : Grow v1.1 M.1 := R2.grow.trans A1
  have g : Grow m M.1 := R1.grow.trans g12
  have eM : t.at_ M.1 = t.at_ m := at_ext g h (by simp)
  have hM' := h.ext g
  have hx1 : M.1.bytes v1.2 = x1 := by
    rw [bytes_ext g12 R1.inb.1 (by simp)]; exact R1.bytes
  have S1 := set_sim hM' a j v1.2
  rw [eM, hx1] at S1
  refine S1.bind fun m1 d1 Q1 => ?_
  have S2 := set_sim (hM'.ext Q1.1) a i M.2
  have hnot : M.2.buf ∉ t.bufs := by
    intro hb
    have := (h.ext (R1.grow.trans R2.grow)).valid _ hb
    omega
  have hx2 : m1.bytes M.2 = x2 := by
    rw [bytes_ext Q1.1 A2.1 hnot, A3]; exact R2.bytes
  rw [hx2, Q1.2] at S2
  refine S2.mono fun m2 d2 Q2 => ⟨?_, Q2.2⟩
  exact (g.ext).trans (Q1.1.trans Q2.1)

theorem swapLoop_sim {t : HTable} (as : List Spec) (i j : Nat) : ∀ {m : Mem}, t.Ok m →
    Sim (fun m' d => Ext (· ∈ t.bufs) m m' ∧ t.at_ m' = d) (t.swapLoop m as i j)
      (Golearn.swapLoop (t.at_ m) as i j) := by
  induction as with
  | nil => exact fun h => ⟨Ext.refl _ _, rfl⟩
  | cons a as ih =>
    intro m h
    refine (swapCell_sim h a i j).bind fun m1 d1 Q1 => ?_
    have := ih (h.ext Q1.1)
    rw [Q1.2] at this
    exact this.mono fun m2 d2 Q2 => ⟨Q1.1.trans Q2.1, Q2.2⟩

theorem swapRows_sim (srt : List Spec → List Spec) {t : HTable} {m : Mem} (h : t.Ok m) (i j : Nat) :
    Sim (fun m' d => Ext (· ∈ t.bufs) m m' ∧ t.at_ m' = d) (t.swapRows srt m i j)
      ((t.at_ m).swapRows srt i j) := by
  unfold HTable.swapRows Dense.swapRows
  cases (Grid.dense (t.at_ m)).resolve srt (t.at_ m).allAttributes with
  | err => trivial
  | panic => trivial
  | ok as => exact swapLoop_sim as i j h

theorem setAll_sim {t : HTable} (r : Nat) (vs : List BSlice) : ∀ (ss : List Spec) {m : Mem}, t.Ok m →
    (∀ v ∈ vs, v.buf < m.length ∧ v.buf ∉ t.bufs) →
    Sim (fun m' d => Ext (· ∈ t.bufs) m m' ∧ t.at_ m' = d) (t.setAll m ss r vs)
      (Golearn.setAll (t.at_ m) ss r (vs.map m.bytes)) := by
  induction vs with
  | nil => intro ss m h _; cases ss <;> exact ⟨Ext.refl _ _, rfl⟩
  | cons v vs ih =>
    intro ss m h hv
    cases ss with
    | nil => trivial
    | cons s ss =>
      refine (set_sim h s r v).bind fun m1 d1 Q1 => ?_
      have := ih ss (h.ext Q1.1) (fun v' hv' => by
        have := hv v' (List.mem_cons_of_mem _ hv')
        exact ⟨Nat.lt_of_lt_of_le this.1 Q1.1.le, this.2⟩)
      have e : vs.map m1.bytes = vs.map m.bytes := by
        apply List.map_congr_left
        intro v' hv'
        have := hv v' (List.mem_cons_of_mem _ hv')
        exact bytes_ext Q1.1 this.1 this.2
      rw [Q1.2, e] at this
      exact this.mono fun m2 d2 Q2 => ⟨Q1.1.trans Q2.1, Q2.2⟩

end HTable

/-! ## Grids -/

/-- What a row buffer holds. -/
structure Row (m : Mem) (bufs : List Nat) (q : Mem × List BSlice) (xs : List Bytes) : Prop where
  grow : Grow m q.1
  inb : ∀ v ∈ q.2, InB q.1 v
  bytes : q.2.map q.1.bytes = xs
  own : ∀ v ∈ q.2, v.buf ∈ bufs ∨ m.length ≤ v.buf

theorem collect_sim {α β : Type} (bufs : List Nat) (f : Mem → α → Res (Mem × BSlice))
    (F : β → Res Bytes) (h : α → β) : ∀ (as : List α) (m : Mem),
    (∀ m', Grow m m' → ∀ a ∈ as, Sim (HTable.Reads m' bufs) (f m' a) (F (h a))) →
    Sim (Row m bufs) (collect f m as) (mapRes F (as.map h)) := by
  intro as
  induction as with
  | nil => intro m _; exact ⟨Ext.refl _ _, by simp, rfl, by simp⟩
  | cons a as ih =>
    intro m hf
    simp only [collect, List.map_cons, mapRes]
    refine (hf m (Ext.refl _ _) a (List.mem_cons_self ..)).bind fun p x Q => ?_
    refine (ih p.1 fun m' g' a' ha' => hf m' (Q.grow.trans g') a' (List.mem_cons_of_mem _ ha')).bind
      fun q xs R => ?_
    refine ⟨Q.grow.trans R.grow, ?_, ?_, ?_⟩
    · intro v hv
      rcases List.mem_cons.1 hv with rfl | hv
      · exact Q.inb.ext R.grow
      · exact R.inb v hv
    · simp only [List.map_cons]
      rw [R.bytes, bytes_ext R.grow Q.inb.1 (by simp), Q.bytes]
    · intro v hv
      rcases List.mem_cons.1 hv with rfl | hv
      · exact Q.own
      · exact (R.own v hv).imp id fun k => Nat.le_trans Q.grow.le k

/-- Every table made so far is sound. -/
def TablesOk (ts : List HTable) (m : Mem) : Prop := ∀ t ∈ ts, t.Ok m

theorem TablesOk.ext {S : Nat → Prop} {ts : List HTable} {m m' : Mem} (h : TablesOk ts m)
    (e : Ext S m m') : TablesOk ts m' := fun t ht => (h t ht).ext e

theorem TablesOk.tableAt {ts : List HTable} {m : Mem} (h : TablesOk ts m) (i : Nat) :
    (tableAt ts i).Ok m := by
  unfold Golearn.tableAt
  cases hi : ts[i]? with
  | none => exact ⟨rfl, by simp, by simp⟩
  | some t => exact h t (List.mem_of_getElem? hi)

namespace HGrid

theorem at_ext {S : Nat → Prop} {ts : List HTable} {m m' : Mem} (e : Ext S m m') (h : TablesOk ts m)
    (g : HGrid) (hs : ∀ b ∈ (tableAt ts g.root).bufs, ¬ S b) : g.at_ ts m' = g.at_ ts m := by
  induction g with
  | table i => simp only [at_]; rw [HTable.at_ext e (h.tableAt i) hs]
  | view src _ _ _ _ ih => simp only [at_]; rw [ih hs]
  | filt f src _ _ ih => simp only [at_]; rw [ih hs]

open HTable (Reads)

theorem get_sim {ts : List HTable} (g : HGrid) : ∀ {m : Mem}, TablesOk ts m → ∀ (s : Spec) (row : Nat),
    Sim (Reads m (tableAt ts g.root).bufs) (g.get ts m s row) ((g.at_ ts m).get s row) := by
  induction g with
  | table i => intro m h s row; exact HTable.get_sim (h.tableAt i) s row
  | view src as rows cls mask ih =>
    intro m h s row
    cases rows with
    | none => exact ih h s row
    | some rs =>
      simp only [get, at_, Grid.get]
      cases rs.get? row with
      | some r => exact ih h s r
      | none =>
        simp only
        split
        · trivial
        · exact ih h s row
  | filt f src cls unf ih =>
    intro m h s row
    simp only [get, at_, Grid.get]
    cases Grid.newToOld f (src.at_ ts m) unf s with
    | err => trivial
    | panic => trivial
    | ok old =>
      simp only
      refine (ih h old row).bind fun p x R => ?_
      split
      · exact R
      · rw [R.bytes]
        cases f.transform old.attr s.attr x with
        | err => trivial
        | panic => trivial
        | ok y =>
          obtain ⟨A1, A2, A3, A4, _⟩ := alloc_facts p.1 y
          exact ⟨R.grow.trans A1, A2, A3, Or.inr (by
            simp only [A4]; exact R.grow.le)⟩

theorem collect_row {ts : List HTable} (g : HGrid) (r : Nat) (as : List Spec) {m : Mem}
    (h : TablesOk ts m) :
    Sim (Row m (tableAt ts g.root).bufs) (collect (fun m s => g.get ts m s r) m as)
      (mapRes (fun s => (g.at_ ts m).get s r) as) := by
  have S := collect_sim (tableAt ts g.root).bufs (fun m s => g.get ts m s r)
    (fun s => (g.at_ ts m).get s r) id as m (by
    intro m' e a _
    have := get_sim g (h.ext e) a r
    rw [at_ext e h g (by simp)] at this
    exact this)
  rw [List.map_id] at S
  exact S

theorem rowVals_sim {ts : List HTable} (r : Nat) (g : HGrid) : ∀ (as : List Spec) {m : Mem},
    TablesOk ts m → Sim (Row m (tableAt ts g.root).bufs) (g.rowVals ts as m r)
      ((g.at_ ts m).rowVals as r) := by
  induction g with
  | table i => intro as m h; exact collect_row (.table i) r as h
  | view src vas rows cls mask ih =>
    intro as m h
    simp only [rowVals, at_, Grid.rowVals]
    cases mask with
    | false => exact ih as h
    | true =>
      simp only [if_true]
      cases GoMap.get? (rows.getD []) r with
      | none => trivial
      | some r' => exact collect_row src r' as h
  | filt f src cls unf ih =>
    intro as m h
    simp only [rowVals, at_, Grid.rowVals]
    cases mapRes (Grid.newToOld f (src.at_ ts m) unf) as with
    | err => trivial
    | panic => trivial
    | ok old =>
      simp only
      refine (ih old h).bind fun q xs R => ?_
      have S := collect_sim (tableAt ts src.root).bufs
        (fun m (p : (Spec × Spec) × BSlice) =>
          (f.transform p.1.1.attr p.1.2.attr (m.bytes p.2)).map fun x => m.alloc x)
        (fun p : (Spec × Spec) × Bytes => f.transform p.1.1.attr p.1.2.attr p.2)
        (fun p => (p.1, q.1.bytes p.2)) ((old.zip as).zip q.2) q.1 (by
          intro m' e p hp
          obtain ⟨p1, v⟩ := p
          have hv : v ∈ q.2 := (List.of_mem_zip hp).2
          simp only
          rw [bytes_ext e (R.inb v hv).1 (by simp)]
          cases f.transform p1.1.attr p1.2.attr (q.1.bytes v) with
          | err => trivial
          | panic => trivial
          | ok y =>
            obtain ⟨A1, A2, A3, A4, _⟩ := alloc_facts m' y
            exact ⟨A1, A2, A3, Or.inr (Nat.le_of_eq A4.symm)⟩)
      have e : ((old.zip as).zip q.2).map (fun p => (p.1, q.1.bytes p.2)) = (old.zip as).zip xs := by
        rw [← R.bytes, List.zip_map_right]
        rfl
      rw [e] at S
      exact S.mono fun q' ys R' => ⟨R.grow.trans R'.grow, R'.inb, R'.bytes,
        fun v hv => (R'.own v hv).imp id fun k => Nat.le_trans R.grow.le k⟩

theorem copyRows_sim {ts : List HTable} (g : HGrid) (dst : HTable) (s1 s2 : List Spec) (G : Grid)
    (hdis : ∀ b ∈ dst.bufs, b ∉ (tableAt ts g.root).bufs) :
    ∀ (rs : List Nat) {m : Mem}, TablesOk ts m → dst.Ok m → g.at_ ts m = G →
    Sim (fun m' q => Ext (· ∈ dst.bufs) m m' ∧ (dst.at_ m', false) = q)
      (g.copyRows ts dst s1 s2 m rs)
      (mapOver (G.rowVals s1) (fun d v r => (Golearn.setAll d s2 r v).map fun d' => (d', Ctl.cont))
        (dst.at_ m) rs) := by
  intro rs
  induction rs with
  | nil => intro m _ _ _; exact ⟨Ext.refl _ _, rfl⟩
  | cons r rs ih =>
    intro m h hd hG
    simp only [copyRows, mapOver]
    have S := rowVals_sim r g s1 h
    rw [hG] at S
    refine S.bind fun q xs R => ?_
    have S2 := HTable.setAll_sim r q.2 s2 (hd.ext R.grow) (by
      intro v hv
      refine ⟨(R.inb v hv).1, ?_⟩
      rcases R.own v hv with hb | hb
      · exact fun hb' => hdis _ hb' hb
      · intro hb'
        have := hd.valid _ hb'
        omega)
    rw [R.bytes, HTable.at_ext R.grow hd (by simp)] at S2
    have S2' : Sim (fun m' (p : Dense × Ctl) => Ext (· ∈ dst.bufs) q.1 m' ∧ p = (dst.at_ m', Ctl.cont))
        (dst.setAll q.1 s2 r q.2) ((Golearn.setAll (dst.at_ m) s2 r xs).map fun d' => (d', Ctl.cont)) := by
      revert S2
      cases dst.setAll q.1 s2 r q.2 <;> cases Golearn.setAll (dst.at_ m) s2 r xs <;>
        simp only [Sim, Res.map, Res.bind, imp_self]
      rintro ⟨h1, rfl⟩
      exact ⟨h1, rfl⟩
    refine S2'.bind fun m1 p1 Q => ?_
    obtain ⟨Q1, rfl⟩ := Q
    simp only
    have e1 : Ext (· ∈ dst.bufs) m m1 := R.grow.ext.trans Q1
    have S3 := ih (h.ext e1) (hd.ext e1) (by
      rw [at_ext e1 h g (fun b hb hb' => hdis b hb' hb)]; exact hG)
    exact S3.mono fun m2 q2 Q2 => ⟨e1.trans Q2.1, Q2.2⟩

/-- `NewDenseCopy` makes the table the value model describes, in arrays of its own. -/
theorem copy_sim (pg : Nat) {ts : List HTable} (g : HGrid) (classes : List Attr) (order : List Nat)
    {m : Mem} (h : TablesOk ts m) :
    Sim (fun p d => Grow m p.2 ∧ p.1.Ok p.2 ∧ (∀ b ∈ p.1.bufs, m.length ≤ b) ∧ p.1.at_ p.2 = d)
      (g.copy pg ts classes order m) (newDenseCopy pg (g.at_ ts m) classes order) := by
  unfold copy newDenseCopy
  cases copyStructure pg (g.at_ ts m) classes with
  | err => trivial
  | panic => trivial
  | ok p =>
    simp only [Res.bind_ok]
    obtain ⟨K1, K2, K3, K4⟩ := HTable.place_ok (p.1.extend (g.at_ ts m).size.2) m
    obtain ⟨q, hq⟩ : ∃ q, q = HTable.place (p.1.extend (g.at_ ts m).size.2) m := ⟨_, rfl⟩
    rw [← hq] at K1 K2 K3 K4 ⊢
    unfold Grid.mapOverRows
    cases (g.at_ ts m).mapPrep p.2.1 with
    | err => exact ⟨K2, K1, K4, K3⟩
    | panic => trivial
    | ok _ =>
      simp only [Res.bind_ok]
      have S := copyRows_sim g q.1 p.2.1 p.2.2 (g.at_ ts m) (by
        intro b hb hb'
        have := (h.tableAt g.root).valid b hb'
        have := K4 b hb
        omega) order (h.ext K2) K1 (at_ext K2 h g (by simp))
      rw [K3] at S
      cases hc : g.copyRows ts q.1 p.2.1 p.2.2 q.2 order with
      | err =>
        rw [hc] at S
        cases hv : mapOver ((g.at_ ts m).rowVals p.2.1) (fun d v r => (Golearn.setAll d p.2.2 r v).map fun d' => (d', Ctl.cont))
          (p.1.extend (g.at_ ts m).size.2) order <;> rw [hv] at S <;> simp only [Sim] at S ⊢
        exact ⟨K2, K1, K4, K3⟩
      | panic =>
        rw [hc] at S
        cases hv : mapOver ((g.at_ ts m).rowVals p.2.1) (fun d v r => (Golearn.setAll d p.2.2 r v).map fun d' => (d', Ctl.cont))
          (p.1.extend (g.at_ ts m).size.2) order <;> rw [hv] at S <;> simp only [Sim] at S ⊢
      | ok m' =>
        rw [hc] at S
        cases hv : mapOver ((g.at_ ts m).rowVals p.2.1) (fun d v r => (Golearn.setAll d p.2.2 r v).map fun d' => (d', Ctl.cont))
          (p.1.extend (g.at_ ts m).size.2) order <;> rw [hv] at S <;> simp only [Sim] at S ⊢
        obtain ⟨E, rfl⟩ := S
        refine ⟨?_, K1.ext E, K4, rfl⟩
        refine (K2.ext.trans E).mono ?_
        intro b hb hb'
        have := K4 b hb'
        omega

end HGrid

end Golearn
