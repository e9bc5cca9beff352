import Verif.Model.Group
import Verif.Spec.Cells

namespace Golearn

/-! ## Bits -/

theorem and_bit_pos (b : Byte) (i : Nat) (hi : i < 8) :
    (0 < (b &&& ((1#8) <<< i)).toNat) ↔ b.getLsbD i = true := by
  have h : (1#8) <<< i = BitVec.twoPow 8 i := by rw [BitVec.twoPow_eq]
  rw [h, BitVec.and_twoPow]
  cases hb : b.getLsbD i
  · simp
  · simp only [if_true, BitVec.toNat_twoPow, iff_true]
    have : 2 ^ i < 2 ^ 8 := Nat.pow_lt_pow_right (by omega) hi
    rw [Nat.mod_eq_of_lt this]
    exact Nat.two_pow_pos i

theorem getLsbD_bit (i j : Nat) (hj : j < 8) (hi : i < 8) :
    ((1#8) <<< i).getLsbD j = decide (i = j) := by
  have h : (1#8) <<< i = BitVec.twoPow 8 i := by rw [BitVec.twoPow_eq]
  rw [h, BitVec.getLsbD_twoPow]
  simp [hi]

/-! ## Offsets -/

theorem pair_eq_of_lin {n r c r' c' : Nat} (hc : c < n) (hc' : c' < n)
    (h : r * n + c = r' * n + c') : r = r' ∧ c = c' := by
  have h1 : (r * n + c) / n = r := by
    rw [Nat.mul_comm, Nat.mul_add_div (by omega), Nat.div_eq_of_lt hc]; omega
  have h2 : (r' * n + c') / n = r' := by
    rw [Nat.mul_comm, Nat.mul_add_div (by omega), Nat.div_eq_of_lt hc']; omega
  have : r = r' := by rw [← h1, ← h2, h]
  subst this
  exact ⟨rfl, by omega⟩

theorem lin_lt {n rows r c : Nat} (hc : c < n) (hr : r < rows) : r * n + c < rows * n := by
  have : (r + 1) * n ≤ rows * n := Nat.mul_le_mul_right n hr
  rw [Nat.succ_mul] at this
  omega

theorem fixedOff_eq (row n col s : Nat) : row * (n * s) + col * s = (row * n + col) * s := by
  rw [Nat.add_mul, Nat.mul_assoc]

theorem block_bound {k m s : Nat} (h : k < m) : k * s + s ≤ m * s := by
  have : (k + 1) * s ≤ m * s := Nat.mul_le_mul_right s h
  rw [Nat.succ_mul] at this
  exact this

/-! ## Splice -/

theorem splice_length (alloc : Bytes) (off : Nat) (v : Bytes) (h : off + v.length ≤ alloc.length) :
    (Group.splice alloc off v).length = alloc.length := by
  simp [Group.splice]; omega

theorem splice_getElem? (alloc : Bytes) (off : Nat) (v : Bytes) (h : off + v.length ≤ alloc.length)
    (i : Nat) : (Group.splice alloc off v)[i]? =
      if off ≤ i ∧ i < off + v.length then v[i - off]? else alloc[i]? := by
  unfold Group.splice
  have hv : v.take (alloc.length - off) = v := List.take_of_length_le (by omega)
  rw [hv]
  have ht : (alloc.take off).length = off := by simp; omega
  by_cases h1 : i < off
  · have : ¬ (off ≤ i ∧ i < off + v.length) := by omega
    rw [if_neg this, List.append_assoc, List.getElem?_append_left (by omega),
      List.getElem?_take_of_lt h1]
  · by_cases h2 : i < off + v.length
    · rw [if_pos ⟨by omega, h2⟩, List.getElem?_append_left (by simp; omega),
        List.getElem?_append_right (by omega), ht]
    · have : ¬ (off ≤ i ∧ i < off + v.length) := by omega
      rw [if_neg this, List.getElem?_append_right (by simp; omega), List.getElem?_drop]
      congr 1
      simp; omega

theorem window_ext (a b : Bytes) (o s : Nat) (h : ∀ i, o ≤ i → i < o + s → a[i]? = b[i]?) :
    (a.drop o).take s = (b.drop o).take s := by
  apply List.ext_getElem?
  intro i
  simp only [List.getElem?_take, List.getElem?_drop]
  split
  · exact h _ (by omega) (by omega)
  · rfl

namespace Group

/-- Storage holds exactly `rows` rows. -/
def Sized (g : Group) (rows : Nat) : Prop := g.alloc.length = rows * g.rowSize

theorem binOff_lt {g : Group} {rows col row : Nat} (hk : g.kind = .binary)
    (hs : g.Sized rows) (hc : col < g.attrs.length) (hr : row < rows) :
    g.offset col row < g.alloc.length := by
  unfold Sized at hs
  rw [hs]
  simp only [offset, hk]
  apply lin_lt _ hr
  simp only [rowSize, hk]; omega

theorem fixedOff_le {g : Group} {rows col row n : Nat} (hk : g.kind = .fixed n)
    (hs : g.Sized rows) (hc : col < g.attrs.length) (hr : row < rows) :
    g.offset col row + n ≤ g.alloc.length := by
  unfold Sized at hs
  rw [hs]
  simp only [offset, hk, rowSize]
  rw [fixedOff_eq, ← Nat.mul_assoc]
  exact block_bound (lin_lt hc hr)

theorem set_spec {g : Group} {rows col row : Nat} {v : Bytes} (hs : g.Sized rows)
    (hc : col < g.attrs.length) (hr : row < rows) (hv : acceptable g.kind v) :
    ∃ g', g.set col row v = Res.ok g' ∧ g'.kind = g.kind ∧ g'.attrs = g.attrs ∧ g'.Sized rows ∧
      g'.get col row = Res.ok (cellValue g.kind (some v)) ∧
      ∀ col' row', col' < g.attrs.length → row' < rows → (col', row') ≠ (col, row) →
        g'.get col' row' = g.get col' row' := by
  cases hk : g.kind with
  | fixed n =>
    rw [hk] at hv
    simp only [acceptable] at hv
    have hle := fixedOff_le hk hs hc hr
    refine ⟨{ g with alloc := splice g.alloc (g.offset col row) v }, ?_, hk, rfl, ?_, ?_, ?_⟩
    · simp only [set, hk]
      rw [if_neg (by omega), if_neg (by omega), if_neg (by omega)]
    · unfold Sized at hs ⊢
      show (splice _ _ _).length = rows * (rowSize _)
      rw [splice_length _ _ _ (by omega), hs]
      simp [rowSize, hk]
    · have hoff : ({ kind := .fixed n, attrs := g.attrs, alloc := splice g.alloc (g.offset col row) v } : Group).offset col row
          = g.offset col row := by simp [offset, rowSize, hk]
      simp only [get, hk, hoff]
      rw [splice_length _ _ _ (by omega), if_neg (by omega)]
      simp only [cellValue]
      congr 1
      apply List.ext_getElem?
      intro i
      rw [List.getElem?_take]
      split
      · rw [List.getElem?_drop, splice_getElem? _ _ _ (by omega), if_pos (by omega)]
        congr 1; omega
      · rw [List.getElem?_eq_none]; omega
    · intro col' row' hc' hr' hne
      have hle' := fixedOff_le hk hs hc' hr'
      have hoff : ({ kind := .fixed n, attrs := g.attrs, alloc := splice g.alloc (g.offset col row) v } : Group).offset col' row'
          = g.offset col' row' := by simp [offset, rowSize, hk]
      simp only [get, hk, hoff]
      rw [splice_length _ _ _ (by omega), if_neg (by omega), if_neg (by omega)]
      congr 1
      apply window_ext
      intro i h1 h2
      rw [splice_getElem? _ _ _ (by omega), if_neg]
      intro ⟨h3, h4⟩
      apply hne
      simp only [offset, hk, rowSize, fixedOff_eq] at h1 h2 h3 h4
      have hkk : row' * g.attrs.length + col' = row * g.attrs.length + col := by
        rcases Nat.lt_trichotomy (row' * g.attrs.length + col') (row * g.attrs.length + col)
          with h | h | h
        · have := block_bound (s := n) h; omega
        · exact h
        · have := block_bound (s := n) h; omega
      obtain ⟨e1, e2⟩ := pair_eq_of_lin hc' hc hkk
      rw [e1, e2]
  | binary =>
    rw [hk] at hv
    simp only [acceptable] at hv
    have hlt := binOff_lt hk hs hc hr
    match v, hv with
    | v0 :: vs, _ =>
    have hget : g.alloc[g.offset col row]? = some (g.alloc[g.offset col row]) :=
      List.getElem?_eq_getElem hlt
    generalize hb : g.alloc[g.offset col row] = b at hget
    let b' : Byte := if v0.toNat > 0 then b ||| ((1#8) <<< (col % 8))
      else b &&& (~~~ ((1#8) <<< (col % 8)))
    have hm : col % 8 < 8 := Nat.mod_lt _ (by omega)
    have hbit : ∀ j, j < 8 → b'.getLsbD j =
        if col % 8 = j then decide (0 < v0.toNat) else b.getLsbD j := by
      intro j hj
      simp only [b']
      by_cases hp : v0.toNat > 0
      · rw [if_pos hp, BitVec.getLsbD_or, getLsbD_bit _ _ hj hm]
        by_cases he : col % 8 = j <;> simp [he, hp]
      · rw [if_neg hp, BitVec.getLsbD_and, BitVec.getLsbD_not, getLsbD_bit _ _ hj hm]
        by_cases he : col % 8 = j <;> simp [he, hp, hj]
    refine ⟨{ g with alloc := g.alloc.set (g.offset col row) b' }, ?_, hk, rfl, ?_, ?_, ?_⟩
    · simp only [set, hk]
      rw [hget]
    · unfold Sized at hs ⊢
      simp [hs, rowSize, hk]
    · have hoff : ({ kind := .binary, attrs := g.attrs, alloc := g.alloc.set (g.offset col row) b' } : Group).offset col row
          = g.offset col row := by simp [offset, rowSize, hk]
      simp only [get, hk, hoff, List.getElem?_set_self hlt, cellValue]
      have := hbit (col % 8) hm
      rw [if_pos rfl] at this
      by_cases hp : 0 < v0.toNat
      · rw [if_pos ((and_bit_pos b' _ hm).2 (by rw [this]; simp [hp])), if_pos hp]
      · rw [if_neg (fun h => by rw [gt_iff_lt, and_bit_pos b' _ hm, this] at h; simp at h; omega), if_neg hp]
    · intro col' row' hc' hr' hne
      have hlt' := binOff_lt hk hs hc' hr'
      have hoff : ({ kind := .binary, attrs := g.attrs, alloc := g.alloc.set (g.offset col row) b' } : Group).offset col' row'
          = g.offset col' row' := by simp [offset, rowSize, hk]
      simp only [get, hk, hoff]
      by_cases he : g.offset col row = g.offset col' row'
      · rw [← he, List.getElem?_set_self hlt, hget]
        have hm' : col' % 8 < 8 := Nat.mod_lt _ (by omega)
        have hne' : col % 8 ≠ col' % 8 := by
          intro hmm
          apply hne
          simp only [offset, hk, rowSize] at he
          obtain ⟨e1, e2⟩ := pair_eq_of_lin (by omega) (by omega) he
          rw [e1]
          congr 1
          omega
        have := hbit (col' % 8) hm'
        rw [if_neg hne'] at this
        have e : (0 < (b' &&& ((1#8) <<< (col' % 8))).toNat) ↔
            (0 < (b &&& ((1#8) <<< (col' % 8))).toNat) := by
          rw [and_bit_pos _ _ hm', and_bit_pos _ _ hm', this]
        show (if 0 < (b' &&& ((1#8) <<< (col' % 8))).toNat then _ else _) =
          (if 0 < (b &&& ((1#8) <<< (col' % 8))).toNat then _ else _)
        by_cases hh : 0 < (b &&& ((1#8) <<< (col' % 8))).toNat
        · rw [if_pos hh, if_pos (e.2 hh)]
        · rw [if_neg hh, if_neg (fun h => hh (e.1 h))]
      · rw [List.getElem?_set_ne he]

theorem resize_rowSize (g : Group) (k : Nat) : (g.resize k).rowSize = g.rowSize := rfl

theorem resize_sized {g : Group} {rows more : Nat} (hs : g.Sized rows) :
    (g.resize (more * g.rowSize)).Sized (rows + more) := by
  unfold Sized at *
  simp [resize, hs, Nat.add_mul, rowSize]

theorem get_resize_old {g : Group} {rows more col row : Nat} (hs : g.Sized rows)
    (hc : col < g.attrs.length) (hr : row < rows) :
    (g.resize (more * g.rowSize)).get col row = g.get col row := by
  cases hk : g.kind with
  | fixed n =>
    have hle := fixedOff_le hk hs hc hr
    have hoff : (g.resize (more * g.rowSize)).offset col row = g.offset col row := by
      simp [offset, rowSize, resize, hk]
    have hkr : (g.resize (more * g.rowSize)).kind = .fixed n := hk
    simp only [get, hk, hoff, hkr]
    rw [if_neg (by simp [resize]; omega), if_neg (by omega)]
    congr 1
    apply window_ext
    intro i h1 h2
    simp only [resize]
    rw [List.getElem?_append_left (by omega)]
  | binary =>
    have hlt := binOff_lt hk hs hc hr
    have hoff : (g.resize (more * g.rowSize)).offset col row = g.offset col row := by
      simp [offset, rowSize, resize, hk]
    have hkr : (g.resize (more * g.rowSize)).kind = .binary := hk
    simp only [get, hk, hoff, hkr]
    simp only [resize]
    rw [List.getElem?_append_left hlt]

theorem get_resize_new {g : Group} {rows more col row : Nat} (hs : g.Sized rows)
    (hc : col < g.attrs.length) (hr : rows ≤ row) (hr' : row < rows + more) :
    (g.resize (more * g.rowSize)).get col row = Res.ok (cellValue g.kind none) := by
  have hs' := resize_sized (more := more) hs
  cases hk : g.kind with
  | fixed n =>
    have hkr : (g.resize (more * g.rowSize)).kind = .fixed n := hk
    have hle := fixedOff_le hkr hs' hc hr'
    simp only [get, hkr, cellValue]
    rw [if_neg (by omega)]
    congr 1
    have hge : g.alloc.length ≤ (g.resize (more * g.rowSize)).offset col row := by
      unfold Sized at hs
      rw [hs]
      simp only [offset, hkr, resize_rowSize]
      have := Nat.mul_le_mul_right g.rowSize hr
      omega
    apply List.ext_getElem?
    intro i
    rw [List.getElem?_take, List.getElem?_drop]
    split
    · rename_i hi
      simp only [resize] at hle hge ⊢
      rw [List.getElem?_append_right (by omega), List.getElem?_replicate, List.getElem?_replicate]
      simp only [List.length_append, List.length_replicate] at hle
      rw [if_pos (by omega), if_pos hi]
    · rw [List.getElem?_replicate, if_neg (by omega)]
  | binary =>
    have hkr : (g.resize (more * g.rowSize)).kind = .binary := hk
    have hlt := binOff_lt hkr hs' hc hr'
    have hge : g.alloc.length ≤ (g.resize (more * g.rowSize)).offset col row := by
      unfold Sized at hs
      rw [hs]
      simp only [offset, hkr, resize_rowSize]
      have := Nat.mul_le_mul_right g.rowSize hr
      omega
    have hz : (g.resize (more * g.rowSize)).alloc[(g.resize (more * g.rowSize)).offset col row]? =
        some 0#8 := by
      simp only [resize] at hlt hge ⊢
      simp only [List.length_append, List.length_replicate] at hlt
      rw [List.getElem?_append_right (by omega), List.getElem?_replicate, if_pos (by omega)]
    simp only [get, hkr, hz, cellValue]
    simp

theorem set_panic_row {g : Group} {rows col row : Nat} {v : Bytes} (hs : g.Sized rows)
    (hr : rows ≤ row) (hk0 : g.kind ≠ .fixed 0) :
    g.set col row v = Res.panic := by
  have hge : ∀ k, rows * g.rowSize ≤ row * g.rowSize + k := fun k => by
    have := Nat.mul_le_mul_right g.rowSize hr
    omega
  unfold Sized at hs
  cases hk : g.kind with
  | fixed n =>
    simp only [set, hk]
    split
    · rfl
    · split
      · rfl
      · rw [if_pos]
        have := hge (col * n)
        have hn : n ≠ 0 := fun h => hk0 (by rw [hk, h])
        simp only [offset, hk] at *
        omega
  | binary =>
    simp only [set, hk]
    have hn : g.alloc[g.offset col row]? = none := by
      apply List.getElem?_eq_none
      simp only [offset, hk, hs]
      exact hge _
    cases v with
    | nil => rfl
    | cons v0 vs => simp [hn]

theorem set_panic_value {g : Group} {col row : Nat} {v : Bytes} (hv : ¬ acceptable g.kind v) :
    g.set col row v = Res.panic := by
  cases hk : g.kind with
  | fixed n =>
    rw [hk] at hv
    simp only [acceptable] at hv
    simp only [set, hk]
    rw [if_pos hv]
  | binary =>
    rw [hk] at hv
    simp only [acceptable, ne_eq, Decidable.not_not] at hv
    subst hv
    simp only [set, hk]

theorem set_frame {g g' : Group} {col row : Nat} {v : Bytes} (h : g.set col row v = Res.ok g') :
    g'.kind = g.kind ∧ g'.attrs = g.attrs ∧ g'.alloc.length = g.alloc.length := by
  cases hk : g.kind with
  | fixed n =>
    simp only [set, hk] at h
    by_cases h1 : v.length ≠ n
    · rw [if_pos h1] at h; cases h
    · rw [if_neg h1] at h
      by_cases h2 : g.offset col row > g.alloc.length
      · rw [if_pos h2] at h; cases h
      · rw [if_neg h2] at h
        by_cases h3 : min (g.alloc.length - g.offset col row) v.length ≠ n
        · rw [if_pos h3] at h; cases h
        · rw [if_neg h3] at h
          simp only [Res.ok.injEq] at h
          subst h
          exact ⟨rfl, rfl, splice_length _ _ _ (by omega)⟩
  | binary =>
    simp only [set, hk] at h
    cases v with
    | nil => cases h
    | cons v0 vs =>
      cases ha : g.alloc[g.offset col row]? with
      | none => simp [ha] at h
      | some b =>
        simp only [ha, Res.ok.injEq] at h
        subst h
        simp

end Group

end Golearn
