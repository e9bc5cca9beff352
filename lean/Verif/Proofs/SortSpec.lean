import Verif.Proofs.Sort
import Verif.Spec.Order

namespace Golearn

/-! ## Row keys -/

theorem flipLow_length (b : Bytes) : (flipLow b).length = b.length := by
  cases b <;> rfl

theorem sortRowBytes_reverse (row : List Bytes) (h : ∀ b ∈ row, b ≠ []) :
    sortRowBytes row.reverse = Res.ok ((onLast flipLow row).reverse.flatten) := by
  rcases List.eq_nil_or_concat row with rfl | ⟨xs, x, rfl⟩
  · rfl
  · have hl : ∀ xs : List Bytes, onLast flipLow (xs ++ [x]) = xs ++ [flipLow x] := by
      intro xs
      induction xs with
      | nil => rfl
      | cons y ys ih =>
        cases ys with
        | nil => rfl
        | cons z zs =>
          simp only [List.cons_append] at ih ⊢
          simp only [onLast, ih]
    simp only [List.concat_eq_append] at h ⊢
    rw [hl, List.reverse_append, List.reverse_append]
    have hx := h x (by simp)
    cases x with
    | nil => exact absurd rfl hx
    | cons b bs => simp [sortRowBytes, sortXorOp, flipLow]

/-- Comparing the concatenated bytes is comparing lexicographically. -/
theorem leValue_lex : ∀ (xs ys : List Bytes), xs.map List.length = ys.map List.length →
    (leValue xs.reverse.flatten < leValue ys.reverse.flatten ↔
      lexLt (xs.map leValue) (ys.map leValue)) ∧
    (leValue xs.reverse.flatten = leValue ys.reverse.flatten ↔ xs.map leValue = ys.map leValue) := by
  intro xs
  induction xs with
  | nil =>
    intro ys h
    cases ys with
    | nil => simp [lexLt, leValue]
    | cons _ _ => simp at h
  | cons x xs ih =>
    intro ys h
    cases ys with
    | nil => simp at h
    | cons y ys =>
      simp only [List.map_cons, List.cons.injEq] at h
      obtain ⟨i1, i2⟩ := ih ys h.2
      have hlen : (xs.reverse.flatten).length = (ys.reverse.flatten).length := by
        simp only [List.length_flatten, List.map_reverse, List.sum_reverse, h.2]
      have l1 := leValue_lt xs.reverse.flatten
      have l2 := leValue_lt ys.reverse.flatten
      rw [← hlen] at l2
      simp only [List.reverse_cons, List.flatten_append, List.flatten_cons, List.flatten_nil,
        List.append_nil, leValue_append, List.map_cons, lexLt, List.cons.injEq]
      rw [← hlen, ← i1, ← i2]
      generalize 256 ^ (xs.reverse.flatten).length = M at *
      generalize leValue xs.reverse.flatten = u at *
      generalize leValue ys.reverse.flatten = v at *
      generalize leValue x = a at *
      generalize leValue y = b at *
      rcases Nat.lt_trichotomy a b with hab | hab | hab
      · have : M * (a + 1) ≤ M * b := Nat.mul_le_mul_left _ hab
        rw [Nat.mul_add] at this
        constructor <;> constructor <;> intro <;> omega
      · subst hab
        constructor <;> constructor <;> intro <;> omega
      · have : M * (b + 1) ≤ M * a := Nat.mul_le_mul_left _ hab
        rw [Nat.mul_add] at this
        constructor <;> constructor <;> intro <;> omega

theorem onLast_lengths (row : List Bytes) :
    (onLast flipLow row).map List.length = row.map List.length := by
  induction row with
  | nil => rfl
  | cons x xs ih =>
    cases xs with
    | nil => simp [onLast, flipLow_length]
    | cons y ys => simp only [onLast, List.map_cons, ih]

/-! ## The row callback -/

/-- Buffer contents for row `r`. -/
def rowBytes (g : Grid) (specs : List Spec) (r : Nat) : Bytes :=
  (onLast flipLow (specs.map fun s => g.cell s.attr r)).reverse.flatten

/-- Width of a stored value. -/
def attrWidth (a : Attr) : Nat := if a.isBin then 1 else 8

theorem wellFormed_width {a : Attr} {v : Bytes} (h : wellFormed a v) : v.length = attrWidth a := by
  unfold wellFormed at h
  unfold attrWidth
  split at h
  · rename_i hb; rw [if_pos hb]; rcases h with rfl | rfl <;> rfl
  · rename_i hb; rw [if_neg hb]; exact h

theorem attrWidth_pos (a : Attr) : 0 < attrWidth a := by
  unfold attrWidth; split <;> omega

theorem rowCells_lengths {g : Grid} {n : Nat} (T : g.typed n) {specs : List Spec}
    (hs : Resolved g specs) {r : Nat} (hr : r < n) :
    (specs.map fun s => g.cell s.attr r).map List.length = specs.map fun s => attrWidth s.attr := by
  rw [List.map_map]
  apply List.map_congr_left
  intro s hsm
  exact wellFormed_width (T s.attr (hs s hsm).1 r hr)

theorem rowBytes_length {g : Grid} {n : Nat} (T : g.typed n) {specs : List Spec}
    (hs : Resolved g specs) {r : Nat} (hr : r < n) :
    (rowBytes g specs r).length = (specs.map fun s => attrWidth s.attr).sum := by
  unfold rowBytes
  rw [List.length_flatten, List.map_reverse, List.sum_reverse, onLast_lengths,
    rowCells_lengths T hs hr]

theorem sortCallback_spec {g : Grid} {n : Nat} (T : g.typed n) {specs : List Spec}
    (hs : Resolved g specs) {r : Nat} (hr : r < n) {s : SortBuf} (hb : s.buf = [])
    (h1 : s.ds.length = n) (h2 : s.rs.length = n)
    (h3 : s.rowSize = 0 ∨ s.rowSize = (specs.map fun s => attrWidth s.attr).sum) :
    sortCallback s (specs.reverse.map fun s => g.cell s.attr r) r =
      Res.ok (⟨[], s.ds.set r (rowBytes g specs r), s.rs.set r r,
        (specs.map fun s => attrWidth s.attr).sum⟩, Ctl.cont) := by
  have hrow : (if s.rowSize = 0 then ((specs.reverse.map fun s => g.cell s.attr r).map
      List.length).sum else s.rowSize) = (specs.map fun s => attrWidth s.attr).sum := by
    rw [List.map_reverse, List.map_reverse, List.sum_reverse, rowCells_lengths T hs hr]
    split
    · rfl
    · rcases h3 with h | h
      · contradiction
      · exact h
  have hbytes : sortRowBytes (specs.reverse.map fun s => g.cell s.attr r) =
      Res.ok (rowBytes g specs r) := by
    rw [List.map_reverse]
    apply sortRowBytes_reverse
    intro b hb
    obtain ⟨s, hsm, rfl⟩ := List.mem_map.1 hb
    have e1 := wellFormed_width (T s.attr (hs s hsm).1 r hr)
    have e2 := attrWidth_pos s.attr
    intro h
    rw [h] at e1
    simp at e1
    omega
  have hlen := rowBytes_length T hs hr
  unfold sortCallback
  simp only [hrow, hbytes, Res.bind_ok, hb, List.nil_append]
  rw [if_pos ⟨by omega, by omega⟩, ← hlen]
  simp

theorem mapOver_sort {g : Grid} {n : Nat} (T : g.typed n) {specs : List Spec}
    (hs : Resolved g specs) (vals : Nat → Res (List Bytes)) (order : List Nat)
    (hv : ∀ r ∈ order, r < n ∧ vals r = Res.ok (specs.reverse.map fun s => g.cell s.attr r))
    (s : SortBuf) (hb : s.buf = []) (h1 : s.ds.length = n) (h2 : s.rs.length = n)
    (h3 : s.rowSize = 0 ∨ s.rowSize = (specs.map fun s => attrWidth s.attr).sum) :
    ∃ s', mapOver vals sortCallback s order = Res.ok (s', false) ∧
      s'.ds.length = n ∧ s'.rs.length = n ∧
      (∀ r, s'.ds[r]? = if r ∈ order then some (rowBytes g specs r) else s.ds[r]?) ∧
      (∀ r, s'.rs[r]? = if r ∈ order then some r else s.rs[r]?) ∧
      s'.rowSize = (if order = [] then s.rowSize else (specs.map fun s => attrWidth s.attr).sum) := by
  induction order generalizing s with
  | nil => exact ⟨s, rfl, h1, h2, by simp, by simp, by simp⟩
  | cons r rs ih =>
    obtain ⟨hr, hvr⟩ := hv r (by simp)
    have hc := sortCallback_spec T hs hr hb h1 h2 h3
    obtain ⟨s', e, l1, l2, v1, v2, v3⟩ := ih (fun q hq => hv q (by simp [hq]))
      ⟨[], s.ds.set r (rowBytes g specs r), s.rs.set r r,
        (specs.map fun s => attrWidth s.attr).sum⟩ rfl (by simpa using h1) (by simpa using h2)
        (Or.inr rfl)
    refine ⟨s', ?_, l1, l2, ?_, ?_, ?_⟩
    · simp only [mapOver, hvr, Res.bind_ok, hc, e]
    · intro q
      rw [v1]
      by_cases hq : q ∈ rs
      · simp [hq]
      · by_cases hqr : q = r
        · subst hqr; simp [hq, h1, hr]
        · simp only [hq, if_false, List.mem_cons, hqr, or_self]
          rw [List.getElem?_set_ne (fun e => hqr e.symm)]
    · intro q
      rw [v2]
      by_cases hq : q ∈ rs
      · simp [hq]
      · by_cases hqr : q = r
        · subst hqr; simp [hq, h2, hr]
        · simp only [hq, if_false, List.mem_cons, hqr, or_self]
          rw [List.getElem?_set_ne (fun e => hqr e.symm)]
    · rw [v3]; simp

/-! ## The whole of `createSortSpec` -/

/-- The swaps computed for a table order its rows by the (flipped) key, ties by row number. -/
theorem createSortSpec_spec {g : Grid} {n : Nat} (P : g.Presents n) (T : g.typed n)
    {specs : List Spec} (hs : Resolved g specs) {order : List Nat} (ho : g.RowOrder order) :
    ∃ sws, createSortSpec g order specs = Res.ok sws ∧ (∀ p ∈ sws, p.1 < n ∧ p.2 < n) ∧
      ∀ r q, r < q → q < n →
        lexLt (rowKeyFlipped g (specs.map Spec.attr) (srcRow sws r))
          (rowKeyFlipped g (specs.map Spec.attr) (srcRow sws q)) ∨
        (rowKeyFlipped g (specs.map Spec.attr) (srcRow sws r) =
          rowKeyFlipped g (specs.map Spec.attr) (srcRow sws q) ∧ srcRow sws r < srcRow sws q) := by
  have hp := P.order order ho
  have hs' : ∀ s ∈ specs.reverse, ∃ a ∈ g.allAttributes, g.getAttribute a = Res.ok s :=
    fun s h => ⟨s.attr, (hs s (by simpa using h)).1, (hs s (by simpa using h)).2⟩
  obtain ⟨i1, i2⟩ := P.iter specs.reverse hs'
  have hmem : ∀ r, r ∈ order ↔ r < n := fun r => by rw [hp.mem_iff, List.mem_range]
  obtain ⟨s, e, l1, l2, v1, v2, v3⟩ := mapOver_sort T hs (g.rowVals specs.reverse) order
    (fun r hr => ⟨(hmem r).1 hr, i2 r ((hmem r).1 hr)⟩)
    ⟨[], List.replicate n [], List.replicate n 0, 0⟩ rfl (by simp) (by simp) (Or.inl rfl)
  have hds : s.ds = (List.range n).map (rowBytes g specs) := by
    apply List.ext_getElem?
    intro r
    rw [v1 r]
    simp only [hmem]
    by_cases hr : r < n
    · simp [hr]
    · rw [if_neg hr, List.getElem?_eq_none (by simp; omega), List.getElem?_eq_none (by simp; omega)]
  have hrs : s.rs = List.range n := by
    apply List.ext_getElem?
    intro r
    rw [v2 r]
    simp only [hmem]
    by_cases hr : r < n
    · simp [hr]
    · rw [if_neg hr, List.getElem?_eq_none (by simp; omega), List.getElem?_eq_none (by simp; omega)]
  have hzip : s.ds.zip s.rs = (List.range n).map fun r => (rowBytes g specs r, r) := by
    rw [hds, hrs]
    conv_lhs => rw [← List.map_id (List.range n)]
    rw [List.map_map, List.zip_map']
    rfl
  have hlen : ∀ p ∈ s.ds.zip s.rs, p.1.length = s.rowSize ∧ p.1 = rowBytes g specs p.2 := by
    intro p hpm
    rw [hzip] at hpm
    obtain ⟨r, hr, rfl⟩ := List.mem_map.1 hpm
    have hr := List.mem_range.1 hr
    refine ⟨?_, rfl⟩
    rw [v3, if_neg (List.ne_nil_of_mem ((hmem r).2 hr))]
    exact rowBytes_length T hs hr
  have hpw : (s.ds.zip s.rs).Pairwise (passLt 0) := by
    rw [hzip, List.pairwise_map]
    refine List.pairwise_lt_range.imp ?_
    intro a b hab
    right
    simpa using hab
  obtain ⟨l', r1, r2, r3⟩ := radixPasses_spec s.rowSize 0 (s.ds.zip s.rs)
    (fun p hpm => by rw [(hlen p hpm).1]; omega) hpw
  rw [← List.range_eq_range'] at r1
  have hsnd : (l'.map Prod.snd).Perm (List.range n) := by
    have := r2.map Prod.snd
    rw [hzip, List.map_map] at this
    simpa [Function.comp_def] using this
  have hln : (l'.map Prod.snd).length = n := by rw [hsnd.length_eq]; simp
  obtain ⟨sws, c1, c2, c3⟩ := cycles_spec (rs := l'.map Prod.snd) (by rw [hln]; exact hsnd)
  rw [hln] at c1 c2 c3
  refine ⟨sws, ?_, c2, ?_⟩
  · simp only [createSortSpec, P.rows, Grid.mapOverRows, i1, Res.bind_ok, e, r1, hln, c1]
  · intro r q hrq hq
    have hl' : l'.length = n := by simpa using hln
    have er := c3 r (by omega)
    have eq' := c3 q hq
    rw [List.getElem?_map, List.getElem?_eq_getElem (by omega), Option.map_some,
      Option.some.injEq] at er eq'
    rw [← er, ← eq']
    have hpass := (List.pairwise_iff_getElem.1 r3) r q (by omega) (by omega) hrq
    have kr := hlen _ (r2.subset (List.getElem_mem (l := l') (n := r) (by omega)))
    have kq := hlen _ (r2.subset (List.getElem_mem (l := l') (n := q) (by omega)))
    unfold passLt at hpass
    rw [Nat.zero_add, List.take_of_length_le (by rw [kr.1]), List.take_of_length_le (by rw [kq.1]),
      kr.2, kq.2] at hpass
    have hrl : l'[r].2 < n := List.mem_range.1 (hsnd.subset (List.mem_map.2 ⟨_, List.getElem_mem _, rfl⟩))
    have hql : l'[q].2 < n := List.mem_range.1 (hsnd.subset (List.mem_map.2 ⟨_, List.getElem_mem _, rfl⟩))
    have hL := leValue_lex (onLast flipLow (specs.map fun s => g.cell s.attr l'[r].2))
      (onLast flipLow (specs.map fun s => g.cell s.attr l'[q].2)) (by
        rw [onLast_lengths, onLast_lengths, rowCells_lengths T hs hrl, rowCells_lengths T hs hql])
    unfold rowBytes at hpass
    rw [hL.1, hL.2] at hpass
    simpa [rowKeyFlipped, List.map_map, Function.comp_def] using hpass

/-! ## Reversal -/

theorem reverseSwaps_bnd (n : Nat) : ∀ p ∈ reverseSwaps n, p.1 < n ∧ p.2 < n := by
  intro p hp
  obtain ⟨i, hi, rfl⟩ := List.mem_map.1 hp
  have := List.mem_range.1 hi
  simp only
  omega

theorem srcRow_reverse (n : Nat) {r : Nat} (hr : r < n) : srcRow (reverseSwaps n) r = n - 1 - r := by
  have key : ∀ k, 2 * k ≤ n → ∀ r, r < n →
      srcRow ((List.range k).map fun i => (i, n - 1 - i)) r =
        if r < k ∨ n - 1 - r < k then n - 1 - r else r := by
    intro k
    induction k with
    | zero => intro _ r _; simp
    | succ k ih =>
      intro hk r hr
      rw [List.range_succ, List.map_append, List.map_singleton, srcRow_snoc, Equiv.swap_apply_def]
      by_cases h1 : r = k
      · rw [if_pos h1, ih (by omega) _ (by omega), if_neg (by omega), if_pos (by omega)]; omega
      · rw [if_neg h1]
        by_cases h2 : r = n - 1 - k
        · rw [if_pos h2, ih (by omega) _ (by omega), if_neg (by omega), if_pos (by omega)]; omega
        · rw [if_neg h2, ih (by omega) _ hr]
          by_cases h3 : r < k ∨ n - 1 - r < k
          · rw [if_pos h3, if_pos (by omega)]
          · rw [if_neg h3, if_neg (by omega)]
  unfold reverseSwaps
  rw [key (n / 2) (by omega) r hr]
  by_cases h : r < n / 2 ∨ n - 1 - r < n / 2
  · rw [if_pos h]
  · rw [if_neg h]; omega

/-! ## `Sort` and `LazySort` -/

/-- The row permutation that sorting amounts to. -/
def sortRow (sws : List (Nat × Nat)) (n : Nat) (descending : Bool) (r : Nat) : Nat :=
  if descending then srcRow sws (n - 1 - r) else srcRow sws r

theorem sortRow_perm {sws : List (Nat × Nat)} {n : Nat} (h : ∀ p ∈ sws, p.1 < n ∧ p.2 < n)
    (desc : Bool) : ((List.range n).map (sortRow sws n desc)).Perm (List.range n) := by
  have h1 := map_perm_range (n := n) (srcRow sws) (Equiv.injective _) (fun r hr => srcRow_lt h hr)
  cases desc with
  | false => exact h1
  | true =>
    have h2 := map_perm_range (n := n) (srcRow (sws ++ reverseSwaps n)) (Equiv.injective _)
      (fun r hr => srcRow_lt (fun p hp => by
        rcases List.mem_append.1 hp with hp | hp
        · exact h p hp
        · exact reverseSwaps_bnd n p hp) hr)
    have : (List.range n).map (srcRow (sws ++ reverseSwaps n)) =
        (List.range n).map (sortRow sws n true) := by
      apply List.map_congr_left
      intro r hr
      rw [srcRow_append, srcRow_reverse n (List.mem_range.1 hr)]
      rfl
    rw [← this]; exact h2

theorem sortDense_spec {srt : List Spec → List Spec} (hsrt : ∀ l, (srt l).Perm l) {n : Nat}
    {d : Dense} (D : DenseOK n d) {specs : List Spec} (hs : Resolved (.dense d) specs) (desc : Bool) :
    ∃ d' sws, createSortSpec (.dense d) (List.range d.maxRow) specs = Res.ok sws ∧
      (∀ p ∈ sws, p.1 < n ∧ p.2 < n) ∧ sortDense srt d desc specs = Res.ok d' ∧ DenseOK n d' ∧
      d'.allAttributes = d.allAttributes ∧ d'.classAttrs = d.classAttrs ∧
      ∀ b ∈ d.allAttributes, ∀ q, q < n →
        (Grid.dense d').cell b q = (Grid.dense d).cell b (sortRow sws n desc q) := by
  obtain ⟨sws, e, hb, _⟩ := createSortSpec_spec D.presents D.typed hs
    (order := List.range d.maxRow) rfl
  have hn : d.maxRow = n := D.presents.rows
  obtain ⟨d1, e1, D1, A1, C1, L1, F1, V1⟩ := swapAll_spec hsrt sws D hb
  cases desc with
  | false =>
    refine ⟨d1, sws, e, hb, ?_, D1, A1, C1, V1⟩
    simp [sortDense, e, e1]
  | true =>
    obtain ⟨d2, e2, D2, A2, C2, L2, F2, V2⟩ := swapAll_spec hsrt (reverseSwaps n) D1
      (reverseSwaps_bnd n)
    refine ⟨d2, sws, e, hb, ?_, D2, by rw [A2, A1], by rw [C2, C1], ?_⟩
    · rw [sortDense, e, hn]
      simp only [Res.bind_ok, e1, if_true, e2]
    · intro b hbm q hq
      rw [V2 b (A1 ▸ hbm) q hq, srcRow_reverse n hq, V1 b hbm _ (by omega)]
      rfl

theorem swapEntriesAll_spec (sws : List (Nat × Nat)) (l : List Nat)
    (h : ∀ p ∈ sws, p.1 < l.length ∧ p.2 < l.length) :
    ∃ l', swapEntriesAll l sws = Res.ok l' ∧ l'.length = l.length ∧
      ∀ r, r < l.length → l'[r]? = l[srcRow sws r]? := by
  induction sws generalizing l with
  | nil => exact ⟨l, rfl, rfl, fun r _ => by simp⟩
  | cons p ps ih =>
    obtain ⟨h1, h2⟩ := h p (by simp)
    obtain ⟨l', i1, i2, i3⟩ := ih ((l.set p.1 l[p.2]).set p.2 l[p.1])
      (fun q hq => by simpa using h q (by simp [hq]))
    refine ⟨l', ?_, by simpa using i2, ?_⟩
    · simp only [swapEntriesAll, swapEntries, List.getElem?_eq_getElem h1,
        List.getElem?_eq_getElem h2, Res.bind_ok, i1]
    · intro r hr
      rw [i3 r (by simpa using hr), srcRow_cons]
      have hq := srcRow_lt (sws := ps) (fun q hq => h q (by simp [hq])) hr
      generalize srcRow ps r = q at hq
      rw [Equiv.swap_apply_def]
      by_cases e2 : q = p.2
      · by_cases e1 : q = p.1
        · rw [if_pos e1]
          subst e2
          simp only [e1]
          rw [List.getElem?_set_self (by simpa using h1)]
          simp [h1]
        · rw [if_neg e1, if_pos e2]
          subst e2
          rw [List.getElem?_set_self (by simpa using h2)]
          simp [h1]
      · rw [List.getElem?_set_ne (fun e => e2 e.symm)]
        by_cases e1 : q = p.1
        · rw [if_pos e1]
          subst e1
          rw [List.getElem?_set_self h1]
          simp [h2]
        · rw [if_neg e1, if_neg e2, List.getElem?_set_ne (fun e => e1 e.symm)]

theorem rowMap_getD (arr : List Nat) (i : Nat) (hi : i < arr.length) :
    (GoMap.get? (arr.zipIdx.foldl
      (fun (m : GoMap Nat Nat) p => if p.2 = p.1 then m else m.set p.2 p.1) []) i).getD i
      = arr[i] := by
  have key : ∀ (arr : List Nat) (b : Nat) (m : GoMap Nat Nat) (i : Nat), (∀ j, b ≤ j → m.get? j = none) →
      ((arr.zipIdx b).foldl (fun (m : GoMap Nat Nat) p => if p.2 = p.1 then m else m.set p.2 p.1) m).get? i =
        if h : b ≤ i ∧ i - b < arr.length then
          (if i = arr[i - b]'h.2 then none else some (arr[i - b]'h.2)) else m.get? i := by
    intro arr
    induction arr with
    | nil => intro b m i _; simp
    | cons x xs ih =>
      intro b m i hm
      rw [List.zipIdx_cons, List.foldl_cons]
      simp only
      rw [ih]
      · by_cases h : b + 1 ≤ i ∧ i - (b + 1) < xs.length
        · have h' : b ≤ i ∧ i - b < (x :: xs).length := by simp; omega
          rw [dif_pos h, dif_pos h']
          have : (x :: xs)[i - b]'h'.2 = xs[i - (b + 1)]'h.2 := by
            have : i - b = (i - (b + 1)) + 1 := by omega
            simp only [this, List.getElem_cons_succ]
          rw [this]
        · rw [dif_neg h]
          by_cases hib : i = b
          · subst hib
            have h' : i ≤ i ∧ i - i < (x :: xs).length := by simp
            rw [dif_pos h']
            simp only [Nat.sub_self, List.getElem_cons_zero]
            split
            · exact hm i (Nat.le_refl i)
            · rw [GoMap.get?_set, if_pos rfl]
          · rw [dif_neg (by simp; omega)]
            split
            · rfl
            · rw [GoMap.get?_set, if_neg (fun e => hib e.symm)]
      · intro j hj
        split
        · exact hm j (by omega)
        · rw [GoMap.get?_set, if_neg (by omega)]
          exact hm j (by omega)
  rw [key arr 0 [] i (fun _ _ => rfl), dif_pos ⟨Nat.zero_le _, by simpa using hi⟩]
  simp only [Nat.sub_zero]
  split
  · rename_i h; simpa using h
  · rfl

theorem lazySort_spec {g : Grid} {n : Nat} (P : g.Presents n) (T : g.typed n)
    {specs : List Spec} (hs : Resolved g specs) {order : List Nat} (ho : g.RowOrder order)
    (desc : Bool) :
    ∃ m sws, createSortSpec g order specs = Res.ok sws ∧ (∀ p ∈ sws, p.1 < n ∧ p.2 < n) ∧
      lazySort g order desc specs = Res.ok (Grid.viewFromRows g m) ∧
      ∀ r, r < n → (GoMap.get? m r).getD r = sortRow sws n desc r := by
  obtain ⟨sws, e, hb, _⟩ := createSortSpec_spec P T hs ho
  obtain ⟨l1, e1, len1, v1⟩ := swapEntriesAll_spec sws (List.range n) (by simpa using hb)
  have v1' : ∀ r, r < n → l1[r]? = some (srcRow sws r) := by
    intro r hr
    rw [v1 r (by simpa using hr), List.getElem?_range (srcRow_lt hb hr)]
  simp only [List.length_range] at len1
  cases desc with
  | false =>
    refine ⟨_, sws, e, hb, by simp only [lazySort, e, P.rows, Res.bind_ok, e1]; rfl, ?_⟩
    intro r hr
    rw [rowMap_getD l1 r (by omega)]
    have := v1' r hr
    rw [List.getElem?_eq_getElem (by omega), Option.some.injEq] at this
    rw [this]; rfl
  | true =>
    obtain ⟨l2, e2, len2, v2⟩ := swapEntriesAll_spec (reverseSwaps n) l1 (by
      rw [len1]; exact reverseSwaps_bnd n)
    refine ⟨_, sws, e, hb, by simp only [lazySort, e, P.rows, Res.bind_ok, e1, if_true, e2]; rfl, ?_⟩
    intro r hr
    rw [rowMap_getD l2 r (by omega)]
    have := v2 r (by omega)
    rw [srcRow_reverse n hr, v1' _ (by omega), List.getElem?_eq_getElem (by omega),
      Option.some.injEq] at this
    rw [this]; rfl

end Golearn
