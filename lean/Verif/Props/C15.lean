import Verif.Props.C14

/-! # C15: Sort orders rows by key

The English claim (rows end in non-decreasing order of the stored value) is false: base/sort.go:8-13
flips bit 7 of the *low* byte of the last sort attribute, and compares float bit patterns as
unsigned numbers. `C15_sort_order_fails` and `C15_negative_floats_fail` are witnesses.
`C15_sort_order_partial` states the order that is produced, for all inputs;
`C15_sort_small_codes_partial` and `C15_sort_high_bytes_partial` are what remains of the claim. -/

namespace Golearn

/-- The order produced by `Sort`. There is a permutation `σ` of the rows such that row `r` of the
result is row `σ r` of the original and, ascending, earlier rows have a lexicographically smaller
key or an equal key and come from an earlier original row (ties are stable); descending is the exact
reverse. Keys are the stored values of the sort attributes, first attribute most significant, the
last one with bit 7 of its low byte flipped. -/
theorem C15_sort_order_partial (pg : Nat) (ops : List Op) (st : St)
    (hb : ∀ op ∈ ops, basicOp op = true) (hrun : run pg ops = Res.ok st)
    (hd : (addedAttrs ops).Pairwise (fun a b => a.equals b = false))
    (srt : List Spec → List Spec) (hsrt : ∀ l, (srt l).Perm l)
    (specs : List Spec) (hs : ∀ s ∈ specs, ∃ a ∈ st.d.allAttributes, st.d.getAttribute a = Res.ok s)
    (descending : Bool) :
    ∃ (d' : Dense) (σ : Nat → Nat), sortDense srt st.d descending specs = Res.ok d' ∧
      ((List.range (totalRows ops)).map σ).Perm (List.range (totalRows ops)) ∧
      (∀ a ∈ st.d.allAttributes, ∀ r, r < totalRows ops →
        (Grid.dense d').cell a r = (Grid.dense st.d).cell a (σ r)) ∧
      ∀ r q, r < q → q < totalRows ops →
        let lo := if descending then q else r
        let hi := if descending then r else q
        let key := rowKeyFlipped (.dense d') (specs.map Spec.attr)
        lexLt (key lo) (key hi) ∨ (key lo = key hi ∧ σ lo < σ hi) := by
  have D := denseOK_run hb hrun hd
  have R := resolved_of_lookup D.presents hs
  obtain ⟨d', sws, h1, h2, h3, h4, h5, h6, h7⟩ := sortDense_spec hsrt D R descending
  refine ⟨d', _, h3, sortRow_perm h2 descending, h7, ?_⟩
  intro r q hrq hq
  obtain ⟨sws', e1, _, e3⟩ := createSortSpec_spec D.presents D.typed R
    (order := List.range st.d.maxRow) rfl
  rw [h1, Res.ok.injEq] at e1
  subst e1
  have hk : ∀ i, i < totalRows ops → rowKeyFlipped (.dense d') (specs.map Spec.attr) i =
      rowKeyFlipped (.dense st.d) (specs.map Spec.attr) (sortRow sws (totalRows ops) descending i) := by
    intro i hi
    unfold rowKeyFlipped
    congr 2
    apply List.map_congr_left
    intro a ha
    obtain ⟨s, hsm, rfl⟩ := List.mem_map.1 ha
    exact h7 _ (R s hsm).1 i hi
  simp only
  cases descending with
  | false =>
    simp only [Bool.false_eq_true, if_false]
    rw [hk r (by omega), hk q hq]
    exact e3 r q hrq hq
  | true =>
    simp only [if_true]
    rw [hk r (by omega), hk q hq]
    exact e3 (totalRows ops - 1 - q) (totalRows ops - 1 - r) (by omega) (by omega)

theorem flipLow_small {v : Bytes} (hv : v ≠ []) (h : leValue v % 256 < 128) :
    leValue (flipLow v) = leValue v + 128 := by
  cases v with
  | nil => exact absurd rfl hv
  | cons b bs =>
    simp only [flipLow, leValue] at h ⊢
    have hb := b.isLt
    have h1 : b.toNat < 128 := by omega
    have hall : ∀ c : BitVec 8, c.toNat < 128 → (c ^^^ 0x80#8).toNat = c.toNat + 128 := by
      decide +kernel
    have := hall b h1
    omega

theorem flipLow_high (v : Bytes) : leValue (flipLow v) / 256 = leValue v / 256 := by
  cases v with
  | nil => rfl
  | cons b bs =>
    simp only [flipLow, leValue]
    have := b.isLt
    have := (b ^^^ 0x80#8).isLt
    omega

theorem lexLt_flip : ∀ (xs ys : List Bytes), xs.length = ys.length →
    (∀ v, xs.getLast? = some v → v ≠ [] ∧ leValue v % 256 < 128) →
    (∀ v, ys.getLast? = some v → v ≠ [] ∧ leValue v % 256 < 128) →
    (lexLt ((onLast flipLow xs).map leValue) ((onLast flipLow ys).map leValue) ↔
      lexLt (xs.map leValue) (ys.map leValue)) ∧
    ((onLast flipLow xs).map leValue = (onLast flipLow ys).map leValue ↔
      xs.map leValue = ys.map leValue) := by
  intro xs
  induction xs with
  | nil =>
    intro ys h _ _
    cases ys with
    | nil => simp [onLast]
    | cons _ _ => simp at h
  | cons x xs ih =>
    intro ys h hx hy
    cases ys with
    | nil => simp at h
    | cons y ys =>
      cases xs with
      | nil =>
        cases ys with
        | cons _ _ => simp at h
        | nil =>
          obtain ⟨x1, x2⟩ := hx x (by simp)
          obtain ⟨y1, y2⟩ := hy y (by simp)
          simp [onLast, lexLt, flipLow_small x1 x2, flipLow_small y1 y2]
      | cons x' xs =>
        cases ys with
        | nil => simp at h
        | cons y' ys =>
          obtain ⟨i1, i2⟩ := ih (y' :: ys) (by simpa using h)
            (fun v hv => hx v (by simpa using hv)) (fun v hv => hy v (by simpa using hv))
          constructor
          · show leValue x < leValue y ∨ (leValue x = leValue y ∧ _) ↔
              leValue x < leValue y ∨ (leValue x = leValue y ∧ _)
            rw [i1]
          · simp only [onLast, List.map_cons, List.cons.injEq]
            rw [i2]
            simp only [List.map_cons, List.cons.injEq]

/-- When the low byte of the last sort attribute is below 128 in every row (for instance a
categorical attribute with at most 128 values, or a binary attribute), rows come out in
lexicographic order of the stored values, ties in input order; descending is the exact reverse. -/
theorem C15_sort_small_codes_partial (pg : Nat) (ops : List Op) (st : St)
    (hb : ∀ op ∈ ops, basicOp op = true) (hrun : run pg ops = Res.ok st)
    (hd : (addedAttrs ops).Pairwise (fun a b => a.equals b = false))
    (srt : List Spec → List Spec) (hsrt : ∀ l, (srt l).Perm l)
    (specs : List Spec) (hs : ∀ s ∈ specs, ∃ a ∈ st.d.allAttributes, st.d.getAttribute a = Res.ok s)
    (hsmall : ∀ s, specs.getLast? = some s → ∀ r, r < totalRows ops →
      leValue ((Grid.dense st.d).cell s.attr r) % 256 < 128)
    (descending : Bool) :
    ∃ (d' : Dense) (σ : Nat → Nat), sortDense srt st.d descending specs = Res.ok d' ∧
      ((List.range (totalRows ops)).map σ).Perm (List.range (totalRows ops)) ∧
      (∀ a ∈ st.d.allAttributes, ∀ r, r < totalRows ops →
        (Grid.dense d').cell a r = (Grid.dense st.d).cell a (σ r)) ∧
      ∀ r q, r < q → q < totalRows ops →
        let lo := if descending then q else r
        let hi := if descending then r else q
        let key := rowKey (.dense d') (specs.map Spec.attr)
        lexLt (key lo) (key hi) ∨ (key lo = key hi ∧ σ lo < σ hi) := by
  obtain ⟨d', σ, h1, h2, h3, h4⟩ :=
    C15_sort_order_partial pg ops st hb hrun hd srt hsrt specs hs descending
  refine ⟨d', σ, h1, h2, h3, ?_⟩
  have D := denseOK_run hb hrun hd
  have R := resolved_of_lookup D.presents hs
  intro r q hrq hq
  have hσ : ∀ i, i < totalRows ops → σ i < totalRows ops := fun i hi =>
    List.mem_range.1 (h2.subset (List.mem_map.2 ⟨i, List.mem_range.2 hi, rfl⟩))
  have hlast : ∀ i, i < totalRows ops → ∀ v,
      (((specs.map Spec.attr).map fun a => (Grid.dense d').cell a i).getLast?) = some v →
        v ≠ [] ∧ leValue v % 256 < 128 := by
    intro i hi v hv
    rw [List.getLast?_map, List.getLast?_map, Option.map_map, Option.map_eq_some_iff] at hv
    obtain ⟨s, hsl, rfl⟩ := hv
    have hsm := List.mem_of_getLast? hsl
    simp only [Function.comp]
    rw [h3 _ (R s hsm).1 i hi]
    refine ⟨?_, hsmall s hsl _ (hσ i hi)⟩
    have e1 := wellFormed_width (D.typed _ (R s hsm).1 _ (hσ i hi))
    have e2 := attrWidth_pos s.attr
    intro h
    rw [h] at e1; simp at e1; omega
  have key := h4 r q hrq hq
  simp only at key ⊢
  have hlo : (if descending then q else r) < totalRows ops := by split <;> omega
  have hhi : (if descending then r else q) < totalRows ops := by split <;> omega
  generalize (if descending then q else r) = lo at *
  generalize (if descending then r else q) = hi at *
  obtain ⟨f1, f2⟩ := lexLt_flip ((specs.map Spec.attr).map fun a => (Grid.dense d').cell a lo)
    ((specs.map Spec.attr).map fun a => (Grid.dense d').cell a hi) (by simp)
    (hlast lo hlo) (hlast hi hhi)
  unfold rowKeyFlipped at key
  rw [f1, f2] at key
  simpa [rowKey, List.map_map, Function.comp_def] using key

/-- Sorting on one attribute never misplaces two values that differ above their lowest byte: the
column, divided by 256, is non-decreasing (ascending) or non-increasing (descending). -/
theorem C15_sort_high_bytes_partial (pg : Nat) (ops : List Op) (st : St)
    (hb : ∀ op ∈ ops, basicOp op = true) (hrun : run pg ops = Res.ok st)
    (hd : (addedAttrs ops).Pairwise (fun a b => a.equals b = false))
    (srt : List Spec → List Spec) (hsrt : ∀ l, (srt l).Perm l)
    (a : Attr) (s : Spec) (ha : a ∈ st.d.allAttributes) (hs : st.d.getAttribute a = Res.ok s)
    (descending : Bool) :
    ∃ d', sortDense srt st.d descending [s] = Res.ok d' ∧
      ∀ r q, r < q → q < totalRows ops →
        let lo := if descending then q else r
        let hi := if descending then r else q
        leValue ((Grid.dense d').cell a lo) / 256 ≤ leValue ((Grid.dense d').cell a hi) / 256 := by
  have D := denseOK_run hb hrun hd
  have e := (D.presents.get_spec (s := s) ha hs).1
  obtain ⟨d', σ, h1, _, _, h4⟩ :=
    C15_sort_order_partial pg ops st hb hrun hd srt hsrt [s] (by
      intro t ht
      simp only [List.mem_singleton] at ht
      subst ht
      exact ⟨a, ha, hs⟩) descending
  refine ⟨d', h1, ?_⟩
  intro r q hrq hq
  have key := h4 r q hrq hq
  simp only at key ⊢
  generalize (if descending then q else r) = lo at *
  generalize (if descending then r else q) = hi at *
  rw [← flipLow_high, ← flipLow_high ((Grid.dense d').cell a hi)]
  simp only [rowKeyFlipped, List.map_cons, List.map_nil, onLast, e, lexLt, and_false, or_false,
    List.cons.injEq, and_true] at key
  apply Nat.div_le_div_right
  rcases key with h | h
  · exact Nat.le_of_lt h
  · exact Nat.le_of_eq h.1

/-- A rank on IEEE-754 bit patterns that orders all numbers (everything but NaN, and `-0 = 0`): the
magnitude, negated when the sign bit is set. -/
def floatRank (u : U64) : Int :=
  if u.msb then -((u.toNat - 2 ^ 63 : Nat) : Int) else (u.toNat : Int)

section Witness
private def wAttr : Attr := ⟨0, .float "a" 2⟩
private def wOps (x y : U64) : List Op :=
  [.add wAttr, .extend 2, .set 0 0 (packU64 x), .set 0 1 (packU64 y)]

/-- The claim fails: rows 0 and 1 hold the values 0 and 128 (already in order), and sorting them in
ascending order exchanges them. -/
theorem C15_sort_order_fails :
    ∃ st, run 4096 (wOps 0 128) = Res.ok st ∧ ∃ s, st.d.getAttribute wAttr = Res.ok s ∧
      ∃ d', sortDense id st.d false [s] = Res.ok d' ∧
      ((Grid.dense st.d).cell wAttr 0, (Grid.dense st.d).cell wAttr 1) = (packU64 0, packU64 128) ∧
      ((Grid.dense d').cell wAttr 0, (Grid.dense d').cell wAttr 1) = (packU64 128, packU64 0) := by
  have h : ((run 4096 (wOps 0 128)).bind fun st => (st.d.getAttribute wAttr).bind fun s =>
      (sortDense id st.d false [s]).map fun d' =>
        (((Grid.dense st.d).cell wAttr 0, (Grid.dense st.d).cell wAttr 1),
         ((Grid.dense d').cell wAttr 0, (Grid.dense d').cell wAttr 1))) =
      Res.ok ((packU64 0, packU64 128), (packU64 128, packU64 0)) := by decide +kernel
  simp only [Res.bind_eq_ok, Res.map_eq_ok, Prod.mk.injEq] at h ⊢
  exact h

/-- The claim fails for negative floats: the rows -1.0 and 1.0, sorted in ascending order, come out
as 1.0, -1.0. -/
theorem C15_negative_floats_fail :
    (∃ st, run 4096 (wOps 0xBFF0000000000000 0x3FF0000000000000) = Res.ok st ∧
      ∃ s, st.d.getAttribute wAttr = Res.ok s ∧ ∃ d', sortDense id st.d false [s] = Res.ok d' ∧
      ((Grid.dense d').cell wAttr 0, (Grid.dense d').cell wAttr 1) =
        (packU64 0x3FF0000000000000, packU64 0xBFF0000000000000)) ∧
    floatRank 0xBFF0000000000000 < floatRank 0x3FF0000000000000 := by
  have h : ((run 4096 (wOps 0xBFF0000000000000 0x3FF0000000000000)).bind fun st =>
      (st.d.getAttribute wAttr).bind fun s => (sortDense id st.d false [s]).map fun d' =>
         ((Grid.dense d').cell wAttr 0, (Grid.dense d').cell wAttr 1)) =
      Res.ok (packU64 0x3FF0000000000000, packU64 0xBFF0000000000000) := by decide +kernel
  refine ⟨?_, by decide +kernel⟩
  simp only [Res.bind_eq_ok, Res.map_eq_ok] at h
  exact h

/-- Two categorical columns with small codes meet the hypotheses of
`C15_sort_small_codes_partial`, and the result is in lexicographic order. -/
example : ((run 4096 [.add ⟨0, .cat "c" ["x", "y"]⟩, .add ⟨1, .cat "e" ["u", "v"]⟩,
      .extend 3, .set 0 0 (packU64 1), .set 0 2 (packU64 1), .set 1 0 (packU64 1)]).bind fun st =>
    (st.d.getAttribute ⟨0, .cat "c" ["x", "y"]⟩).bind fun s =>
    (st.d.getAttribute ⟨1, .cat "e" ["u", "v"]⟩).bind fun t =>
    (sortDense id st.d false [s, t]).map fun d' =>
      ((List.range 3).all fun r => leValue ((Grid.dense st.d).cell t.attr r) % 256 < 128,
       (List.range 3).map (rowKey (.dense d') [s.attr, t.attr]))) =
    Res.ok (true, [[0, 0], [1, 0], [1, 1]]) := by
  decide +kernel
end Witness

end Golearn
