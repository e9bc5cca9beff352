import Verif.Proofs.Instances

/-! # C21: decomposition partitions the rows -/

namespace Golearn

/-- `parts` is a partition of the rows of `g` by the labels `k`: there is a list of source rows for
every label; it holds exactly the rows with that label, each once; a part exists exactly for the
labels that occur; and the part for label `v` is a table of those rows whose attributes are those of
`g` other than `a`, each cell holding the source's value. -/
def Partitions (g : Grid) (a : Attr) (n : Nat) (k : Nat → String) (parts : GoMap String Grid) :
    Prop :=
  ∃ rowsOf : String → List Nat,
    (∀ v, (rowsOf v).Perm ((List.range n).filter fun r => k r == v)) ∧
    ∀ v, ((parts.get? v).isSome ↔ ∃ r, r < n ∧ k r = v) ∧
      ∀ p, parts.get? v = some p →
        p.Presents (rowsOf v).length ∧
        p.allAttributes.Perm (g.allAttributes.filter fun b => !b.equals a) ∧
        ∀ b ∈ p.allAttributes, ∀ i (h : i < (rowsOf v).length),
          p.cell b i = g.cell b (rowsOf v)[i]

theorem decomposeWith_partitions {g : Grid} {n : Nat} (P : g.Presents n) (hd : g.distinct)
    {srt : List Spec → List Spec} (hsrt : ∀ l, (srt l).Perm l) {a : Attr} (ha : a ∈ g.allAttributes)
    {s : Spec} (hs : g.getAttribute a = Res.ok s) {key : Bytes → Res String} {k : Nat → String}
    (hk : ∀ r, r < n → key (g.cell a r) = Res.ok (k r)) {order : List Nat} (ho : g.RowOrder order) :
    ∃ parts, decomposeWith srt g a s key order = Res.ok parts ∧ Partitions g a n k parts := by
  have hp := P.order order ho
  have hmem : ∀ r, r ∈ order ↔ r < n := fun r => by rw [hp.mem_iff, List.mem_range]
  have hsub : ∀ b ∈ withoutAttr g a, b ∈ g.allAttributes := fun b hb => (List.mem_filter.1 hb).1
  obtain ⟨l, hl⟩ := P.resolve_total hsub
  obtain ⟨r1, r2⟩ := P.resolves hsub (specs := srt l) ⟨l, hl, hsrt l⟩
  have hsa := (P.get_spec ha hs).1
  obtain ⟨i1, i2⟩ := P.iter (srt l ++ [s]) (by
    intro t ht
    rcases List.mem_append.1 ht with h | h
    · exact ⟨t.attr, (r2 t h).1, (r2 t h).2⟩
    · simp only [List.mem_singleton] at h
      subst h
      exact ⟨a, ha, hs⟩)
  obtain ⟨m, e1, e2, e3, e4⟩ := decompose_fold (g := g) (specs := srt l) (s := s) (key := key)
    (k := k) order (g.rowVals (srt l ++ [s]))
    (fun r hr => ⟨i2 r ((hmem r).1 hr), by rw [hsa]; exact hk r ((hmem r).1 hr)⟩) [] (by simp)
  have hget : ∀ v, GoMap.get? (m.map fun p => (p.1, Grid.viewFromVisible g p.2 (srt l))) v =
      (m.get? v).map fun rows => Grid.viewFromVisible g rows (srt l) := by
    intro v
    exact GoMap.get?_map m (fun _ rows => Grid.viewFromVisible g rows (srt l)) v
  refine ⟨m.map fun p => (p.1, Grid.viewFromVisible g p.2 (srt l)), ?_,
    fun v => order.filter fun r => k r == v, ?_, ?_⟩
  · simp only [decomposeWith, Grid.resolve, hl, Res.map_ok, Res.bind_ok, Grid.mapOverRows, i1, e1]
  · intro v
    exact hp.filter _
  · intro v
    rw [hget]
    refine ⟨?_, ?_⟩
    · rw [Option.isSome_map, e4 v]
      simp only [GoMap.get?, Option.isSome_none, Bool.false_eq_true, false_or]
      constructor
      · rintro ⟨r, hr, h⟩; exact ⟨r, (hmem r).1 hr, h⟩
      · rintro ⟨r, hr, h⟩; exact ⟨r, (hmem r).2 hr, h⟩
    · intro p hpv
      rw [Option.map_eq_some_iff] at hpv
      obtain ⟨rows, hrows, rfl⟩ := hpv
      have := e3 v
      rw [hrows] at this
      simp only [Option.getD_some, GoMap.get?, Option.getD_none, List.nil_append] at this
      subst this
      obtain ⟨V1, V2⟩ := visible_presents P hd (specs := srt l) r2
        (rows := order.filter fun r => k r == v)
        (fun r hr => (hmem r).1 (List.mem_filter.1 hr).1)
      exact ⟨V1, r1, V2⟩

/-- `DecomposeOnAttributeValues(g, a)` for any table `g` of `n` rows with pairwise different
attributes, any attribute `a` of it whose values decode, and any iteration order: it succeeds and
its result partitions the rows of `g` by the value of `a`. -/
theorem C21_decompose_values (fo : FloatOps) (g : Grid) (n : Nat) (P : g.Presents n)
    (hd : g.distinct) (srt : List Spec → List Spec) (hsrt : ∀ l, (srt l).Perm l)
    (a : Attr) (ha : a ∈ g.allAttributes) (k : Nat → String) (hk : ReadsAs fo g a n k)
    (order : List Nat) (ho : g.RowOrder order) :
    ∃ parts, decomposeValues fo srt g a order = Res.ok parts ∧ Partitions g a n k parts := by
  obtain ⟨s, hs, hsa, _⟩ := P.read a ha
  obtain ⟨parts, h1, h2⟩ := decomposeWith_partitions P hd hsrt ha hs (key := s.attr.getString fo)
    (by rw [hsa]; exact hk) ho
  exact ⟨parts, by simp only [decomposeValues, hs, Res.orPanic, Res.bind_ok, h1], h2⟩

/-- `DecomposeOnNumericAttributeThreshold(g, a, val)` on a float attribute: the parts are `"1"`, the
rows whose value is above the threshold, and `"0"`, the others. -/
theorem C21_decompose_threshold (fo : FloatOps) (g : Grid) (n : Nat) (P : g.Presents n)
    (hd : g.distinct) (srt : List Spec → List Spec) (hsrt : ∀ l, (srt l).Perm l)
    (a : Attr) (ha : a ∈ g.allAttributes) (hf : a.isFloat = true) (val : U64) (x : Nat → U64)
    (hx : ∀ r, r < n → unpackFloatBits (g.cell a r) = Res.ok (x r))
    (order : List Nat) (ho : g.RowOrder order) :
    ∃ parts, decomposeThreshold fo srt g a val order = Res.ok parts ∧
      Partitions g a n (fun r => if fo.gt (x r) val then "1" else "0") parts := by
  obtain ⟨s, hs, hsa, _⟩ := P.read a ha
  obtain ⟨parts, h1, h2⟩ := decomposeWith_partitions P hd hsrt ha hs (key := thresholdKey fo val)
    (k := fun r => if fo.gt (x r) val then "1" else "0")
    (by intro r hr; simp only [thresholdKey, hx r hr, Res.map_ok]) ho
  exact ⟨parts, by simp only [decomposeThreshold, hf, if_true, hs, Res.orPanic, Res.bind_ok, h1], h2⟩

/-- Reading off `Partitions`: every source row occurs in the part of its own label at exactly one
place, and in no other part. -/
theorem C21_each_row_once (g : Grid) (a : Attr) (n : Nat) (k : Nat → String)
    (parts : GoMap String Grid) (h : Partitions g a n k parts) :
    ∃ rowsOf : String → List Nat,
      (∀ r, r < n → ∀ v, (rowsOf v).count r = if k r = v then 1 else 0) ∧
      ∀ v p, parts.get? v = some p → p.size.2 = (rowsOf v).length ∧
        ∀ b ∈ p.allAttributes, ∀ i (h : i < (rowsOf v).length),
          p.cell b i = g.cell b (rowsOf v)[i] := by
  obtain ⟨rowsOf, h1, h2⟩ := h
  refine ⟨rowsOf, ?_, ?_⟩
  · intro r hr v
    rw [(h1 v).count_eq]
    by_cases hv : k r = v
    · rw [List.count_filter (by simpa using hv), if_pos hv]
      exact List.count_eq_one_of_mem List.nodup_range (List.mem_range.2 hr)
    · rw [if_neg hv, List.count_eq_zero]
      intro hm
      exact hv (by simpa using (List.mem_filter.1 hm).2)
  · intro v p hp
    obtain ⟨_, h3⟩ := h2 v
    obtain ⟨q1, _, q3⟩ := h3 p hp
    exact ⟨q1.rows, q3⟩

section Examples
private def fo0 : FloatOps := ⟨fun _ u => if u = 1 then "one" else "other", fun u v => v.toNat < u.toNat⟩
private def aC : Attr := ⟨0, .cat "c" ["x", "y"]⟩
private def aF : Attr := ⟨1, .float "f" 2⟩
private def ops1 : List Op :=
  [.add aC, .add aF, .extend 3, .set 0 1 (packU64 1), .set 1 0 (packU64 7), .set 1 1 (packU64 8),
   .set 1 2 (packU64 9)]
/-- Decomposing three rows on a categorical attribute: rows 0 and 2 in part "x", row 1 in "y". -/
example : ((run 4096 ops1).bind fun st =>
      (decomposeValues fo0 id (.dense st.d) aC (List.range 3)).map fun m =>
        m.map fun p => (p.1, (List.range p.2.size.2).map (p.2.cell aF))) =
    Res.ok [("x", [packU64 7, packU64 9]), ("y", [packU64 8])] := by decide +kernel
/-- Decomposing on a threshold: only row 2 is above 8. -/
example : ((run 4096 ops1).bind fun st =>
      (decomposeThreshold fo0 id (.dense st.d) aF 8 (List.range 3)).map fun m =>
        m.map fun p => (p.1, (List.range p.2.size.2).map (p.2.cell aC))) =
    Res.ok [("0", [packU64 0, packU64 1]), ("1", [packU64 0])] := by decide +kernel
/-- The hypotheses of `C21_decompose_values` hold for this grid. -/
example : ∃ st, run 4096 ops1 = Res.ok st ∧ (Grid.dense st.d).Presents 3 ∧
    (Grid.dense st.d).distinct ∧ aC ∈ st.d.allAttributes ∧
    ReadsAs fo0 (.dense st.d) aC 3 (fun r => if r = 1 then "y" else "x") := by
  have hok : (run 4096 ops1).isOk = true := by decide +kernel
  cases hr : run 4096 ops1 with
  | ok st =>
    have D := denseOK_run (pg := 4096) (ops := ops1) (by decide) hr (by decide)
    have e : ((run 4096 ops1).map fun st => (decide (aC ∈ st.d.allAttributes),
        (List.range 3).map fun r => aC.getString fo0 ((Grid.dense st.d).cell aC r))) =
        Res.ok (true, [Res.ok "x", Res.ok "y", Res.ok "x"]) := by decide +kernel
    rw [hr] at e
    simp only [Res.map_ok, Res.ok.injEq, Prod.mk.injEq, decide_eq_true_eq] at e
    refine ⟨st, rfl, D.presents, D.1, e.1, ?_⟩
    intro r hr'
    have := congrArg (fun l => l[r]?) e.2
    have h3 : r = 0 ∨ r = 1 ∨ r = 2 := by omega
    rcases h3 with rfl | rfl | rfl <;> simpa using this
  | err => rw [hr] at hok; cases hok
  | panic => rw [hr] at hok; cases hok
end Examples

end Golearn
