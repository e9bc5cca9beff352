import Verif.Props.C85

/-! # C86: ChiMerge is trained on the examples of the data -/

namespace Golearn

variable {K : Type}

/-- The data: rows with one class attribute that is read as `lab`, and chosen columns of numbers. -/
structure ChiData (fo : FloatOps) (g : Grid) (n : Nat) (chosen : List Attr) (lab : Nat → String) : Prop where
  presents : g.Presents n
  typed : g.typed n
  label : ∃ c, g.allClassAttributes = [c] ∧ c ∈ g.allAttributes ∧ ReadsAs fo g c n lab
  floats : ∀ a ∈ chosen, a ∈ g.allAttributes ∧ a.isFloat = true
  once : chosen.Nodup

/-- The order of rows by the stored form of a column (see `C15_sort_order_partial`), rows with equal values in their order. -/
def SortedRows (g : Grid) (n : Nat) (a : Attr) (σ : Nat → Nat) : Prop :=
  ((List.range n).map σ).Perm (List.range n) ∧
  ∀ r q, r < q → q < n → lexLt (rowKeyFlipped g [a] (σ r)) (rowKeyFlipped g [a] (σ q)) ∨
    (rowKeyFlipped g [a] (σ r) = rowKeyFlipped g [a] (σ q) ∧ σ r < σ q)

theorem lexLt_irrefl (l : List Nat) : ¬ lexLt l l := by
  induction l with
  | nil => simp [lexLt]
  | cons x xs ih => simp [lexLt, ih]

theorem lexLt_asymm : ∀ a b : List Nat, lexLt a b → ¬ lexLt b a := by
  intro a
  induction a with
  | nil => intro b h; cases b <;> simp [lexLt] at h
  | cons x xs ih =>
    intro b h
    cases b with
    | nil => simp [lexLt] at h
    | cons y ys =>
      simp only [lexLt] at h ⊢
      rintro (h2 | ⟨h2, h3⟩)
      · rcases h with h | ⟨h, _⟩ <;> omega
      · rcases h with h | ⟨_, h⟩
        · omega
        · exact ih ys h h3

variable [Field K] [LinearOrder K]

/-- What is trained: for each chosen column, the merging of the table of the pairs (number of row `r`, class of row `σ r`), where `σ` is the
sorted order: numbers are read in the order of the data, and classes in the sorted order. -/
theorem C86_train (fo : FloatOps) (val : U64 → K) (below : Nat → K → Bool) (minrows maxrows : Int) (g : Grid) (n : Nat)
    (chosen : List Attr) (lab : Nat → String) (D : ChiData fo g n chosen lab) (order : List Nat) (ho : g.RowOrder order) :
    ∃ m, chiTrain fo val below minrows maxrows g order chosen = Res.ok m ∧ ∀ a ∈ chosen, ∃ σ out, SortedRows g n a σ ∧
      m.get? a = some out ∧
      chiMergeTable below minrows maxrows (tableOf (order.map fun r => (g.number val a r, lab (σ r)))) = Res.ok out := by
  obtain ⟨P, T, ⟨c, hc1, hc2, hc3⟩, hfl, hnd⟩ := D
  have hp := P.order order ho
  obtain ⟨specs, hsp, hmap, hin⟩ := resolveUnsorted_attrs P (fun a ha => (hfl a ha).1)
  have hstep : ∀ a ∈ chosen, ∀ s, g.getAttribute a = Res.ok s → s.attr = a ∧ ∃ sorted σ out, lazySort g order false [s] = Res.ok sorted ∧
      chiMerge fo val below minrows maxrows sorted order a = Res.ok out ∧ SortedRows g n a σ ∧
      chiMergeTable below minrows maxrows (tableOf (order.map fun r => (g.number val a r, lab (σ r)))) = Res.ok out := by
    intro a ha s hs
    obtain ⟨hain, haf⟩ := hfl a ha
    have hsa : s.attr = a := (P.get_spec hain hs).1
    refine ⟨hsa, ?_⟩
    obtain ⟨m, σ, e1, e2, e3, e4⟩ := lazySort_rows P T (specs := [s]) (by
      intro t ht
      rw [List.mem_singleton] at ht
      subst ht
      exact ⟨a, hain, hs⟩) ho
    obtain ⟨out, f1, _⟩ := C63_merge below minrows maxrows (tableOf (order.map fun r => (g.number val a r, lab (σ r)))) (tableOf_spec _).ok
    refine ⟨_, σ, out, e1, ?_, ⟨e2, ?_⟩, f1⟩
    · unfold chiMerge
      rw [if_pos haf]
      have hb : buildFreq fo val (Grid.viewFromRows g m) order a =
          Res.ok (tableOf (order.map fun r => (g.number val a r, lab (σ r)))) := by
        obtain ⟨i1, i2⟩ := P.iter [s] (by
          intro t ht
          rw [List.mem_singleton] at ht
          subst ht
          exact ⟨a, hain, hs⟩)
        apply buildFreq_spec (s := s)
        · simpa [Grid.viewFromRows, Grid.getAttribute] using hs
        · simpa [Grid.viewFromRows, Grid.mapPrep] using i1
        · intro r hr
          have hrn : r < n := List.mem_range.1 (hp.subset hr)
          obtain ⟨u, hu⟩ := unpack_typed T hain haf hrn
          refine ⟨g.cell a r, u, ?_, hu, ?_⟩
          · have := i2 r hrn
            rw [List.map_cons, List.map_nil, hsa] at this
            simpa [Grid.viewFromRows, Grid.rowVals] using this
          · unfold Grid.number; rw [hu]
        · intro r hr
          have hrn : r < n := List.mem_range.1 (hp.subset hr)
          have hcls : (Grid.viewFromRows g m).allClassAttributes = [c] := by
            unfold Grid.viewFromRows
            rw [hc1]
            rfl
          obtain ⟨t, t1, t2, t3⟩ := P.read c hc2
          have hσ : σ r < n := List.mem_range.1 (e2.subset (List.mem_map.2 ⟨r, List.mem_range.2 hrn, rfl⟩))
          have hv : (Grid.viewFromRows g m).get t r = Res.ok (g.cell c (σ r)) := by
            have hm := e3 r hrn
            obtain ⟨⟨t', g1, g2, g3⟩, g4⟩ := rowsView_cell P m hc2 (r := r) (by rw [hm]; exact hσ)
            have : t' = t := by
              simp only [Grid.viewFromRows, Grid.getAttribute] at g1 t1
              rw [t1, Res.ok.injEq] at g1
              exact g1.symm
            subst this
            rw [g3, hm]
          unfold getClass
          rw [hcls]
          have ht : (Grid.viewFromRows g m).getAttribute c = Res.ok t := by simpa [Grid.viewFromRows, Grid.getAttribute] using t1
          simp only [ht, Res.orPanic, Res.bind_ok, hv]
          exact hc3 (σ r) hσ
      rw [hb, Res.bind_ok]
      exact f1
    · intro r q hrq hq
      have := e4 r q hrq hq
      simpa [hsa] using this
  have hloop : ∀ (specs : List Spec) (m : GoMap Attr (List (FreqEntry K))),
      (∀ s ∈ specs, s.attr ∈ chosen ∧ g.getAttribute s.attr = Res.ok s) → (specs.map Spec.attr).Nodup →
      ∃ m', chiTrainLoop fo val below minrows maxrows g order specs m = Res.ok m' ∧
        (∀ a, a ∉ specs.map Spec.attr → m'.get? a = m.get? a) ∧
        ∀ a ∈ specs.map Spec.attr, ∃ σ out, SortedRows g n a σ ∧ m'.get? a = some out ∧
          chiMergeTable below minrows maxrows (tableOf (order.map fun r => (g.number val a r, lab (σ r)))) = Res.ok out := by
    intro specs
    induction specs with
    | nil => intro m _ _; exact ⟨m, rfl, by simp, by simp⟩
    | cons s ss ih =>
      intro m hin hnd
      rw [List.map_cons, List.nodup_cons] at hnd
      obtain ⟨h1, h2⟩ := hin s (by simp)
      obtain ⟨_, sorted, σ, out, e1, e2, e3, e4⟩ := hstep s.attr h1 s h2
      obtain ⟨m', i1, i2, i3⟩ := ih (m.set s.attr out) (fun t ht => hin t (by simp [ht])) hnd.2
      refine ⟨m', ?_, ?_, ?_⟩
      · unfold chiTrainLoop
        simp only [e1, Res.orPanic, Res.bind_ok, e2]
        exact i1
      · intro a ha
        simp only [List.map_cons, List.mem_cons, not_or] at ha
        rw [i2 a ha.2, GoMap.get?_set, if_neg (Ne.symm ha.1)]
      · intro a ha
        rcases List.mem_cons.1 ha with rfl | ha
        · refine ⟨σ, out, e3, ?_, e4⟩
          rw [i2 _ hnd.1, GoMap.get?_set, if_pos rfl]
        · exact i3 a ha
  obtain ⟨m, h1, _, h3⟩ := hloop specs [] (fun s hs => ⟨hmap ▸ List.mem_map.2 ⟨s, hs, rfl⟩, (hin s hs).2⟩) (by rw [hmap]; exact hnd)
  refine ⟨m, ?_, fun a ha => h3 a (by rw [hmap]; exact ha)⟩
  unfold chiTrain discSpecs
  rw [hsp, Res.bind_ok]
  exact h1

/-- The claim: the table of every chosen column is that of the examples of the data, in ascending order. -/
def TrainsOnExamples (K : Type) [Field K] [LinearOrder K] : Prop :=
  ∀ (fo : FloatOps) (val : U64 → K) (below : Nat → K → Bool) (minrows maxrows : Int) (g : Grid) (n : Nat)
    (chosen : List Attr) (lab : Nat → String), ChiData fo g n chosen lab → ∀ (order : List Nat), g.RowOrder order →
    ∀ m, chiTrain fo val below minrows maxrows g order chosen = Res.ok m → ∀ a ∈ chosen, ∃ examples out,
      examples.Perm ((List.range n).map fun r => (g.number val a r, lab r)) ∧ m.get? a = some out ∧
      chiMergeTable below minrows maxrows (tableOf examples) = Res.ok out

/-- Sorting rows that are in order already leaves them in place. -/
theorem sortedRows_id {g : Grid} {n : Nat} {a : Attr} {σ : Nat → Nat} (h : SortedRows g n a σ)
    (hs : ∀ r q, r < q → q < n → lexLt (rowKeyFlipped g [a] r) (rowKeyFlipped g [a] q) ∨ rowKeyFlipped g [a] r = rowKeyFlipped g [a] q) :
    ∀ r, r < n → σ r = r := by
  have hlt : ∀ r, r < n → σ r < n := fun r hr => List.mem_range.1 (h.1.subset (List.mem_map.2 ⟨r, List.mem_range.2 hr, rfl⟩))
  have hmono : ∀ r q, r < q → q < n → σ r < σ q := by
    intro r q hrq hq
    rcases h.2 r q hrq hq with hl | ⟨_, hl⟩
    · by_contra hge
      rcases Nat.lt_or_eq_of_le (Nat.le_of_not_lt hge) with hgt | heq
      · rcases hs _ _ hgt (hlt r (by omega)) with h1 | h1
        · exact lexLt_asymm _ _ hl h1
        · rw [h1] at hl; exact lexLt_irrefl _ hl
      · rw [heq] at hl; exact lexLt_irrefl _ hl
    · exact hl
  have hge : ∀ r, r < n → r ≤ σ r := by
    intro r
    induction r with
    | zero => intro _; omega
    | succ r ih =>
      intro hr
      have := ih (by omega)
      have := hmono r (r + 1) (by omega) hr
      omega
  have hle : ∀ k r, r + k + 1 = n → σ r ≤ r := by
    intro k
    induction k with
    | zero =>
      intro r hr
      have := hlt r (by omega)
      omega
    | succ k ih =>
      intro r hr
      have := ih (r + 1) (by omega)
      have := hmono r (r + 1) (by omega) (by omega)
      omega
  intro r hr
  have := hge r hr
  have := hle (n - 1 - r) r (by omega)
  omega

/-- The claim holds if the rows are already in the order of the stored form of the column. -/
theorem C86_partial (fo : FloatOps) (val : U64 → K) (below : Nat → K → Bool) (minrows maxrows : Int) (g : Grid) (n : Nat)
    (chosen : List Attr) (lab : Nat → String) (D : ChiData fo g n chosen lab) (order : List Nat) (ho : g.RowOrder order) :
    ∃ m, chiTrain fo val below minrows maxrows g order chosen = Res.ok m ∧ ∀ a ∈ chosen,
      (∀ r q, r < q → q < n → lexLt (rowKeyFlipped g [a] r) (rowKeyFlipped g [a] q) ∨ rowKeyFlipped g [a] r = rowKeyFlipped g [a] q) →
      ∃ out, m.get? a = some out ∧
        chiMergeTable below minrows maxrows (tableOf (order.map fun r => (g.number val a r, lab r))) = Res.ok out := by
  obtain ⟨m, h1, h2⟩ := C86_train fo val below minrows maxrows g n chosen lab D order ho
  refine ⟨m, h1, ?_⟩
  intro a ha hs
  obtain ⟨σ, out, k1, k2, k3⟩ := h2 a ha
  refine ⟨out, k2, ?_⟩
  have hid := sortedRows_id k1 hs
  have : (order.map fun r => (g.number val a r, lab (σ r))) = order.map fun r => (g.number val a r, lab r) := by
    apply List.map_congr_left
    intro r hr
    rw [hid r (List.mem_range.1 ((D.presents.order order ho).subset hr))]
  rw [← this]
  exact k3

section Witness
private def cX : Attr := ⟨0, .float "x" 2⟩
private def cY : Attr := ⟨1, .cat "y" ["a", "b"]⟩
private def cOps (p q : Nat) : List Op :=
  [.add cX, .add cY, .extend 2, .set 0 0 (stored p), .set 0 1 (stored q), .set 1 0 (stored 0), .set 1 1 (stored 1), .addClass cY]
private def cFo : FloatOps := ⟨fun _ _ => "", fun _ _ => false⟩
private def cVal (u : U64) : ℚ := u.toNat

private def cCheck (d : Dense) (p q : ℚ) : Bool :=
  decide (d.allClassAttributes = [cY] ∧ d.allAttributes = [cX, cY] ∧ d.maxRow = 2 ∧
    cY.getString cFo ((Grid.dense d).cell cY 0) = Res.ok "a" ∧ cY.getString cFo ((Grid.dense d).cell cY 1) = Res.ok "b" ∧
    (Grid.dense d).number cVal cX 0 = p ∧ (Grid.dense d).number cVal cX 1 = q)

private theorem cData {d : Dense} {p q : ℚ} (D : DenseOK 2 d) (h : cCheck d p q = true) :
    ChiData cFo (.dense d) 2 [cX] (fun r => if r = 0 then "a" else "b") ∧ (Grid.dense d).RowOrder [0, 1] ∧
    (Grid.dense d).number cVal cX 0 = p ∧ (Grid.dense d).number cVal cX 1 = q := by
  unfold cCheck at h
  obtain ⟨h1, h2, h3, h4, h5, h6, h7⟩ := of_decide_eq_true h
  refine ⟨⟨D.presents, D.typed, ⟨cY, h1, ?_, ?_⟩, ?_, by simp⟩, ?_, h6, h7⟩
  · show cY ∈ d.allAttributes
    rw [h2]; simp
  · intro r hr
    match r, hr with
    | 0, _ => exact h4
    | 1, _ => exact h5
  · intro a ha
    rw [List.mem_singleton] at ha
    subst ha
    refine ⟨?_, rfl⟩
    show cX ∈ d.allAttributes
    rw [h2]; simp
  · show [0, 1] = List.range d.maxRow
    rw [h3]; rfl

/-- Rows (9, a) and (5, b): the table has one example of class b with the number 9, and one of class a with the number 5. -/
theorem C86_refuted : ¬ TrainsOnExamples ℚ := by
  intro h
  obtain ⟨st, hrun, hch, htr⟩ : ∃ st, run 4096 (cOps 9 5) = Res.ok st ∧ cCheck st.d 9 5 = true ∧
      chiTrain cFo cVal (fun _ _ => false) 2 3 (.dense st.d) [0, 1] [cX] =
        Res.ok [(cX, [⟨9, [("b", 1)]⟩, ⟨5, [("a", 1)]⟩])] := by
    refine ⟨_, rfl, ?_, ?_⟩
    all_goals decide +kernel
  obtain ⟨D, ho, n0, n1⟩ := cData (denseOK_run (pg := 4096) (ops := cOps 9 5) (by decide) hrun (by decide)) hch
  obtain ⟨ex, out, h1, h2, h3⟩ := h _ _ _ _ _ _ _ _ _ D _ ho _ htr cX (by simp)
  have hout : out = [⟨9, [("b", 1)]⟩, ⟨5, [("a", 1)]⟩] := by
    have : GoMap.get? [(cX, ([⟨9, [("b", 1)]⟩, ⟨5, [("a", 1)]⟩] : List (FreqEntry ℚ)))] cX = some [⟨9, [("b", 1)]⟩, ⟨5, [("a", 1)]⟩] := rfl
    rw [this, Option.some.injEq] at h2
    exact h2.symm
  have hlist : (List.range 2).map (fun r => ((Grid.dense st.d).number cVal cX r, if r = 0 then "a" else "b")) = [(9, "a"), (5, "b")] := by
    simp [List.range_succ, n0, n1]
  rw [hlist] at h1
  subst hout
  have : ex = [(9, "a"), (5, "b")] ∨ ex = [(5, "b"), (9, "a")] := by
    have hnd : ex.Nodup := h1.nodup_iff.2 (by decide +kernel)
    have hm := fun x => h1.mem_iff (a := x)
    match ex, h1.length_eq, hnd, hm with
    | [x, y], _, hnd, hm =>
      have hx := (hm x).1 (by simp)
      have hy := (hm y).1 (by simp)
      simp only [List.mem_cons, List.not_mem_nil, or_false] at hx hy
      rcases hx with rfl | rfl <;> rcases hy with rfl | rfl <;> simp at hnd ⊢
  rcases this with rfl | rfl
  · exact absurd h3 (by decide +kernel)
  · exact absurd h3 (by decide +kernel)

/-- Rows (5, a) and (9, b) are in order. -/
example : ∃ st, run 4096 (cOps 5 9) = Res.ok st ∧ ChiData cFo (.dense st.d) 2 [cX] (fun r => if r = 0 then "a" else "b") ∧
    (Grid.dense st.d).RowOrder [0, 1] ∧
    lexLt (rowKeyFlipped (.dense st.d) [cX] 0) (rowKeyFlipped (.dense st.d) [cX] 1) ∧
    chiTrain cFo cVal (fun _ _ => false) 2 3 (.dense st.d) [0, 1] [cX] = Res.ok [(cX, [⟨5, [("a", 1)]⟩, ⟨9, [("b", 1)]⟩])] := by
  obtain ⟨st, hrun, hch, h3, h4⟩ : ∃ st, run 4096 (cOps 5 9) = Res.ok st ∧ cCheck st.d 5 9 = true ∧
      lexLt (rowKeyFlipped (.dense st.d) [cX] 0) (rowKeyFlipped (.dense st.d) [cX] 1) ∧
      chiTrain cFo cVal (fun _ _ => false) 2 3 (.dense st.d) [0, 1] [cX] =
        Res.ok [(cX, [⟨5, [("a", 1)]⟩, ⟨9, [("b", 1)]⟩])] := by
    refine ⟨_, rfl, ?_, ?_, ?_⟩
    all_goals decide +kernel
  obtain ⟨D, ho, _⟩ := cData (denseOK_run (pg := 4096) (ops := cOps 5 9) (by decide) hrun (by decide)) hch
  exact ⟨st, hrun, D, ho, h3, h4⟩
end Witness

end Golearn
