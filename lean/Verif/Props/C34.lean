import Verif.Spec.Csv
import Verif.Proofs.Csv
import Verif.Props.C32

/-! # C34: CSV row accounting -/

namespace Golearn

theorem csvMkAttrs_spec (co : CsvOps) (fresh : Nat → Nat) (ns es : List String) (i : Nat)
    (h : ns.length = es.length) :
    (csvMkAttrs co fresh i ns es).length = es.length ∧
    (csvMkAttrs co fresh i ns es).map Attr.name = ns ∧
    ∀ j a, (csvMkAttrs co fresh i ns es)[j]? = some a →
      a.ptr = fresh (i + j) ∧ ∃ e, es[j]? = some e ∧ a.isBin = false ∧ a.isCat = !co.isNum e := by
  induction es generalizing i ns with
  | nil =>
    have : ns = [] := List.length_eq_zero_iff.1 (by simpa using h)
    subst this
    simp [csvMkAttrs]
  | cons e es ih =>
    cases ns with
    | nil => simp at h
    | cons n ns =>
      obtain ⟨h1, h2, h3⟩ := ih ns (i + 1) (by simpa using h)
      have hn : (csvAttr co (fresh i) n e).name = n := by unfold csvAttr; split <;> rfl
      refine ⟨by simp [csvMkAttrs, h1], by simp [csvMkAttrs, h2, hn], ?_⟩
      intro j a hj
      cases j with
      | zero =>
        simp only [csvMkAttrs, List.getElem?_cons_zero, Option.some.injEq] at hj
        subst hj
        unfold csvAttr
        split
        · rename_i hc; exact ⟨rfl, e, rfl, rfl, by simp [hc, Attr.isCat]⟩
        · rename_i hc; exact ⟨rfl, e, rfl, rfl, by simp [hc, Attr.isCat]⟩
      | succ j =>
        simp only [csvMkAttrs, List.getElem?_cons_succ] at hj
        obtain ⟨h4, h5⟩ := h3 j a hj
        refine ⟨by rw [h4]; congr 1; omega, ?_⟩
        simpa using h5

theorem names_distinct {l : List Attr} (h : (l.map Attr.name).Nodup) :
    l.Pairwise (fun a b => a.equals b = false) := by
  rw [List.Nodup, List.pairwise_map] at h
  refine h.imp ?_
  intro a b hab
  rw [← Bool.not_eq_true]
  exact fun e => hab (equals_name e)

/-- What is read, with the invariants of the table. -/
theorem csv_parsed (pg : Nat) (co : CsvOps) (srt : List Spec → List Spec) (fresh : Nat → Nat)
    (header : Option (List String)) (rows : List (List String)) (m : Nat)
    (hne : rows ≠ []) (hm : 0 < m) (hrows : ∀ r ∈ rows, r.length = m)
    (hhead : ∀ h, header = some h → h.length = m ∧ (h.map co.trim).Nodup)
    (hparse : ∀ i j v, numericCol co rows j = true → field rows i j = some v → v ≠ "" →
      (co.parse (co.trim v)).isSome = true)
    (hbig : rows.length * m < 2 ^ 64) (hfresh : ∀ i j, fresh i = fresh j → i = j)
    (hsrt : ∀ l : List Spec, l.length = m → srt l = l) :
    ∃ d env cols, parseCSVToInstances pg co srt fresh header.isSome (csvInput header rows) =
        Res.ok (d, env) ∧ Parsed co (csvColNames co header m) rows d env cols ∧
        DenseOK rows.length d ∧ ∀ a, cols.getLast? = some a → d.allClassAttributes = [a] := by
  obtain ⟨r0, rs, rfl⟩ := List.exists_cons_of_ne_nil hne
  have hr0 : r0.length = m := hrows r0 (by simp)
  set rows := r0 :: rs with hrowsdef
  set names := csvColNames co header m with hnames
  have hnl : names.length = m := by
    rw [hnames]; unfold csvColNames
    cases header with
    | none => simp
    | some h => simp [(hhead h rfl).1]
  have hnn : names.Nodup := by
    rw [hnames]; unfold csvColNames
    cases header with
    | none => exact List.nodup_range.map (fun a b => repr_inj)
    | some h => exact (hhead h rfl).2
  set cols := csvMkAttrs co fresh 0 names r0 with hcols
  obtain ⟨c1, c2, c3⟩ := csvMkAttrs_spec co fresh names r0 0 (by omega)
  rw [← hcols] at c1 c2 c3
  -- the row count and the attributes
  have hcount : csvRowCount (csvInput header rows) =
      Res.ok (if header.isSome then rows.length + 1 else rows.length) := by
    have hu : csvUniform (csvInput header rows) = true := by
      cases header with
      | none =>
        simp only [csvInput, Option.toList_none, List.nil_append, hrowsdef, csvUniform, List.all_eq_true,
          beq_iff_eq]
        intro x hx
        rw [hr0, hrows x (by simp [hrowsdef, hx])]
      | some h =>
        simp only [csvInput, Option.toList_some, List.cons_append, List.nil_append, csvUniform,
          List.all_eq_true, beq_iff_eq]
        intro x hx
        rw [(hhead h rfl).1, hrows x hx]
    rw [csvRowCount, if_pos hu]
    cases header <;> simp [csvInput]
  have hattrs : csvAttrs co fresh (csvInput header rows) header.isSome = Res.ok cols := by
    cases header with
    | none =>
      simp [csvAttrs, csvFirst, csvNames, csvInput, hrowsdef, hcols, hnames, csvColNames, hr0]
    | some h =>
      simp [csvAttrs, csvFirst, csvNames, csvInput, hrowsdef, hcols, hnames, csvColNames]
  have htail : (if header.isSome = true then (csvInput header rows).tail else csvInput header rows) = rows := by
    cases header <;> simp [csvInput]
  have hcount' : (if header.isSome = true then
      (if header.isSome = true then rows.length + 1 else rows.length) - 1
      else if header.isSome = true then rows.length + 1 else rows.length) = rows.length := by
    cases header <;> simp
  -- the empty grid
  have hdist := names_distinct (l := cols) (by rw [c2]; exact hnn)
  obtain ⟨d0, e0, D0, P0, K0, Z0⟩ := fresh_build pg cols rows.length hdist
  obtain ⟨specs, es, ms, ws⟩ := resolve_spec D0 srt cols (fun a ha => P0.symm.subset ha)
    (fun l hl => hsrt l (by omega))
  have hsl : specs.length = m := by
    have := congrArg List.length ms
    rw [List.length_map] at this
    omega
  have hspec : ∀ j : Nat, specs[j]?.map Spec.attr = cols[j]? := by
    intro j; rw [← ms, List.getElem?_map]
  -- positions
  have hzip : ∀ r : List String, ∀ q ∈ specs.zip r, ∃ j : Nat, cols[j]? = some q.1.attr ∧ r[j]? = some q.2 := by
    intro r q hq
    obtain ⟨j, hj⟩ := List.mem_iff_getElem?.1 hq
    rw [List.getElem?_zip_eq_some] at hj
    exact ⟨j, by rw [← hspec, hj.1]; rfl, hj.2⟩
  have hzip' : ∀ (r : List String) (j : Nat) (a : Attr) (v : String), cols[j]? = some a → r[j]? = some v →
      ∃ s, s.attr = a ∧ (s, v) ∈ specs.zip r := by
    intro r j a v h1 h2
    rw [← hspec, Option.map_eq_some_iff] at h1
    obtain ⟨s, h3, h4⟩ := h1
    exact ⟨s, h4, List.mem_iff_getElem?.2 ⟨j, List.getElem?_zip_eq_some.2 ⟨h3, h2⟩⟩⟩
  have hnum : ∀ j a, cols[j]? = some a → a.isCat = !numericCol co rows j := by
    intro j a hj
    obtain ⟨_, e, h1, _, h3⟩ := c3 j a hj
    rw [h3]
    simp [numericCol, field, hrowsdef, h1]
  have hstor : ∀ r ∈ rows, r.length = specs.length ∧ ∀ p ∈ specs.zip r, Storable co p.1.attr p.2 := by
    intro r hr
    refine ⟨by rw [hrows r hr, hsl], ?_⟩
    intro p hp
    obtain ⟨j, h1, h2⟩ := hzip r p hp
    by_cases hv : p.2 = ""
    · exact Or.inl hv
    by_cases hc : p.1.attr.isCat = true
    · exact Or.inr (Or.inl hc)
    · right; right
      obtain ⟨i, hi⟩ := List.mem_iff_getElem?.1 hr
      refine hparse i j p.2 ?_ (by simp [field, hi, h2]) hv
      have := hnum j _ h1
      rw [Bool.not_eq_true] at hc
      rw [hc] at this
      simpa using this.symm
  have hnodups : (specs.map Spec.attr).Nodup := by rw [ms]; exact distinct_nodup hdist
  obtain ⟨d1, env, e1, D1, A1, C1, L1, G1, V1, S1, _⟩ := csvRecords_spec co specs hnodups rows 0
    (d0.extend rows.length) (fun _ => []) (by omega) D0 ws hstor
  -- the class attribute
  have hcne : cols ≠ [] := by
    intro h; rw [h] at c1; simp at c1; omega
  set last := cols.getLast hcne with hlast
  have hlast? : cols.getLast? = some last := List.getLast?_eq_getLast_of_ne_nil hcne
  have hlm : last ∈ cols := List.getLast_mem hcne
  obtain ⟨sl, hl1, hl2, _⟩ := D1.presents.read last (by
    show last ∈ d1.allAttributes
    rw [A1]; exact P0.symm.subset hlm)
  have hl1' : d1.getAttribute last = Res.ok sl := hl1
  have hcl : d1.addClassAttribute last = Res.ok { d1 with classAttrs := d1.classAttrs.set sl true } := by
    rw [Dense.addClassAttribute, hl1', Res.map_ok]
  set d2 : Dense := { d1 with classAttrs := d1.classAttrs.set sl true } with hd2
  have D2 : DenseOK rows.length d2 := D1.withClass _
  have hA2 : d2.allAttributes.Perm cols := by
    have : d2.allAttributes = (d0.extend rows.length).allAttributes := A1
    rw [this]; exact P0
  refine ⟨d2, env, cols, ?_, ?_, D2, ?_⟩
  rotate_left 2
  · intro a ha
    rw [hlast?, Option.some.injEq] at ha
    have : d1.classAttrs = [] := by rw [C1, K0]
    simp [Dense.allClassAttributes, hd2, this, GoMap.set, hl2, ha]
  · unfold parseCSVToInstances
    rw [hcount, Res.bind_ok, hattrs, Res.bind_ok, e0, Res.bind_ok, hcount']
    unfold csvBuild
    rw [es]
    simp only [htail, e1, Res.bind_ok, hlast?, hcl]
  · have hinj : ∀ (i j : Nat) (a b : Attr), cols[i]? = some a → cols[j]? = some b → a.ptr = b.ptr → i = j := by
      intro i j a b h1 h2 h3
      rw [(c3 i a h1).1, (c3 j b h2).1] at h3
      have := hfresh _ _ h3
      omega
    have hidx : ∀ i j v, field rows i j = some v → ∃ h : i < rows.length, rows[i][j]? = some v := by
      intro i j v h
      unfold field at h
      rw [Option.bind_eq_some_iff] at h
      obtain ⟨r, h1, h2⟩ := h
      obtain ⟨h3, h4⟩ := List.getElem?_eq_some_iff.1 h1
      exact ⟨h3, by rw [h4]; exact h2⟩
    have hstored : ∀ i j a v, cols[j]? = some a → field rows i j = some v →
        if v = "" then (Grid.dense d1).cell a i = packU64 0
        else Stored co env a v ((Grid.dense d1).cell a i) := by
      intro i j a v h1 h2
      obtain ⟨hi, h3⟩ := hidx i j v h2
      obtain ⟨s, hs1, hs2⟩ := hzip' rows[i] j a v h1 h3
      have := S1 i hi (s, v) hs2
      simp only [Nat.zero_add, hs1] at this
      by_cases hv : v = ""
      · rw [if_pos hv] at this ⊢
        rw [this]
        exact Z0 a (List.mem_of_getElem? h1) (c3 j a h1).2.choose_spec.2.1 i hi
      · rw [if_neg hv] at this ⊢
        exact this
    have hlen : ∀ p, (env p).length < 2 ^ 64 := by
      intro p
      have := G1.len p
      rw [hsl] at this
      simp at this
      omega
    refine ⟨?_, hA2, c2, ?_, ?_, ?_, ?_⟩
    · have h1 := D2.presents.rows
      have h2 := hA2.length_eq
      have h1' : d2.maxRow = rows.length := h1
      show (d2.allAttributes.length, d2.maxRow) = _
      rw [h2, h1', c1, hnl, hr0]
    · intro j a hj
      obtain ⟨_, e, h1, h2, h3⟩ := c3 j a hj
      exact ⟨h2, hnum j a hj⟩
    · intro a
      rw [hlast?, Option.some.injEq]
      have : d1.classAttrs = [] := by rw [C1, K0]
      simp [Dense.allClassAttributes, hd2, this, GoMap.set, hl2, eq_comm]
    · intro i j a v h1 h2
      obtain ⟨hi, h3⟩ := hidx i j v h2
      have ham : a ∈ d2.allAttributes := hA2.symm.subset (List.mem_of_getElem? h1)
      obtain ⟨s, g1, g2, g3⟩ := D2.presents.read a ham
      have hcell : (Grid.dense d2).cell a i = (Grid.dense d1).cell a i := rfl
      have hst := hstored i j a v h1 h2
      refine ⟨s, _, g1, g3 i hi, ?_, ?_, ?_⟩
      · intro hv
        rw [if_pos hv] at hst
        rw [hcell, hst]
      · intro hv hc
        rw [if_neg hv] at hst
        rw [hcell]
        unfold Stored at hst
        have hb := (c3 j a h1).2.choose_spec.2.1
        obtain ⟨p, body⟩ := a
        cases body with
        | float n k => exact hst
        | cat n vs => simp [Attr.isCat] at hc
        | bin n => simp [Attr.isBin] at hb
      · intro hv hc
        rw [if_neg hv] at hst
        rw [hcell]
        unfold Stored at hst
        obtain ⟨p, body⟩ := a
        cases body with
        | float n k => simp [Attr.isCat] at hc
        | bin n => simp [Attr.isCat] at hc
        | cat n vs =>
          obtain ⟨k, hk1, hk2⟩ := hst
          have hk3 : k < (env p).length := (List.getElem?_eq_some_iff.1 hk1).1
          have := hlen p
          rw [hk2, catGetString, C01_unpack_pack, Res.bind_ok]
          have hmod : (BitVec.ofNat 64 k).toNat = k := by
            rw [BitVec.toNat_ofNat]; exact Nat.mod_eq_of_lt (by omega)
          simp only [hmod]
          simp only at hk1
          rw [hk1]
    · intro j a h1 hc
      refine ⟨G1.nodup _ (by simp), ?_⟩
      intro x
      constructor
      · intro hx
        rcases V1 _ x hx with h | ⟨r, hr, q, hq, hq1, hq2, hq3⟩
        · simp at h
        · obtain ⟨j', h2, h3⟩ := hzip r q hq
          have := hinj j' j _ _ h2 h1 hq1
          subst this
          obtain ⟨i, hi⟩ := List.mem_iff_getElem?.1 hr
          exact ⟨i, q.2, by simp [field, hi, h3], hq2, hq3⟩
      · rintro ⟨i, v, h2, hv, rfl⟩
        have hst := hstored i j a v h1 h2
        rw [if_neg hv] at hst
        unfold Stored at hst
        obtain ⟨p, body⟩ := a
        cases body with
        | float n k => simp [Attr.isCat] at hc
        | bin n => simp [Attr.isCat] at hc
        | cat n vs =>
          obtain ⟨k, hk1, _⟩ := hst
          exact List.mem_of_getElem? hk1

/-- `ParseCSVToInstances` on data lines `rows` of `m` fields each, with or without a header line: the
result has one row per data line, and row `i` holds the fields of line `i`, provided the column names
differ, the fields of numeric columns are numbers, and the attribute specifications keep their order
(the parser sorts them with a comparison that is always false).

Missing: the parser with attribute groups, see `C34_groups_fail`; and an order-changing sort, see
`C34_unstable_sort_fails`. -/
theorem C34_parse_partial (pg : Nat) (co : CsvOps) (srt : List Spec → List Spec) (fresh : Nat → Nat)
    (header : Option (List String)) (rows : List (List String)) (m : Nat)
    (hne : rows ≠ []) (hm : 0 < m) (hrows : ∀ r ∈ rows, r.length = m)
    (hhead : ∀ h, header = some h → h.length = m ∧ (h.map co.trim).Nodup)
    (hparse : ∀ i j v, numericCol co rows j = true → field rows i j = some v → v ≠ "" →
      (co.parse (co.trim v)).isSome = true)
    (hbig : rows.length * m < 2 ^ 64) (hfresh : ∀ i j, fresh i = fresh j → i = j)
    (hsrt : ∀ l : List Spec, l.length = m → srt l = l) :
    ∃ d env cols, parseCSVToInstances pg co srt fresh header.isSome (csvInput header rows) =
        Res.ok (d, env) ∧ Parsed co (csvColNames co header m) rows d env cols := by
  obtain ⟨d, env, cols, h1, h2, _⟩ := csv_parsed pg co srt fresh header rows m hne hm hrows hhead hparse hbig hfresh hsrt
  exact ⟨d, env, cols, h1, h2⟩

theorem set_maxRow {d d' : Dense} {s : Spec} {r : Nat} {v : Bytes} (h : d.set s r v = Res.ok d') :
    d'.maxRow = d.maxRow := by
  unfold Dense.set at h
  split at h
  · cases h
  · split at h
    · cases h
    · rw [Res.map_eq_ok] at h
      obtain ⟨g, _, e⟩ := h
      rw [← e]

theorem csvRecord_maxRow {co : CsvOps} {row : Nat} {vs : List String} :
    ∀ {d d' : Dense} {env env' : ValEnv} {specs : List Spec},
      csvRecord co row d env specs vs = Res.ok (d', env') → d'.maxRow = d.maxRow := by
  induction vs with
  | nil =>
    intro d d' env env' specs h
    simp only [csvRecord, Res.ok.injEq, Prod.mk.injEq] at h
    rw [h.1]
  | cons v vs ih =>
    intro d d' env env' specs h
    unfold csvRecord at h
    split at h
    · exact ih h
    · split at h
      · cases h
      · simp only [Res.bind_eq_ok] at h
        obtain ⟨q, _, d1, h2, h3⟩ := h
        rw [ih h3, set_maxRow h2]

theorem csvRecords_maxRow {co : CsvOps} {specs : List Spec} {recs : List (List String)} :
    ∀ {row : Nat} {d d' : Dense} {env env' : ValEnv},
      csvRecords co specs row d env recs = Res.ok (d', env') → d'.maxRow = d.maxRow := by
  induction recs with
  | nil =>
    intro row d d' env env' h
    simp only [csvRecords, Res.ok.injEq, Prod.mk.injEq] at h
    rw [h.1]
  | cons r rs ih =>
    intro row d d' env env' h
    simp only [csvRecords, Res.bind_eq_ok] at h
    obtain ⟨q, h1, h2⟩ := h
    rw [ih h2, csvRecord_maxRow h1]

theorem csvBuild_maxRow {co : CsvOps} {srt : List Spec → List Spec} {d d' : Dense} {env env' : ValEnv}
    {attrs : List Attr} {hh : Bool} {recs : List (List String)}
    (h : csvBuild co srt d env attrs hh recs = Res.ok (d', env')) : d'.maxRow = d.maxRow := by
  unfold csvBuild at h
  split at h
  · exact csvRecords_maxRow h
  · cases h

theorem pushAttr_maxRow {d : Dense} {i : Nat} {a : Attr} {p : Dense × Spec}
    (h : d.pushAttr i a = Res.ok p) : p.1.maxRow = d.maxRow := by
  unfold Dense.pushAttr at h
  split at h
  · cases h
  · rw [Res.ok.injEq] at h; rw [← h]

theorem createGroup_maxRow {d d' : Dense} {n : String} {k : Nat} (h : d.createGroup n k = Res.ok d') :
    d'.maxRow = d.maxRow := by
  unfold Dense.createGroup at h
  split at h
  · cases h
  · rw [Res.ok.injEq] at h; rw [← h]

theorem addAttribute_maxRow {pg : Nat} {d : Dense} {a : Attr} {p : Dense × Spec}
    (h : d.addAttribute pg a = Res.ok p) : p.1.maxRow = d.maxRow := by
  unfold Dense.addAttribute at h
  split at h
  · cases h
  · have hc : (d.chooseGroup pg a).1.maxRow = d.maxRow := by
      unfold Dense.chooseGroup; split <;> rfl
    revert h
    generalize d.chooseGroup pg a = q at hc ⊢
    obtain ⟨d1, ag, ib⟩ := q
    intro h
    simp only [Res.bind_eq_ok] at h
    obtain ⟨d2, h2, h3⟩ := h
    have hc2 : d2.maxRow = d.maxRow := by
      split at h2
      · rw [Res.ok.injEq] at h2; rw [← h2]; exact hc
      · rw [createGroup_maxRow h2]; exact hc
    split at h3
    · cases h3
    · rw [pushAttr_maxRow h3, hc2]

theorem addAll_maxRow {pg : Nat} {as : List Attr} {d d' : Dense} (h : addAll pg d as = Res.ok d') :
    d'.maxRow = d.maxRow := by
  induction as generalizing d with
  | nil => simp only [addAll, Res.ok.injEq] at h; rw [h]
  | cons a as ih =>
    simp only [addAll, Res.bind_eq_ok] at h
    obtain ⟨p, hp, h⟩ := h
    rw [ih h, addAttribute_maxRow hp]

/-- Whatever the input, when `ParseCSVToInstances` succeeds the result has one row per data line. -/
theorem C34_rows (pg : Nat) (co : CsvOps) (srt : List Spec → List Spec) (fresh : Nat → Nat)
    (header : Option (List String)) (rows : List (List String)) (d : Dense) (env : ValEnv)
    (h : parseCSVToInstances pg co srt fresh header.isSome (csvInput header rows) = Res.ok (d, env)) :
    d.size.2 = rows.length := by
  simp only [parseCSVToInstances, Res.bind_eq_ok] at h
  obtain ⟨n, h1, attrs, _, d1, h3, q, h4, h5⟩ := h
  have hn : n = (csvInput header rows).length := by
    unfold csvRowCount at h1
    split at h1
    · rw [Res.ok.injEq] at h1; exact h1.symm
    · cases h1
  have hq : q.1.maxRow = rows.length := by
    rw [csvBuild_maxRow (d' := q.1) (env' := q.2) h4]
    show d1.maxRow + _ = _
    rw [addAll_maxRow h3, hn]
    cases header <;> simp [csvInput, Dense.new]
  show d.maxRow = _
  split at h5
  · cases h5
  · split at h5
    · rename_i d2 h6
      rw [Res.ok.injEq, Prod.mk.injEq] at h5
      obtain ⟨s, _, e⟩ := addClass_ok h6
      rw [← h5.1, e]
      exact hq
    · rw [Res.ok.injEq] at h5
      rw [h5] at hq
      exact hq
    · cases h5

theorem createAll_maxRow {l : List (String × Nat)} {d d' : Dense} (h : createAll d l = Res.ok d') :
    d'.maxRow = d.maxRow := by
  induction l generalizing d with
  | nil => simp only [createAll, Res.ok.injEq] at h; rw [h]
  | cons p l ih =>
    obtain ⟨n, k⟩ := p
    simp only [createAll, Res.bind_eq_ok] at h
    obtain ⟨d1, h1, h2⟩ := h
    rw [ih h2]
    unfold Dense.createAttributeGroup at h1
    cases hc : d.createGroup n k with
    | ok x => rw [hc] at h1; simp only [Res.orPanic, Res.ok.injEq] at h1; rw [← h1]; exact createGroup_maxRow hc
    | err => rw [hc] at h1; cases h1
    | panic => rw [hc] at h1; cases h1

theorem addGrouped_maxRow {pg : Nat} {gs cs : GoMap String String} {as : List Attr} {d d' : Dense}
    (h : addGrouped pg gs cs d as = Res.ok d') : d'.maxRow = d.maxRow := by
  induction as generalizing d with
  | nil => simp only [addGrouped, Res.ok.injEq] at h; rw [h]
  | cons a as ih =>
    simp only [addGrouped, Res.bind_eq_ok] at h
    obtain ⟨d1, h1, h2⟩ := h
    have e1 : d1.maxRow = d.maxRow := by
      split at h1
      · rw [Res.map_eq_ok] at h1
        obtain ⟨p, hp, e⟩ := h1
        rw [← e]
        cases hc : d.addAttributeToGroup a _ with
        | ok x =>
          rw [hc] at hp
          simp only [Res.orPanic, Res.ok.injEq] at hp
          subst hp
          unfold Dense.addAttributeToGroup at hc
          split at hc
          · cases hc
          · split at hc
            · cases hc
            · split at hc
              · cases hc
              · exact pushAttr_maxRow hc
        | err => rw [hc] at hp; cases hp
        | panic => rw [hc] at hp; cases hp
      · rw [Res.map_eq_ok] at h1
        obtain ⟨p, hp, e⟩ := h1
        rw [← e]
        exact addAttribute_maxRow hp
    split at h2
    · rw [Res.bind_eq_ok] at h2
      obtain ⟨d2, h3, h4⟩ := h2
      rw [ih h4]
      cases hc : d1.addClassAttribute a with
      | ok x =>
        rw [hc] at h3
        simp only [Res.orPanic, Res.ok.injEq] at h3
        subst h3
        obtain ⟨s, _, e⟩ := addClass_ok hc
        rw [e]; exact e1
      | err => rw [hc] at h3; cases h3
      | panic => rw [hc] at h3; cases h3
    · rw [ih h2, e1]

/-- Whatever the input, a successful `ParseCSVToInstancesWithAttributeGroups` has one row per line, the
header line included: with a header there is one row too many, without one the count is right. -/
theorem C34_groups_rows (pg : Nat) (co : CsvOps) (srt : List Spec → List Spec) (fresh : Nat → Nat)
    (groups clsGroups : GoMap String String) (over : Nat → Option Attr) (sizes : List (String × Nat))
    (header : Option (List String)) (rows : List (List String)) (d : Dense) (env : ValEnv)
    (h : parseCSVWithGroups pg co srt fresh groups clsGroups over sizes header.isSome
      (csvInput header rows) = Res.ok (d, env)) :
    d.size.2 = rows.length + if header.isSome then 1 else 0 := by
  simp only [parseCSVWithGroups, Res.bind_eq_ok] at h
  obtain ⟨n, h1, attrs, _, d0, h2, d1, h3, h4⟩ := h
  have hn : n = (csvInput header rows).length := by
    unfold csvRowCount at h1
    split at h1
    · rw [Res.ok.injEq] at h1; exact h1.symm
    · cases h1
  show d.maxRow = _
  rw [csvBuild_maxRow h4]
  show d1.maxRow + n = _
  rw [addGrouped_maxRow h3, createAll_maxRow h2, hn]
  cases header <;> simp [csvInput, Dense.new]

/-- The claim for the parser with attribute groups. -/
def GroupsRowAccounting : Prop :=
  ∀ (pg : Nat) (co : CsvOps) (srt : List Spec → List Spec) (fresh : Nat → Nat)
    (groups clsGroups : GoMap String String) (over : Nat → Option Attr) (sizes : List (String × Nat))
    (header : Option (List String)) (rows : List (List String)) (d : Dense) (env : ValEnv),
    parseCSVWithGroups pg co srt fresh groups clsGroups over sizes header.isSome (csvInput header rows) =
      Res.ok (d, env) → d.size.2 = rows.length

section Examples

/-- A small reader of integers, enough for the examples. -/
private def co1 : CsvOps where
  trim := id
  isNum s := s == "1" || s == "2"
  parse s := if s = "1" then some 0x3FF0000000000000#64 else if s = "2" then some 0x4000000000000000#64 else none
  prec := 2

private def hdr : Option (List String) := some ["x", "y", "class"]
private def rows1 : List (List String) := [["1", "red", "yes"], ["2", "blue", ""], ["1", "red", "no"]]

/-- The hypotheses of `C34_parse_partial` are met by a header and three lines, one field empty. -/
example : rows1 ≠ [] ∧ (∀ r ∈ rows1, r.length = 3) ∧
    (∀ h, hdr = some h → h.length = 3 ∧ (h.map co1.trim).Nodup) ∧
    (∀ i j v, numericCol co1 rows1 j = true → field rows1 i j = some v → v ≠ "" →
      (co1.parse (co1.trim v)).isSome = true) := by
  refine ⟨by decide, by decide, ?_, ?_⟩
  · intro h e
    simp only [hdr, Option.some.injEq] at e
    subst e
    decide
  · intro i j v h1 h2 h3
    match j with
    | 0 =>
      match i with
      | 0 | 1 | 2 => simp [field, rows1] at h2; subst h2; rfl
      | i + 3 => simp [field, rows1] at h2
    | 1 => exact absurd h1 (by decide)
    | 2 => exact absurd h1 (by decide)
    | j + 3 => simp [numericCol, field, rows1] at h1

example : ((parseCSVToInstances 4096 co1 id id true (csvInput hdr rows1)).map fun q =>
    (q.1.size, q.1.allAttributes.map Attr.name, q.2 1, q.2 2, q.1.allClassAttributes.map Attr.name)) =
    Res.ok ((3, 3), ["x", "y", "class"], ["red", "blue"], ["yes", "no"], ["class"]) := by decide +kernel

private def noOver : Nat → Option Attr := fun _ => none

/-- Two lines after a header become three rows with attribute groups. -/
theorem C34_groups_fail : ¬ GroupsRowAccounting := by
  intro H
  have key : ((parseCSVWithGroups 4096 co1 id id [] [] noOver [] hdr.isSome (csvInput hdr rows1)).map
      fun q => q.1.size.2) = Res.ok 4 := by decide +kernel
  rw [Res.map_eq_ok] at key
  obtain ⟨⟨d, env⟩, h1, h2⟩ := key
  have := H 4096 co1 id id [] [] noOver [] hdr rows1 d env h1
  simp only at h2
  rw [h2] at this
  simp [rows1] at this

/-- When the always-false sort exchanges the specifications of two columns, the fields end up in the
wrong columns: here the first column, `x`, reads the second field. -/
theorem C34_unstable_sort_fails :
    ((parseCSVToInstances 4096 co1 List.reverse id true (csvInput (some ["x", "y"]) [["1", "2"]])).bind
      fun q => (q.1.getAttribute ⟨0, .float "x" 2⟩).bind fun s => q.1.get s 0) =
      Res.ok (packU64 0x4000000000000000#64) := by decide +kernel

end Examples

end Golearn
