import Verif.Proofs.Template

/-! # C108: Reading a CSV file with other instances as a template -/

namespace Golearn

theorem CsvReadable.names {co : CsvOps} {header : Option (List String)} {rows : List (List String)} {m : Nat} (R : CsvReadable co header rows m) :
    (csvColNames co header m).length = m ∧ (csvColNames co header m).Nodup := by
  unfold csvColNames
  cases header with
  | none => exact ⟨by simp, List.nodup_range.map (fun a b => repr_inj)⟩
  | some h => exact ⟨by simp [(R.head h rfl).1], (R.head h rfl).2⟩

/-- What the parser sees first: the number of lines and the attributes of the columns, with the names of the columns. -/
theorem CsvReadable.seen {co : CsvOps} {header : Option (List String)} {rows : List (List String)} {m : Nat} (R : CsvReadable co header rows m)
    (fresh : Nat → Nat) : ∃ cols, csvRowCount (csvInput header rows) = Res.ok (if header.isSome then rows.length + 1 else rows.length) ∧
      csvAttrs co fresh (csvInput header rows) header.isSome = Res.ok cols ∧ cols.map Attr.name = csvColNames co header m ∧
      (if header.isSome = true then (csvInput header rows).tail else csvInput header rows) = rows ∧
      (if header.isSome = true then (if header.isSome = true then rows.length + 1 else rows.length) - 1
        else if header.isSome = true then rows.length + 1 else rows.length) = rows.length := by
  obtain ⟨hN, _⟩ := R.names
  obtain ⟨hne, hrows, hhead⟩ := R
  obtain ⟨r0, rs, rfl⟩ := List.exists_cons_of_ne_nil hne
  have hr0 : r0.length = m := hrows r0 (by simp)
  obtain ⟨_, c2, _⟩ := csvMkAttrs_spec co fresh (csvColNames co header m) r0 0 (by omega)
  refine ⟨csvMkAttrs co fresh 0 (csvColNames co header m) r0, ?_, ?_, c2, by cases header <;> simp [csvInput], by cases header <;> simp⟩
  · have hu : csvUniform (csvInput header (r0 :: rs)) = true := by
      cases header with
      | none =>
        simp only [csvInput, Option.toList_none, List.nil_append, csvUniform, List.all_eq_true, beq_iff_eq]
        intro x hx
        rw [hr0, hrows x (by simp [hx])]
      | some h =>
        simp only [csvInput, Option.toList_some, List.cons_append, List.nil_append, csvUniform, List.all_eq_true, beq_iff_eq]
        intro x hx
        rw [(hhead h rfl).1, hrows x hx]
    rw [csvRowCount, if_pos hu]
    cases header <;> simp [csvInput]
  · cases header with
    | none => simp [csvAttrs, csvFirst, csvNames, csvInput, csvColNames, hr0]
    | some h => simp [csvAttrs, csvFirst, csvNames, csvInput, csvColNames]

/-- `ParseCSVToTemplatedInstances` on a file all of whose columns are columns of the template, in any order and possibly not all of them: the
result has the columns and the classes of the template and the rows of the file; every field is in the column of its name; columns that the
file lacks are zero. The values of categorical attributes of the template keep their codes, and new values come after them.

Missing: templates with incompatible attributes in a group (`C108_panics`), such as two categorical columns with different values; files with
other columns (`C108_unknown_column`); an order-changing sort (as in `C34_parse_partial`). -/
theorem C108_template_partial (co : CsvOps) (srt : List Spec → List Spec) (fresh : Nat → Nat) (t : Dense) (rt : Nat) (groups ord : List String)
    (header : Option (List String)) (rows : List (List String)) (m : Nat) (R : CsvReadable co header rows m)
    (D : DenseOK rt t) (N : GroupNamed t groups) (hord : ord.Perm groups) (K : GroupsCompatible t)
    (hnames : (t.allAttributes.map Attr.name).Nodup) (hptrs : (t.allAttributes.map Attr.ptr).Nodup)
    (hcls : ∀ a ∈ t.allClassAttributes, a ∈ t.allAttributes)
    (hcols : ∀ n ∈ csvColNames co header m, n ∈ t.allAttributes.map Attr.name)
    (hparse : ∀ a ∈ t.allAttributes, a.isCat = false → ∀ i j v, (csvColNames co header m)[j]? = some a.name → field rows i j = some v → v ≠ "" →
      (co.parse (co.trim v)).isSome = true)
    (hbig : ∀ a ∈ t.allAttributes, ∀ n vs, a.body = .cat n vs → vs.length + rows.length * m < 2 ^ 64)
    (hsrt : ∀ l : List Spec, l.length = m → srt l = l) :
    ∃ d env, parseCSVTemplated co srt fresh ord header.isSome t (csvInput header rows) = Res.ok (d, env) ∧
      Templated co t (csvColNames co header m) rows d env := by
  obtain ⟨hnl, hnn⟩ := R.names
  obtain ⟨cols0, hcount, hattrs, hcn, htail, hcount'⟩ := R.seen fresh
  set names := csvColNames co header m with hnamesdef
  obtain ⟨d0, e0, D0, P0, K0, Z0⟩ := copyDense_spec 0 D N K ord hord rows.length
  -- the columns
  set cols := cols0.map (fun a => matchAttr a t.allAttributes) with hcolsdef
  have hcol : ∀ a0 ∈ cols0, matchAttr a0 t.allAttributes ∈ t.allAttributes ∧ (matchAttr a0 t.allAttributes).name = a0.name := by
    intro a0 ha0
    have : a0.name ∈ names := by rw [← hcn]; exact List.mem_map_of_mem ha0
    obtain ⟨b, hb, hbn⟩ := List.mem_map.1 (hcols _ this)
    rw [matchAttr_some hnames hb hbn.symm]
    exact ⟨hb, hbn⟩
  have hcm : ∀ a ∈ cols, a ∈ t.allAttributes := by
    intro a ha
    obtain ⟨a0, h1, rfl⟩ := List.mem_map.1 ha
    exact (hcol a0 h1).1
  have hcnames : cols.map Attr.name = names := by
    rw [← hcn, hcolsdef, List.map_map]
    exact List.map_congr_left fun a0 ha0 => (hcol a0 ha0).2
  have hcl : cols.length = m := by
    have := congrArg List.length hcnames
    simp only [List.length_map] at this
    omega
  have hcnodup : cols.Nodup := List.Nodup.of_map _ (by rw [hcnames]; exact hnn)
  -- a column is the attribute of its name
  have hat : ∀ (j : Nat) (a : Attr), a ∈ t.allAttributes → names[j]? = some a.name → cols[j]? = some a := by
    intro j a ha hj
    rw [← hcnames, List.getElem?_map, Option.map_eq_some_iff] at hj
    obtain ⟨b, hb1, hb2⟩ := hj
    have hbm := hcm b (List.mem_of_getElem? hb1)
    rw [hb1]
    obtain ⟨i1, hi1⟩ := List.getElem?_of_mem hbm
    obtain ⟨i2, hi2⟩ := List.getElem?_of_mem ha
    have : i1 = i2 := by
      refine (List.getElem?_inj ?_ hnames).1 ?_
      · rw [List.length_map]; exact (List.getElem?_eq_some_iff.1 hi1).1
      · rw [List.getElem?_map, List.getElem?_map, hi1, hi2, Option.map_some, Option.map_some, hb2]
    subst this
    rw [← hi1, ← hi2]
  have hnat : ∀ (j : Nat) (a : Attr), cols[j]? = some a → names[j]? = some a.name := by
    intro j a hj
    rw [← hcnames, List.getElem?_map, hj]; rfl
  obtain ⟨specs, es, ms, ws⟩ := resolve_spec D0 srt cols (fun a ha => P0.symm.subset (hcm a ha)) (fun l hl => hsrt l (by omega))
  have hsl : specs.length = m := by
    have := congrArg List.length ms
    rw [List.length_map] at this
    omega
  have hspec : ∀ j : Nat, specs[j]?.map Spec.attr = cols[j]? := by
    intro j; rw [← ms, List.getElem?_map]
  have hzip : ∀ r : List String, ∀ q ∈ specs.zip r, ∃ j : Nat, cols[j]? = some q.1.attr ∧ r[j]? = some q.2 := by
    intro r q hq
    obtain ⟨j, hj⟩ := List.mem_iff_getElem?.1 hq
    rw [List.getElem?_zip_eq_some] at hj
    exact ⟨j, by rw [← hspec, hj.1]; rfl, hj.2⟩
  have hzip' : ∀ (r : List String) (j : Nat) (a : Attr) (v : String), cols[j]? = some a → r[j]? = some v → ∃ s, s.attr = a ∧ (s, v) ∈ specs.zip r := by
    intro r j a v h1 h2
    rw [← hspec, Option.map_eq_some_iff] at h1
    obtain ⟨s, h3, h4⟩ := h1
    exact ⟨s, h4, List.mem_iff_getElem?.2 ⟨j, List.getElem?_zip_eq_some.2 ⟨h3, h2⟩⟩⟩
  have hstor : ∀ r ∈ rows, r.length = specs.length ∧ ∀ p ∈ specs.zip r, Storable co p.1.attr p.2 := by
    intro r hr
    refine ⟨by rw [R.wide r hr, hsl], ?_⟩
    intro p hp
    obtain ⟨j, h1, h2⟩ := hzip r p hp
    by_cases hv : p.2 = ""
    · exact Or.inl hv
    by_cases hc : p.1.attr.isCat = true
    · exact Or.inr (Or.inl hc)
    · right; right
      obtain ⟨i, hi⟩ := List.mem_iff_getElem?.1 hr
      exact hparse p.1.attr (hcm _ (List.mem_of_getElem? h1)) (by simpa using hc) i j p.2 (hnat j _ h1) (by simp [field, hi, h2]) hv
  obtain ⟨d1, env, e1, D1, A1, C1, L1, G1, V1, S1, U1⟩ := csvRecords_spec co specs (by rw [ms]; exact hcnodup) rows 0
    (d0.extend rows.length) (envOf t.allAttributes) (by omega) D0 ws hstor
  have hA1 : d1.allAttributes.Perm t.allAttributes := by rw [A1]; exact P0
  obtain ⟨d2, e2, ⟨cm, hd2⟩, hc2⟩ := addTemplateClasses_spec D1 t.allClassAttributes fun a ha => hA1.symm.subset (hcls a ha)
  have D2 : DenseOK rows.length d2 := by rw [hd2]; exact D1.withClass _
  have hA2 : d2.allAttributes.Perm t.allAttributes := by
    have : d2.allAttributes = d1.allAttributes := by rw [hd2]; rfl
    rw [this]; exact hA1
  have hcell : ∀ a i, (Grid.dense d2).cell a i = (Grid.dense d1).cell a i := by
    intro a i; rw [hd2]; rfl
  refine ⟨d2, env, ?_, ?_⟩
  · unfold parseCSVTemplated
    rw [hcount, Res.bind_ok, hattrs, Res.bind_ok]
    simp only [e0, Res.bind_ok, hcount']
    unfold csvBuild
    rw [← hcolsdef, es]
    simp only [htail, e1, Res.bind_ok, e2, Res.map_ok]
  · refine ⟨?_, hA2, ?_, ?_, ?_, ?_, ?_⟩
    · have h1 : d2.maxRow = rows.length := D2.presents.rows
      show (d2.allAttributes.length, d2.maxRow) = (t.allAttributes.length, rows.length)
      rw [hA2.length_eq, h1]
    · intro a
      have : d1.classAttrs = [] := by rw [C1, K0]
      rw [hc2 a]
      simp [Dense.allClassAttributes, this]
    · intro a ha n vs hb
      have := G1.pre a.ptr
      rwa [envOf_cat hptrs ha hb] at this
    · intro a ha n vs hb x hx
      rcases V1 _ x hx with h | ⟨r, hr, q, hq, hq1, hq2, hq3⟩
      · rw [envOf_cat hptrs ha hb] at h
        exact Or.inl h
      · right
        obtain ⟨j, h2, h3⟩ := hzip r q hq
        obtain ⟨i, hi⟩ := List.mem_iff_getElem?.1 hr
        have hqa : q.1.attr = a := by
          have hqm := hcm _ (List.mem_of_getElem? h2)
          obtain ⟨i1, hi1⟩ := List.getElem?_of_mem hqm
          obtain ⟨i2, hi2⟩ := List.getElem?_of_mem ha
          have : i1 = i2 := by
            refine (List.getElem?_inj ?_ hptrs).1 ?_
            · rw [List.length_map]; exact (List.getElem?_eq_some_iff.1 hi1).1
            · rw [List.getElem?_map, List.getElem?_map, hi1, hi2, Option.map_some, Option.map_some, hq1]
          subst this
          rw [hi1, Option.some.injEq] at hi2
          exact hi2
        refine ⟨i, j, q.2, ?_, by simp [field, hi, h3], hq2, hq3⟩
        rw [← hqa]; exact hnat j _ h2
    · intro a ha i j v hj hf
      have hca := hat j a ha hj
      obtain ⟨hi, h3⟩ : ∃ h : i < rows.length, rows[i][j]? = some v := by
        unfold field at hf
        rw [Option.bind_eq_some_iff] at hf
        obtain ⟨r, h1, h2⟩ := hf
        obtain ⟨h3, h4⟩ := List.getElem?_eq_some_iff.1 h1
        exact ⟨h3, by rw [h4]; exact h2⟩
      obtain ⟨s, hs1, hs2⟩ := hzip' rows[i] j a v hca h3
      have hst := S1 i hi (s, v) hs2
      simp only [Nat.zero_add, hs1] at hst
      obtain ⟨s', g1, g2, g3⟩ := D2.presents.read a (hA2.symm.subset ha)
      refine ⟨s', _, g1, g3 i hi, ?_, ?_⟩
      · intro hv
        rw [if_pos hv] at hst
        rw [hcell, hst]
        exact Z0 a ha i hi
      · intro hv
        rw [if_neg hv] at hst
        rw [hcell]
        have hb' := hbig a ha
        have he := fun n vs => envOf_cat hptrs ha (n := n) (vs := vs)
        unfold Stored at hst
        unfold Says
        obtain ⟨p, body⟩ := a
        cases body with
        | float n k => exact hst
        | bin n => exact hst
        | cat n vs =>
          obtain ⟨k, hk1, hk2⟩ := hst
          have hk3 : k < (env p).length := (List.getElem?_eq_some_iff.1 hk1).1
          have h4 := G1.len p
          have h5 : envOf t.allAttributes p = vs := he n vs rfl
          rw [hsl, h5] at h4
          have h6 := hb' n vs rfl
          rw [hk2, catGetString, C01_unpack_pack, Res.bind_ok]
          have hmod : (BitVec.ofNat 64 k).toNat = k := by
            rw [BitVec.toNat_ofNat]; exact Nat.mod_eq_of_lt (by omega)
          simp only [hmod]
          simp only at hk1
          rw [hk1]
    · intro a ha hna i hi
      obtain ⟨s, g1, g2, g3⟩ := D2.presents.read a (hA2.symm.subset ha)
      refine ⟨s, g1, ?_⟩
      have := g3 i hi
      rw [hcell, U1 a (P0.symm.subset ha) i hi (Or.inr (Or.inr ?_)), Z0 a ha i hi] at this
      · exact this
      · rw [ms]
        intro hm
        exact hna (by rw [← hcnames]; exact List.mem_map_of_mem hm)

/-- A text that the template knows gets the code it has in the template: a cell with that code reads the same with the values of the template as with
the values after the file. -/
theorem C108_codes {co : CsvOps} {t : Dense} {names : List String} {rows : List (List String)} {d : Dense} {env : ValEnv}
    (T : Templated co t names rows d env) (a : Attr) (ha : a ∈ t.allAttributes) (n : String) (vs : List String) (hb : a.body = .cat n vs) (c : Bytes)
    (x : String) (h : catGetString vs c = Res.ok x) : catGetString (env a.ptr) c = Res.ok x := by
  have hp := T.keeps a ha n vs hb
  unfold catGetString at h ⊢
  rw [Res.bind_eq_ok] at h
  obtain ⟨u, h1, h2⟩ := h
  rw [h1, Res.bind_ok]
  have : ∀ k : Nat, ∀ y, vs[k]? = some y → (env a.ptr)[k]? = some y := by
    intro k y hk
    obtain ⟨l, hl⟩ := hp
    rw [← hl, List.getElem?_append_left (List.getElem?_eq_some_iff.1 hk).1, hk]
  split at h2
  · rename_i y hy
    rw [this _ _ hy]
    exact h2
  · cases h2

/-- A template with attributes in one group that are not compatible (for categorical ones: whose values differ) makes every readable file panic. -/
theorem C108_panics (co : CsvOps) (srt : List Spec → List Spec) (fresh : Nat → Nat) (t : Dense) (rt : Nat) (groups ord : List String)
    (header : Option (List String)) (rows : List (List String)) (m : Nat) (R : CsvReadable co header rows m)
    (D : DenseOK rt t) (N : GroupNamed t groups) (hord : ord.Perm groups) (K : ¬ GroupsCompatible t) :
    parseCSVTemplated co srt fresh ord header.isSome t (csvInput header rows) = Res.panic := by
  obtain ⟨cols0, hcount, hattrs, _⟩ := R.seen fresh
  unfold parseCSVTemplated
  rw [hcount, Res.bind_ok, hattrs, Res.bind_ok]
  simp only [copyDense_panics D N K ord hord]
  rfl

/-- A file with a column that the template does not have is an error. -/
theorem C108_unknown_column (co : CsvOps) (srt : List Spec → List Spec) (fresh : Nat → Nat) (t : Dense) (rt : Nat) (groups ord : List String)
    (header : Option (List String)) (rows : List (List String)) (m : Nat) (R : CsvReadable co header rows m)
    (D : DenseOK rt t) (N : GroupNamed t groups) (hord : ord.Perm groups) (K : GroupsCompatible t) (n : String)
    (hn : n ∈ csvColNames co header m) (hnt : n ∉ t.allAttributes.map Attr.name) :
    parseCSVTemplated co srt fresh ord header.isSome t (csvInput header rows) = Res.err := by
  obtain ⟨cols0, hcount, hattrs, hcn, htail, hcount'⟩ := R.seen fresh
  obtain ⟨d0, e0, D0, P0, _, _⟩ := copyDense_spec 0 D N K ord hord rows.length
  rw [← hcn] at hn
  obtain ⟨a0, ha0, rfl⟩ := List.mem_map.1 hn
  have hno : ∀ s, (d0.extend rows.length).getAttribute a0 ≠ Res.ok s := by
    intro s h
    have hf := findInGroups_spec a0 (d0.extend rows.length).ags 0
    rw [Dense.getAttribute] at h
    split at h
    · rename_i s' hs
      rw [hs] at hf
      obtain ⟨i, g, _, p2, p3, p4, _⟩ := hf
      refine hnt (List.mem_map.2 ⟨s'.attr, P0.subset ?_, equals_name p4⟩)
      exact List.mem_flatMap.2 ⟨g, List.mem_of_getElem? p2, List.mem_of_getElem? p3⟩
    · cases h
  have hres : ∀ specs, (Grid.dense (d0.extend rows.length)).resolve srt (cols0.map fun a => matchAttr a t.allAttributes) ≠ Res.ok specs := by
    intro specs h
    unfold Grid.resolve at h
    rw [Res.map_eq_ok] at h
    obtain ⟨l, h1, _⟩ := h
    unfold Grid.resolveUnsorted at h1
    rw [mapRes_eq_ok] at h1
    have hm : a0 ∈ cols0.map fun a => matchAttr a t.allAttributes := List.mem_map.2 ⟨a0, ha0, matchAttr_none hnt⟩
    obtain ⟨s, hs⟩ : ∃ s, (Grid.dense (d0.extend rows.length)).getAttribute a0 = Res.ok s := by
      have hall : ∀ (as : List Attr) (ss : List Spec), List.Forall₂ (fun a s => (match (Grid.dense (d0.extend rows.length)).getAttribute a with
          | .ok s => Res.ok s
          | _ => Res.panic) = Res.ok s) as ss → ∀ a ∈ as, ∃ s, (Grid.dense (d0.extend rows.length)).getAttribute a = Res.ok s := by
        intro as ss hf
        induction hf with
        | nil => simp
        | @cons a s as ss h _ ih =>
          intro b hb
          rcases List.mem_cons.1 hb with rfl | hb
          · cases hg : (Grid.dense (d0.extend rows.length)).getAttribute b with
            | ok s => exact ⟨s, rfl⟩
            | err => rw [hg] at h; cases h
            | panic => rw [hg] at h; cases h
          · exact ih b hb
      exact hall _ _ h1 a0 hm
    exact hno s hs
  unfold parseCSVTemplated
  rw [hcount, Res.bind_ok, hattrs, Res.bind_ok]
  simp only [e0, Res.bind_ok, hcount']
  unfold csvBuild
  split
  · rename_i specs h
    exact absurd h (hres specs)
  · rfl

/-- Without a header line the columns are called "0", "1", …: a template without a column "0" makes the file an error. -/
theorem C108_no_header (co : CsvOps) (srt : List Spec → List Spec) (fresh : Nat → Nat) (t : Dense) (rt : Nat) (groups ord : List String)
    (rows : List (List String)) (m : Nat) (hm : 0 < m) (R : CsvReadable co none rows m)
    (D : DenseOK rt t) (N : GroupNamed t groups) (hord : ord.Perm groups) (K : GroupsCompatible t) (h0 : "0" ∉ t.allAttributes.map Attr.name) :
    parseCSVTemplated co srt fresh ord false t rows = Res.err := by
  refine C108_unknown_column co srt fresh t rt groups ord none rows m R D N hord K "0" ?_ h0
  exact List.mem_map.2 ⟨0, List.mem_range.2 hm, by decide⟩

/-- The claim: a readable file with the columns of a template built by adding attributes is read with that template. -/
def TemplateClaim : Prop :=
  ∀ (pg : Nat) (co : CsvOps) (srt : List Spec → List Spec) (fresh : Nat → Nat) (ops : List Op) (st : St) (groups ord : List String)
    (header : Option (List String)) (rows : List (List String)) (m : Nat),
    (∀ op ∈ ops, basicOp op = true) → run pg ops = Res.ok st → GroupNamed st.d groups → ord.Perm groups → CsvReadable co header rows m →
    (∀ l : List Spec, l.length = m → srt l = l) →
    csvColNames co header m = st.d.allAttributes.map Attr.name →
    (∀ a ∈ st.d.allAttributes, a.isCat = true) →
    (parseCSVTemplated co srt fresh ord header.isSome st.d (csvInput header rows)).isOk = true

namespace C108Ex

def co1 : CsvOps where
  trim := id
  isNum s := s == "1" || s == "2"
  parse s := if s = "1" then some 0x3FF0000000000000#64 else if s = "2" then some 0x4000000000000000#64 else none
  prec := 2

def ax : Attr := ⟨0, .float "x" 2⟩
def ay : Attr := ⟨1, .float "y" 2⟩
def ac : Attr := ⟨2, .cat "class" ["no", "yes"]⟩
def ab : Attr := ⟨3, .cat "b" ["u", "v"]⟩

/-- Two float columns and a categorical class. -/
def opsT : List Op := [Op.add ax, Op.add ay, Op.add ac, Op.addClass ac, Op.extend 1]
/-- Two categorical columns with different values. -/
def opsU : List Op := [Op.add ab, Op.add ac, Op.addClass ac, Op.extend 1]
def hdr : Option (List String) := some ["class", "x"]
def rows1 : List (List String) := [["yes", "1"], ["maybe", ""], ["no", "2"]]

end C108Ex

open C108Ex

/-- The hypotheses of `C108_template_partial` are met by a template with three columns and a file with two of them, in another order. -/
example : ∃ st, run 4096 opsT = Res.ok st ∧ DenseOK 1 st.d ∧ (∃ names, GroupNamed st.d names) ∧ GroupsCompatible st.d ∧
    (st.d.allAttributes.map Attr.name).Nodup ∧ (st.d.allAttributes.map Attr.ptr).Nodup ∧ (∀ a ∈ st.d.allClassAttributes, a ∈ st.d.allAttributes) ∧
    (∀ n ∈ csvColNames co1 hdr 2, n ∈ st.d.allAttributes.map Attr.name) ∧ CsvReadable co1 hdr rows1 2 := by
  have key : ((run 4096 opsT).map fun st => (decide (∀ g ∈ st.d.ags, ∀ a ∈ g.attrs, ∀ b ∈ g.attrs, a.compatible b = true),
      st.d.allAttributes, st.d.allClassAttributes)) = Res.ok (true, [ax, ay, ac], [ac]) := by decide +kernel
  rw [Res.map_eq_ok] at key
  obtain ⟨st, hst, h⟩ := key
  simp only [Prod.mk.injEq, decide_eq_true_eq] at h
  obtain ⟨h1, h2, h3⟩ := h
  refine ⟨st, hst, denseOK_run (by decide) hst (by decide), run_named _ _ (by decide) _ hst, h1, by rw [h2]; decide, by rw [h2]; decide,
    by rw [h2, h3]; decide, by rw [h2]; decide, ⟨by decide, by decide, ?_⟩⟩
  intro h e
  simp only [hdr, Option.some.injEq] at e
  subst e
  decide

set_option synthInstance.maxSize 1000 in
/-- The file: the column `y` that it lacks is zero, the text "maybe" is new and gets the next code, and the template's values have grown. -/
theorem C108_witness : ((run 4096 opsT).bind fun st => (parseCSVTemplated co1 id (· + 10) ["CAT0", "FLOAT0"] true st.d (csvInput hdr rows1)).bind fun q =>
    (mapRes (fun a => mapRes (fun r => (q.1.getAttribute a).bind fun s => q.1.get s r) [0, 1, 2]) [ax, ay, ac]).map fun cells =>
    (q.1.size, q.1.allAttributes.map Attr.name, q.1.allClassAttributes.map Attr.name, q.2 2, cells)) =
    Res.ok ((3, 3), ["class", "x", "y"], ["class"], ["no", "yes", "maybe"],
      [[packU64 0x3FF0000000000000#64, packU64 0#64, packU64 0x4000000000000000#64], [packU64 0#64, packU64 0#64, packU64 0#64],
       [packU64 1#64, packU64 2#64, packU64 0#64]]) := by decide +kernel

/-- Two categorical columns with different values, and a file with exactly these columns and only known values: reading it panics. -/
theorem C108_two_categories : ((run 4096 opsU).bind fun st =>
    parseCSVTemplated co1 id (· + 10) ["CAT0"] true st.d (csvInput (some ["b", "class"]) [["u", "yes"]]) |>.map fun _ => true) = Res.panic := by
  decide +kernel

set_option synthInstance.maxSize 1000 in
theorem C108_refuted : ¬ TemplateClaim := by
  intro H
  have key : ((run 4096 opsU).map fun st => ((st.d.agMap : List (String × Nat)), (st.d.agRevMap : List (Nat × String)), st.d.ags.length, st.d.allAttributes,
      (parseCSVTemplated co1 id (· + 10) ["CAT0"] true st.d (csvInput (some ["b", "class"]) [["u", "yes"]])).isOk)) =
      Res.ok ([("CAT0", 0)], [(0, "CAT0")], 1, [ab, ac], false) := by decide +kernel
  rw [Res.map_eq_ok] at key
  obtain ⟨st, hst, h⟩ := key
  simp only [Prod.mk.injEq] at h
  obtain ⟨h1, h2, h3, h4, h5⟩ := h
  have := H 4096 co1 id (· + 10) opsU st ["CAT0"] ["CAT0"] (some ["b", "class"]) [["u", "yes"]] 2 (by decide) hst
    ⟨by decide, by rw [h3]; rfl, by rw [h1]; rfl, by rw [h2]; rfl⟩ (List.Perm.refl _)
    ⟨by decide, by decide, by
      intro h e
      simp only [Option.some.injEq] at e
      subst e
      decide⟩ (fun _ _ => rfl) (by rw [h4]; decide) (by rw [h4]; decide)
  rw [show (some ["b", "class"]).isSome = true from rfl, h5] at this
  cases this

/-- `C108_panics` and `C108_unknown_column` apply: a template with incompatible categories exists, and a template without a column "0". -/
example : ∃ st, run 4096 opsU = Res.ok st ∧ DenseOK 1 st.d ∧ (∃ names, GroupNamed st.d names) ∧ ¬ GroupsCompatible st.d ∧
    "0" ∉ st.d.allAttributes.map Attr.name := by
  have key : ((run 4096 opsU).map fun st => (decide (∀ g ∈ st.d.ags, ∀ a ∈ g.attrs, ∀ b ∈ g.attrs, a.compatible b = true),
      st.d.allAttributes)) = Res.ok (false, [ab, ac]) := by decide +kernel
  rw [Res.map_eq_ok] at key
  obtain ⟨st, hst, h⟩ := key
  simp only [Prod.mk.injEq, decide_eq_false_iff_not] at h
  exact ⟨st, hst, denseOK_run (by decide) hst (by decide), run_named _ _ (by decide) _ hst, h.1, by rw [h.2]; decide⟩

end Golearn
