import Verif.Proofs.CsvGroups
import Verif.Props.C108

/-! # C109: Reading a CSV file with attribute groups -/

namespace Golearn

theorem csvMkAttrs_get (co : CsvOps) (fresh : Nat → Nat) (ns es : List String) (i : Nat) (h : ns.length = es.length) (j : Nat) :
    (csvMkAttrs co fresh i ns es)[j]? = (ns[j]?).bind fun n => (es[j]?).map fun e => csvAttr co (fresh (i + j)) n e := by
  induction es generalizing i ns j with
  | nil =>
    have : ns = [] := List.length_eq_zero_iff.1 (by simpa using h)
    subst this
    simp [csvMkAttrs]
  | cons e es ih =>
    cases ns with
    | nil => simp at h
    | cons n ns =>
      cases j with
      | zero => simp [csvMkAttrs]
      | succ j =>
        simp only [csvMkAttrs, List.getElem?_cons_succ]
        rw [ih ns (i + 1) (by simpa using h) j, show i + 1 + j = i + (j + 1) by omega]

/-- The attributes that the parser makes for the columns. -/
theorem CsvReadable.columns {co : CsvOps} {header : Option (List String)} {rows : List (List String)} {m : Nat} (R : CsvReadable co header rows m)
    (fresh : Nat → Nat) (over : Nat → Option Attr) : ∃ cols0, csvRowCount (csvInput header rows) = Res.ok (csvInput header rows).length ∧
      csvAttrs co fresh (csvInput header rows) header.isSome = Res.ok cols0 ∧
      (cols0.mapIdx fun i a => (over i).getD a) = csvColumns co fresh header rows m over := by
  obtain ⟨hN, _⟩ := R.names
  obtain ⟨_, hcount, _⟩ := R.seen fresh
  obtain ⟨hne, hrows, hhead⟩ := R
  obtain ⟨r0, rs, rfl⟩ := List.exists_cons_of_ne_nil hne
  have hr0 : r0.length = m := hrows r0 (by simp)
  refine ⟨csvMkAttrs co fresh 0 (csvColNames co header m) r0, ?_, ?_, ?_⟩
  · rw [hcount]
    cases header <;> simp [csvInput]
  · cases header with
    | none => simp [csvAttrs, csvFirst, csvNames, csvInput, csvColNames, hr0]
    | some h => simp [csvAttrs, csvFirst, csvNames, csvInput, csvColNames]
  · refine List.ext_getElem? fun j => ?_
    rw [List.getElem?_mapIdx, csvMkAttrs_get co fresh _ r0 0 (by omega), csvColumns, List.getElem?_map]
    by_cases hj : j < m
    · have h1 : (csvColNames co header m)[j]? = some (csvColNames co header m)[j] := List.getElem?_eq_getElem (by omega)
      have h2 : r0[j]? = some r0[j] := List.getElem?_eq_getElem (by omega)
      rw [List.getElem?_range hj, h1, h2]
      simp only [Option.bind_some, Option.map_some, Option.getD_some, Nat.zero_add, csvAttr]
      have h3 : numericCol co (r0 :: rs) j = co.isNum r0[j] := by simp [numericCol, field, h2]
      rw [h3, h1]
      rfl
    · rw [List.getElem?_eq_none (l := List.range m) (by simpa using hj), List.getElem?_eq_none (l := csvColNames co header m) (by omega)]
      rfl

/-! ## Writing cells keeps the groups -/

/-- Two grids with the same groups and the same attributes in them. -/
def SameGroups (d d' : Dense) : Prop := d'.agMap = d.agMap ∧ d'.ags.map Group.attrs = d.ags.map Group.attrs

theorem sameGroups_set {d d' : Dense} {s : Spec} {r : Nat} {v : Bytes} (h : d.set s r v = Res.ok d') : SameGroups d d' := by
  unfold Dense.set at h
  split at h
  · cases h
  · split at h
    · cases h
    · rename_i id _ g hg
      rw [Res.map_eq_ok] at h
      obtain ⟨g', h1, rfl⟩ := h
      refine ⟨rfl, ?_⟩
      have ha : g'.attrs = g.attrs := (Group.set_frame h1).2.1
      simp only
      rw [List.map_set, ha]
      refine List.ext_getElem? fun i => ?_
      rw [List.getElem?_set]
      split
      · rename_i e
        subst e
        rw [List.getElem?_map, hg]
        simp [(List.getElem?_eq_some_iff.1 hg).1]
      · rfl

theorem SameGroups.trans {d d' d'' : Dense} (h1 : SameGroups d d') (h2 : SameGroups d' d'') : SameGroups d d'' :=
  ⟨h2.1.trans h1.1, h2.2.trans h1.2⟩

theorem sameGroups_record {co : CsvOps} {row : Nat} {vs : List String} :
    ∀ {d d' : Dense} {env env' : ValEnv} {specs : List Spec}, csvRecord co row d env specs vs = Res.ok (d', env') → SameGroups d d' := by
  induction vs with
  | nil =>
    intro d d' env env' specs h
    simp only [csvRecord, Res.ok.injEq, Prod.mk.injEq] at h
    rw [h.1]
    exact ⟨rfl, rfl⟩
  | cons v vs ih =>
    intro d d' env env' specs h
    unfold csvRecord at h
    split at h
    · exact ih h
    · split at h
      · cases h
      · simp only [Res.bind_eq_ok] at h
        obtain ⟨q, _, d1, h2, h3⟩ := h
        exact (sameGroups_set h2).trans (ih h3)

theorem sameGroups_build {co : CsvOps} {srt : List Spec → List Spec} {d d' : Dense} {env env' : ValEnv} {attrs : List Attr} {hh : Bool}
    {recs : List (List String)} (h : csvBuild co srt d env attrs hh recs = Res.ok (d', env')) : SameGroups d d' := by
  have key : ∀ (specs : List Spec) (recs : List (List String)) (row : Nat) (d d' : Dense) (env env' : ValEnv),
      csvRecords co specs row d env recs = Res.ok (d', env') → SameGroups d d' := by
    intro specs recs
    induction recs with
    | nil =>
      intro row d d' env env' h
      simp only [csvRecords, Res.ok.injEq, Prod.mk.injEq] at h
      rw [h.1]
      exact ⟨rfl, rfl⟩
    | cons r rs ih =>
      intro row d d' env env' h
      simp only [csvRecords, Res.bind_eq_ok] at h
      obtain ⟨q, h1, h2⟩ := h
      exact (sameGroups_record h1).trans (ih _ _ _ _ _ h2)
  unfold csvBuild at h
  split at h
  · exact key _ _ _ _ _ _ _ h
  · cases h

theorem compatible_isBin {a b : Attr} (h : a.compatible b = true) : a.isBin = b.isBin := by
  obtain ⟨p, x⟩ := a
  obtain ⟨q, y⟩ := b
  cases x <;> cases y <;> simp_all [Attr.compatible, Attr.isBin]

/-- `ParseCSVToInstancesWithAttributeGroups`: the columns are those of the file or the ones given for them, each in the group asked for; the class columns are
those with a class group; every field is in its column. With a header line there is one row of zeros after the lines.

Missing: groups with the names that `AddAttribute` uses (`C109_auto_name_fails`); the row too many (`C109_extra_row`); an order-changing sort. -/
theorem C109_groups_partial (pg : Nat) (co : CsvOps) (srt : List Spec → List Spec) (fresh : Nat → Nat) (groups clsGroups : GoMap String String)
    (over : Nat → Option Attr) (sizes : List (String × Nat)) (header : Option (List String)) (rows : List (List String)) (m : Nat)
    (R : CsvReadable co header rows m)
    (hk1 : (groups.map Prod.fst).Nodup) (hk2 : (clsGroups.map Prod.fst).Nodup)
    (hsizes : sizes.Perm (groupSizes groups clsGroups (csvColumns co fresh header rows m over)))
    (hauto : ∀ n, n ∈ groups.map Prod.snd ∨ n ∈ clsGroups.map Prod.snd → ¬ AutoName n)
    (hnames : ((csvColumns co fresh header rows m over).map Attr.name).Nodup)
    (hptrs : ((csvColumns co fresh header rows m over).map Attr.ptr).Nodup)
    (hcompat : ∀ a ∈ csvColumns co fresh header rows m over, ∀ b ∈ csvColumns co fresh header rows m over, ∀ n,
      askedGroup groups clsGroups a = some n → askedGroup groups clsGroups b = some n → a.compatible b = true)
    (hparse : ∀ (i j : Nat) (a : Attr) (v : String), (csvColumns co fresh header rows m over)[j]? = some a → a.isCat = false →
      field rows i j = some v → v ≠ "" → (co.parse (co.trim v)).isSome = true)
    (hbig : ∀ a ∈ csvColumns co fresh header rows m over, ∀ n vs, a.body = .cat n vs → vs.length + rows.length * m < 2 ^ 64)
    (hsrt : ∀ l : List Spec, l.length = m → srt l = l) :
    ∃ d env, parseCSVWithGroups pg co srt fresh (combinedGroups groups clsGroups) clsGroups over sizes header.isSome (csvInput header rows) = Res.ok (d, env) ∧
      GroupParsed co groups clsGroups (csvColumns co fresh header rows m over) rows (if header.isSome then 1 else 0) d env := by
  obtain ⟨cols0, hcount, hattrs, hcols⟩ := R.columns fresh over
  obtain ⟨_, _, _, _, htail, _⟩ := R.seen fresh
  set cols := csvColumns co fresh header rows m over with hcolsdef
  have hcl : cols.length = m := by rw [hcolsdef, csvColumns]; simp
  have hdist := names_distinct (l := cols) hnames
  obtain ⟨z1, z2, z3⟩ := groupSizes_spec (groups := groups) (clsGroups := clsGroups) hk1 hk2 cols
  have hsn : (sizes.map Prod.fst).Nodup := (hsizes.map Prod.fst).symm.nodup z1
  have hsm : ∀ n, n ∈ sizes.map Prod.fst ↔ n ∈ groups.map Prod.snd ∨ n ∈ clsGroups.map Prod.snd := by
    intro n
    rw [(hsizes.map Prod.fst).mem_iff]
    exact z2 n
  -- groups
  obtain ⟨st0, r0, e0, p0, k0⟩ := createAll_run pg (askedGroup groups clsGroups) sizes hsn [] (by simpa using hsn) [] St.init rfl
    ⟨GroupNamed.new, by simp, by simp, rfl, rfl, by simp [St.init]⟩ rfl
  rw [List.nil_append] at r0 p0
  -- attributes
  obtain ⟨ops, st, names, n1, n2, n3, n4, n5⟩ := addGrouped_run pg (combinedGroups groups clsGroups) clsGroups (askedGroup groups clsGroups)
    (combinedGroups_get hk1 hk2) sizes (by
      intro p hp
      exact hauto p.1 ((hsm p.1).1 (List.mem_map_of_mem hp))) cols [] (by simpa using hdist) (by
      intro a ha n hn
      have := z3 a ha n hn fun b hb hbn => compatible_isBin (hcompat b hb a ha n hbn hn)
      exact hsizes.symm.subset (get?_mem this)) (by simpa using hcompat) _ (by
      intro k hk
      obtain ⟨_, _, h⟩ := List.mem_map.1 hk
      cases h) st0 r0 _ p0 (by
      intro a
      simp [Dense.allClassAttributes, k0])
  rw [List.nil_append] at n4 n5
  obtain ⟨D0, P0, Z0⟩ := extend_fresh pg ops n1 st n2 n4.stored (by rw [n4.handles]; exact hdist) (csvInput header rows).length
  rw [n4.handles] at P0 Z0
  have hlen : (csvInput header rows).length = rows.length + if header.isSome then 1 else 0 := by
    cases header <;> simp [csvInput]
  -- cells
  obtain ⟨d1, env, e1, D1, A1, C1, G1, V1, S1, U1⟩ := csvBuild_spec co srt D0 (envOf cols) cols (fun a ha => P0.symm.subset ha) (distinct_nodup hdist) rows
    (by rw [hlen]; omega) (by rw [hcl]; exact R.wide) (by
      intro i j a v hj hf
      by_cases hv : v = ""
      · exact Or.inl hv
      by_cases hc : a.isCat = true
      · exact Or.inr (Or.inl hc)
      · exact Or.inr (Or.inr (hparse i j a v hj (by simpa using hc) hf hv))) (by rw [hcl]; exact hsrt) header.isSome (csvInput header rows) htail
  have hA1 : d1.allAttributes.Perm cols := by rw [A1]; exact P0
  refine ⟨d1, env, ?_, ?_⟩
  · unfold parseCSVWithGroups
    rw [hcount, Res.bind_ok, hattrs, Res.bind_ok]
    simp only [hcols]
    have e0' : createAll Dense.new sizes = Res.ok st0.d := e0
    rw [e0', Res.bind_ok, n3, Res.bind_ok]
    exact e1
  · refine ⟨?_, hA1, ?_, ?_, ?_, ?_, ?_, ?_⟩
    · have h1 : d1.maxRow = (csvInput header rows).length := D1.presents.rows
      show (d1.allAttributes.length, d1.maxRow) = _
      rw [hA1.length_eq, h1, hlen]
    · intro a
      rw [← n5 a]
      simp only [Dense.allClassAttributes, C1]
      rfl
    · intro n hn
      obtain ⟨p, hp, rfl⟩ := List.mem_map.1 ((hsm n).2 hn)
      obtain ⟨i, hi⟩ := List.getElem?_of_mem hp
      obtain ⟨u1, u2⟩ := n4.user i p hi
      obtain ⟨s1, s2⟩ := sameGroups_build e1
      have hget : st.d.agMap.get? p.1 = some i := by
        rw [n4.named.2.2.1]
        have := get?_zipIdx names n4.named.1 0 i p.1 u1
        simpa using this
      have hat : (d1.ags.map Group.attrs)[i]? = some (cols.filter fun a => askedGroup groups clsGroups a == some p.1) := by
        rw [s2]
        simp only [Dense.extend, List.map_map, List.getElem?_map, u2, Option.map_some, Function.comp, Group.resize]
      rw [List.getElem?_map, Option.map_eq_some_iff] at hat
      obtain ⟨g, hg1, hg2⟩ := hat
      exact ⟨i, g, by rw [s1]; exact hget, hg1, hg2⟩
    · intro a ha n vs hb
      have := G1.pre a.ptr
      rwa [envOf_cat hptrs ha hb] at this
    · intro j a hj n vs hb x hx
      have ha := List.mem_of_getElem? hj
      rcases V1 _ x hx with h | ⟨i, j', b, v, h1, h2, h3, h4, h5⟩
      · rw [envOf_cat hptrs ha hb] at h
        exact Or.inl h
      · right
        have : j' = j := by
          refine (List.getElem?_inj ?_ hptrs).1 ?_
          · rw [List.length_map]; exact (List.getElem?_eq_some_iff.1 h1).1
          · rw [List.getElem?_map, List.getElem?_map, h1, hj, Option.map_some, Option.map_some, h3]
        subst this
        exact ⟨i, v, h2, h4, h5⟩
    · intro i j a v hj hf
      have ha := List.mem_of_getElem? hj
      have hi : i < rows.length := by
        unfold field at hf
        rw [Option.bind_eq_some_iff] at hf
        obtain ⟨r, h1, _⟩ := hf
        exact (List.getElem?_eq_some_iff.1 h1).1
      have hst := S1 i j a v hj hf
      obtain ⟨s, g1, g2, g3⟩ := D1.presents.read a (hA1.symm.subset ha)
      refine ⟨s, _, g1, g3 i (by rw [hlen]; omega), ?_, ?_⟩
      · intro hv
        rw [if_pos hv] at hst
        rw [hst]
        exact Z0 a ha i (by rw [hlen]; omega)
      · intro hv
        rw [if_neg hv] at hst
        have hb' := hbig a ha
        have he := fun n vs => envOf_cat hptrs ha (n := n) (vs := vs)
        unfold Stored at hst
        unfold Says
        obtain ⟨p, body⟩ := a
        cases body with
        | float n k => exact hst
        | bin n => exact hst
        | cat n vs =>
          obtain ⟨k, hk1, hk2⟩ := hst
          have hk3 : k < (env p).length := (List.getElem?_eq_some_iff.1 hk1).1
          have h4 := G1.len p
          have h5 : envOf cols p = vs := he n vs rfl
          rw [hcl, h5] at h4
          have h6 := hb' n vs rfl
          rw [hk2, catGetString, C01_unpack_pack, Res.bind_ok]
          have hmod : (BitVec.ofNat 64 k).toNat = k := by
            rw [BitVec.toNat_ofNat]; exact Nat.mod_eq_of_lt (by omega)
          simp only [hmod]
          simp only at hk1
          rw [hk1]
    · intro a ha i h1 h2
      obtain ⟨s, g1, g2, g3⟩ := D1.presents.read a (hA1.symm.subset ha)
      refine ⟨s, g1, ?_⟩
      have := g3 i (by rw [hlen]; exact h2)
      rwa [U1 a (P0.symm.subset ha) i (by rw [hlen]; exact h2) (Or.inl h1), Z0 a ha i (by rw [hlen]; exact h2)] at this

/-- The claim: whatever the names of the groups, a readable file is read into a grid with one row for every line. -/
def GroupsClaim : Prop :=
  ∀ (pg : Nat) (co : CsvOps) (srt : List Spec → List Spec) (fresh : Nat → Nat) (groups clsGroups : GoMap String String) (over : Nat → Option Attr)
    (sizes : List (String × Nat)) (header : Option (List String)) (rows : List (List String)) (m : Nat), CsvReadable co header rows m →
    (groups.map Prod.fst).Nodup → (clsGroups.map Prod.fst).Nodup → sizes.Perm (groupSizes groups clsGroups (csvColumns co fresh header rows m over)) →
    (∀ l : List Spec, l.length = m → srt l = l) → ∀ d env,
    parseCSVWithGroups pg co srt fresh (combinedGroups groups clsGroups) clsGroups over sizes header.isSome (csvInput header rows) = Res.ok (d, env) →
      GroupParsed co groups clsGroups (csvColumns co fresh header rows m over) rows 0 d env

namespace C109Ex

/-- The first column is binary. -/
def over1 : Nat → Option Attr := fun j => if j = 0 then some ⟨5, .bin "b"⟩ else none
def hdr1 : Option (List String) := some ["b", "x", "class"]
def rows2 : List (List String) := [["1", "1", "yes"], ["2", "2", "no"]]
def clsG : GoMap String String := [("class", "C")]
def fresh1 : Nat → Nat := (· + 10)
def parse1 (groups : GoMap String String) : Res (Dense × ValEnv) :=
  parseCSVWithGroups 4096 C108Ex.co1 id fresh1 (combinedGroups groups clsG) clsG over1
    (groupSizes groups clsG (csvColumns C108Ex.co1 fresh1 hdr1 rows2 3 over1)) true (csvInput hdr1 rows2)
def table (d : Dense) : Res (List (List Bytes)) :=
  mapRes (fun a => mapRes (fun r => (d.getAttribute a).bind fun s => d.get s r) [0, 1]) (csvColumns C108Ex.co1 fresh1 hdr1 rows2 3 over1)

end C109Ex

open C108Ex C109Ex

theorem C109Ex_readable : CsvReadable co1 hdr1 rows2 3 := by
  refine ⟨by decide, by decide, ?_⟩
  intro h e
  simp only [hdr1, Option.some.injEq] at e
  subst e
  decide

/-- The hypotheses of `C109_groups_partial` are met by a file with a binary column in a group of its own, a column of numbers and a class. -/
example : CsvReadable co1 hdr1 rows2 3 ∧ csvColumns co1 fresh1 hdr1 rows2 3 over1 = [⟨5, .bin "b"⟩, ⟨11, .float "x" 2⟩, ⟨12, .cat "class" []⟩] ∧
    (groupSizes [("b", "bits")] clsG (csvColumns co1 fresh1 hdr1 rows2 3 over1) : List (String × Nat)) = [("bits", 0), ("C", 8)] ∧
    (∀ a ∈ csvColumns co1 fresh1 hdr1 rows2 3 over1, ∀ b ∈ csvColumns co1 fresh1 hdr1 rows2 3 over1,
      (askedGroup [("b", "bits")] clsG a).isSome = true → askedGroup [("b", "bits")] clsG a = askedGroup [("b", "bits")] clsG b → a.compatible b = true) :=
  ⟨C109Ex_readable, by decide +kernel, by decide +kernel, by decide +kernel⟩

example : ¬ AutoName "bits" ∧ ¬ AutoName "C" := by
  constructor <;>
  · rintro ⟨k, h | h | h⟩ <;>
      · have := congrArg (fun s => s.toList.take 2) h
        simp [String.toList_append] at this

/-- With a group called "bits" the numbers of the column "x" are stored, with a row too many; the class column is in its group. -/
theorem C109_extra_row : ((parse1 [("b", "bits")]).bind fun q => (table q.1).map fun c => (q.1.size, q.1.allClassAttributes.map Attr.name, c)) =
    Res.ok ((3, 3), ["class"], [[[1#8], [1#8]], [packU64 0x3FF0000000000000#64, packU64 0x4000000000000000#64], [packU64 0#64, packU64 1#64]]) := by
  decide +kernel

/-- With a group called "FLOAT0" for the binary column, the column of numbers is put into that group too: its numbers are stored as one bit each. -/
theorem C109_auto_name_fails : ((parse1 [("b", "FLOAT0")]).bind fun q => (table q.1).map fun c => (q.1.allClassAttributes.map Attr.name, c)) =
    Res.ok (["class"], [[[1#8], [1#8]], [[0#8], [0#8]], [packU64 0#64, packU64 1#64]]) := by decide +kernel

theorem C109_refuted : ¬ GroupsClaim := by
  intro H
  have key : ((parse1 [("b", "bits")]).map fun q => q.1.size) = Res.ok (3, 3) := by decide +kernel
  rw [Res.map_eq_ok] at key
  obtain ⟨⟨d, env⟩, h1, h2⟩ := key
  have := (H 4096 co1 id fresh1 [("b", "bits")] clsG over1 _ hdr1 rows2 3 C109Ex_readable (by decide) (by decide) (List.Perm.refl _) (fun _ _ => rfl)
    d env h1).size
  simp only at h2
  rw [h2] at this
  exact absurd this (by decide)

end Golearn
