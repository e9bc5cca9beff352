import Verif.Spec.Frame
import Verif.Proofs.CsvBuild
import Verif.Proofs.Arff

/-! # Lemmas about data frames -/

namespace Golearn

/-- The library of a CSV reader that strips the first character of every field. -/
def frameCsv (fo : FrameOps) : CsvOps := ⟨fun s => String.ofList (s.toList.drop 1), fun _ => false, fo.parse, 0⟩

/-- A text with a character in front. -/
def marked (s : String) : String := String.ofList ('=' :: s.toList)

theorem trim_marked (fo : FrameOps) (s : String) : (frameCsv fo).trim (marked s) = s := by
  simp [frameCsv, marked]

theorem marked_ne (s : String) : marked s ≠ "" := by
  intro h
  have := congrArg String.toList h
  simp [marked] at this

/-- The fields of a row. -/
def frameFields (fo : FrameOps) (cols : List (List FVal)) (row : Nat) : List String :=
  cols.map fun c => marked (frameText fo (c.getD row .nil))

theorem frameSysVal_ok {fo : FrameOps} {env : ValEnv} {a : Attr} {v : String} {q : Bytes × ValEnv} :
    frameSysVal fo env a v = Res.ok q ↔ sysValFromString (frameCsv fo) env a v = Res.ok q := by
  have : sysValFromString ⟨id, fun _ => false, fo.parse, 0⟩ env a v = sysValFromString (frameCsv fo) env a v := rfl
  unfold frameSysVal
  rw [this]
  cases sysValFromString (frameCsv fo) env a v <;> simp [Res.orPanic]

theorem frameRow_csv (fo : FrameOps) (row : Nat) (cols : List (List FVal)) :
    ∀ (d : Dense) (env : ValEnv) (specs : List Spec) (q : Dense × ValEnv), (∀ c ∈ cols, row < c.length) →
      csvRecord (frameCsv fo) row d env specs (frameFields fo cols row) = Res.ok q → frameRow fo row d env specs cols = Res.ok q := by
  induction cols with
  | nil =>
    intro d env specs q _ h
    cases specs <;> exact h
  | cons c cs ih =>
    intro d env specs q hl h
    rw [frameFields, List.map_cons] at h
    cases specs with
    | nil => rw [csvRecord, if_neg (marked_ne _)] at h; cases h
    | cons s ss =>
      rw [csvRecord, if_neg (marked_ne _)] at h
      simp only [Res.bind_eq_ok] at h
      obtain ⟨p, h1, d', h2, h3⟩ := h
      have hc := hl c (by simp)
      rw [frameRow, colValue, List.getElem?_eq_getElem hc]
      rw [trim_marked, List.getD_eq_getElem _ _ hc] at h1
      simp only [Res.bind_ok]
      rw [frameSysVal_ok.2 h1, Res.bind_ok, h2, Res.bind_ok]
      exact ih _ _ _ _ (fun c hc => hl c (by simp [hc])) h3

theorem frameRows_csv (fo : FrameOps) (specs : List Spec) (cols : List (List FVal)) (n : Nat) (hl : ∀ c ∈ cols, c.length = n) (k : Nat) :
    ∀ (d : Dense) (env : ValEnv) (row : Nat) (q : Dense × ValEnv), row + k ≤ n →
      csvRecords (frameCsv fo) specs row d env ((List.range' row k).map (frameFields fo cols)) = Res.ok q →
      frameRows fo specs cols d env (List.range' row k) = Res.ok q := by
  induction k with
  | zero => intro d env row q _ h; exact h
  | succ k ih =>
    intro d env row q hn h
    rw [List.range'_succ, List.map_cons, csvRecords, Res.bind_eq_ok] at h
    obtain ⟨p, h1, h2⟩ := h
    rw [List.range'_succ, frameRows, frameRow_csv fo row cols _ _ _ _ (fun c hc => by rw [hl c hc]; omega) h1, Res.bind_ok]
    exact ih _ _ _ _ (by omega) h2

theorem addSpecs_run (pg : Nat) (as : List Attr) (ops : List Op) (st : St)
    (hb : ∀ op ∈ ops, basicOp op = true) (hrun : run pg ops = Res.ok st) (hne : ∀ n, Op.extend n ∉ ops) :
    ∃ st' specs, addSpecs pg st.d as = Res.ok (st'.d, specs) ∧ addAll pg st.d as = Res.ok st'.d ∧ st'.handles = st.handles ++ specs ∧
      specs.map Spec.attr = as ∧ run pg (ops ++ as.map Op.add) = Res.ok st' := by
  induction as generalizing ops st with
  | nil => exact ⟨st, [], rfl, rfl, by simp, rfl, by simpa using hrun⟩
  | cons a as ih =>
    obtain ⟨I, _, hf⟩ := run_inv pg ops st (basic_noLate hb) hrun
    have hfix : st.d.fixed = false := by
      rw [← Bool.not_eq_true, hf]
      rintro ⟨n, hn⟩
      exact hne n hn
    obtain ⟨p, hp⟩ := addAttribute_total (pg := pg) I hfix a
    have hstep : run pg (ops ++ [Op.add a]) = Res.ok ⟨p.1, st.handles ++ [p.2]⟩ := by
      rw [run_snoc, hrun, Res.bind_ok, step, hp, Res.map_ok]
    have hb' : ∀ op ∈ ops ++ [Op.add a], basicOp op = true := by
      intro op hop
      rw [List.mem_append, List.mem_singleton] at hop
      rcases hop with h | rfl
      · exact hb op h
      · rfl
    obtain ⟨st', specs, h1, h2, h3, h4, h5⟩ := ih (ops ++ [Op.add a]) ⟨p.1, st.handles ++ [p.2]⟩ hb' hstep (by
      intro n hn
      rw [List.mem_append, List.mem_singleton] at hn
      rcases hn with h | h
      · exact hne n h
      · cases h)
    refine ⟨st', p.2 :: specs, ?_, ?_, ?_, ?_, ?_⟩
    · rw [addSpecs, hp, Res.bind_ok, h1, Res.map_ok]
    · rw [addAll, hp, Res.bind_ok, h2]
    · rw [h3, List.append_assoc]; rfl
    · rw [List.map_cons, h4]
      congr 1
      have e1 := (run_basic pg _ _ hb' hstep).2
      have e2 := (run_basic pg _ _ hb hrun).2
      simpa [addedAttrs, e2] using e1
    · simpa using h5

theorem frameAttrs_spec (fresh : Nat → Nat) (cols : List (String × List FVal)) : ∀ i, (∀ c ∈ cols, ∃ v, c.2[0]? = some v ∧ v ≠ .nil) →
    ∃ as, frameAttrs fresh i cols = Res.ok as ∧ as.map Attr.name = cols.map Prod.fst ∧
      ∀ (j : Nat) a, as[j]? = some a → a.ptr = fresh (i + j) ∧ a.isBin = false ∧
        ∃ c, cols[j]? = some c ∧ (a.isCat = true ↔ ∃ s, c.2[0]? = some (.str s)) := by
  induction cols with
  | nil => intro i _; exact ⟨[], rfl, rfl, by simp⟩
  | cons c cs ih =>
    intro i h
    obtain ⟨as, h1, h2, h3⟩ := ih (i + 1) fun c hc => h c (by simp [hc])
    obtain ⟨v, hv, hv'⟩ := h c (by simp)
    have key : ∃ a, frameAttr (fresh i) c.1 c.2 = Res.ok a ∧ a.name = c.1 ∧ a.ptr = fresh i ∧ a.isBin = false ∧
        (a.isCat = true ↔ ∃ s, c.2[0]? = some (.str s)) := by
      unfold frameAttr colValue
      rw [hv]
      cases v with
      | nil => exact absurd rfl hv'
      | str s => exact ⟨_, rfl, rfl, rfl, rfl, by simp [Attr.isCat]⟩
      | _ => exact ⟨_, rfl, rfl, rfl, rfl, by simp [Attr.isCat]⟩
    obtain ⟨a, k1, k2, k3, k4, k5⟩ := key
    refine ⟨a :: as, ?_, by simp [k2, h2], ?_⟩
    · rw [frameAttrs, k1, Res.bind_ok, h1, Res.map_ok]
    · intro j b hb
      cases j with
      | zero =>
        simp only [List.getElem?_cons_zero, Option.some.injEq] at hb
        subst hb
        exact ⟨k3, k4, c, rfl, k5⟩
      | succ j =>
        simp only [List.getElem?_cons_succ] at hb
        obtain ⟨g1, g2, g3⟩ := h3 j b hb
        exact ⟨by rw [g1]; congr 1; omega, g2, by simpa using g3⟩

theorem frame_field {fo : FrameOps} {f : Frame} (h : f.Good) (i j : Nat) (v : String) :
    field ((List.range f.rows).map (frameFields fo (f.cols.map Prod.snd))) i j = some v ↔
      ∃ x, f.val i j = some x ∧ v = marked (frameText fo x) := by
  unfold field Frame.val frameFields
  by_cases hi : i < f.rows
  · rw [List.getElem?_map, List.getElem?_range hi]
    simp only [Option.map_some, Option.bind_some, List.map_map, List.getElem?_map]
    cases hc : f.cols[j]? with
    | none => simp
    | some c =>
      have hl := h.2 c (List.mem_of_getElem? hc)
      simp only [Option.map_some, Function.comp, Option.some.injEq, Option.bind_some]
      rw [List.getElem?_eq_getElem (by omega), List.getD_eq_getElem _ _ (by omega)]
      simp [eq_comm]
  · rw [List.getElem?_eq_none (by simpa using hi)]
    simp only [Option.bind_none, reduceCtorEq, false_iff, not_exists]
    rintro x ⟨h1, _⟩
    rw [Option.bind_eq_some_iff] at h1
    obtain ⟨c, hc, h1⟩ := h1
    have hl := h.2 c (List.mem_of_getElem? hc)
    rw [List.getElem?_eq_none (by omega)] at h1
    cases h1

theorem isText_iff (f : Frame) (j : Nat) : f.isText j = true ↔ ∃ s, f.val 0 j = some (.str s) := by
  unfold Frame.isText
  split
  · rename_i s e; simp [e]
  · rename_i e
    constructor
    · intro h; cases h
    · rintro ⟨s, hs⟩; exact absurd hs (e s)

/-- The whole conversion, up to the values written. -/
theorem convertFrame_spec (pg : Nat) (fo : FrameOps) (fresh : Nat → Nat) (f : Frame) (cls : Int) (hg : f.Good) (hc : f.Convertible fo cls)
    (hbig : f.rows * f.cols.length < 2 ^ 64) (hfresh : ∀ i j, fresh i = fresh j → i = j) :
    ∃ d env as, convertFrame pg fo fresh f cls = Res.ok (d, env) ∧ Framed fo f cls d env as := by
  obtain ⟨as, a1, a2, a3⟩ := frameAttrs_spec fresh f.cols 0 (by
    intro c hcm
    have hl := hg.2 c hcm
    obtain ⟨j, hj⟩ := List.mem_iff_getElem?.1 hcm
    refine ⟨c.2[0]'(by have := hc.rows; omega), List.getElem?_eq_getElem _, ?_⟩
    intro e
    apply hc.first j
    unfold Frame.val
    rw [hj, Option.bind_some, List.getElem?_eq_getElem (by have := hc.rows; omega), e])
  have hkind : ∀ (j : Nat) a, as[j]? = some a → a.isCat = f.isText j := by
    intro j a hj
    obtain ⟨_, _, c, hcj, he⟩ := a3 j a hj
    rw [Bool.eq_iff_iff, he, isText_iff]
    unfold Frame.val
    rw [hcj, Option.bind_some]
  have hlen : as.length = f.cols.length := by
    have := congrArg List.length a2
    simpa using this
  have hdist := names_distinct (l := as) (by rw [a2]; exact hg.1)
  have hnd := distinct_nodup hdist
  have hnb : ∀ a ∈ as, a.isBin = false := by
    intro a ha
    obtain ⟨j, hj⟩ := List.mem_iff_getElem?.1 ha
    exact (a3 j a hj).2.1
  obtain ⟨d0, e0, D0, P0, K0, Z0⟩ := fresh_build pg as f.rows hdist
  obtain ⟨st, specs, s1, s2, s3, s4, s5⟩ := addSpecs_run pg as [] St.init (by simp) rfl (by simp)
  have hst : st.d = d0 := by
    have := s2.symm.trans e0
    simpa using this
  have s3' : st.handles = specs := by rw [s3]; rfl
  -- the specifications are those that lookups give
  have hbas : ∀ op ∈ ([] : List Op) ++ as.map Op.add, basicOp op = true := by
    intro op hop
    simp only [List.nil_append, List.mem_map] at hop
    obtain ⟨a, _, rfl⟩ := hop; rfl
  obtain ⟨I, _, _⟩ := run_inv pg _ st (basic_noLate hbas) s5
  have hd0 : (Grid.dense st.d).distinct := by
    have : (Grid.dense (d0.extend f.rows)).distinct := D0.1
    rw [hst]
    have e : (d0.extend f.rows).allAttributes = d0.allAttributes := by
      simp [Dense.allAttributes, Dense.extend, Group.resize, List.flatMap_map]
    unfold Grid.distinct at this ⊢
    simp only [Grid.allAttributes] at this ⊢
    rwa [e] at this
  have hspec : ∀ s ∈ specs, s.attr ∈ (d0.extend f.rows).allAttributes ∧ (d0.extend f.rows).getAttribute s.attr = Res.ok s := by
    intro s hs
    have := dense_handle_attr I hd0 (s3' ▸ hs)
    refine ⟨P0.symm.subset (by rw [← s4]; exact List.mem_map_of_mem hs), ?_⟩
    rw [extend_getAttribute, ← hst]
    exact this.2
  -- the class attribute
  obtain ⟨cl, hcl⟩ : ∃ cl, as[cls.toNat]? = some cl := by
    have := hc.cls
    exact ⟨as[cls.toNat]'(by omega), List.getElem?_eq_getElem _⟩
  have hclm := List.mem_of_getElem? hcl
  obtain ⟨sl, hl1, hl2, _⟩ := D0.presents.read cl (P0.symm.subset hclm)
  have hl1' : d0.getAttribute cl = Res.ok sl := by rw [← extend_getAttribute d0 f.rows]; exact hl1
  have hadd : d0.addClassAttribute cl = Res.ok { d0 with classAttrs := d0.classAttrs.set sl true } := by
    rw [Dense.addClassAttribute, hl1', Res.map_ok]
  obtain ⟨d1, hd1⟩ : ∃ d1 : Dense, d1 = Dense.extend { d0 with classAttrs := d0.classAttrs.set sl true } f.rows := ⟨_, rfl⟩
  have hd1' : d1 = { d0.extend f.rows with classAttrs := d0.classAttrs.set sl true } := hd1
  have D1 : DenseOK f.rows d1 := by rw [hd1']; exact D0.withClass _
  have A1 : d1.allAttributes = (d0.extend f.rows).allAttributes := by rw [hd1']; rfl
  have L1 : ∀ a, d1.getAttribute a = (d0.extend f.rows).getAttribute a := by intro a; rw [hd1']; rfl
  have K1 : d1.allClassAttributes = [cl] := by
    have : d0.classAttrs = [] := K0
    simp [Dense.allClassAttributes, hd1', this, GoMap.set, hl2]
  have hsl : specs.length = f.cols.length := by rw [← hlen, ← s4, List.length_map]
  have hzip : ∀ (i : Nat) (q : Spec × String), i < f.rows → q ∈ specs.zip (frameFields fo (f.cols.map Prod.snd) i) →
      ∃ (j : Nat) (v : FVal), as[j]? = some q.1.attr ∧ f.val i j = some v ∧ q.2 = marked (frameText fo v) := by
    intro i q hi hq
    obtain ⟨j, hj⟩ := List.mem_iff_getElem?.1 hq
    rw [List.getElem?_zip_eq_some] at hj
    have : field ((List.range f.rows).map (frameFields fo (f.cols.map Prod.snd))) i j = some q.2 := by
      unfold field
      rw [List.getElem?_map, List.getElem?_range hi]
      exact hj.2
    obtain ⟨v, hv1, hv2⟩ := (frame_field hg i j _).1 this
    exact ⟨j, v, by rw [← s4, List.getElem?_map, hj.1]; rfl, hv1, hv2⟩
  obtain ⟨d2, env, e2, D2, A2, C2, L2, G2, V2, S2, U2⟩ := csvRecords_spec (frameCsv fo) (rows := f.rows) specs (by rw [s4]; exact hnd)
    ((List.range f.rows).map (frameFields fo (f.cols.map Prod.snd))) 0 d1 (fun _ => []) (by simp) D1
    (fun s hs => by rw [A1, L1]; exact hspec s hs) (by
      intro r hr
      obtain ⟨i, hi, rfl⟩ := List.mem_map.1 hr
      refine ⟨by simp [frameFields, hsl], ?_⟩
      intro p hp
      obtain ⟨j, v, h1, h2, h3⟩ := hzip i p (by simpa using hi) hp
      unfold Storable
      rw [h3, trim_marked]
      by_cases ht : f.isText j = true
      · right; left; rw [hkind j _ h1]; exact ht
      · right; right; exact hc.numbers i j v h2 (by simpa using ht))
  have hrows := frameRows_csv fo specs (f.cols.map Prod.snd) f.rows (by
    intro c hcm
    obtain ⟨x, hx, rfl⟩ := List.mem_map.1 hcm
    exact hg.2 x hx) f.rows d1 (fun _ => []) 0 (d2, env) (by omega) (by rw [← List.range_eq_range']; exact e2)
  rw [← List.range_eq_range'] at hrows
  refine ⟨d2, env, as, ?_, ?_⟩
  · unfold convertFrame
    have s1' : addSpecs pg Dense.new as = Res.ok (d0, specs) := by rw [← hst]; exact s1
    have hat : attrAt as cls = Res.ok cl := by
      unfold attrAt
      rw [if_neg (by have := hc.cls; omega), hcl]
    rw [a1, Res.bind_ok, s1', Res.bind_ok, hat, Res.bind_ok]
    simp only [hadd, Res.bind_ok]
    rw [← hd1]
    exact hrows
  have hA2 : d2.allAttributes.Perm as := by rw [A2, A1]; exact P0
  have hstored : ∀ (i j : Nat) a v, as[j]? = some a → f.val i j = some v → i < f.rows ∧
      Stored (frameCsv fo) env a (marked (frameText fo v)) ((Grid.dense d2).cell a i) := by
    intro i j a v hj hv
    have hf := (frame_field (fo := fo) hg i j _).2 ⟨v, hv, rfl⟩
    have hi : i < f.rows := by
      by_contra hh
      unfold field at hf
      rw [List.getElem?_eq_none (by simpa using hh)] at hf
      cases hf
    refine ⟨hi, ?_⟩
    rw [← s4, List.getElem?_map, Option.map_eq_some_iff] at hj
    obtain ⟨s, hs1, hs2⟩ := hj
    have := S2 i (by simpa using hi) (s, marked (frameText fo v)) (by
      rw [List.mem_iff_getElem?]
      refine ⟨j, List.getElem?_zip_eq_some.2 ⟨hs1, ?_⟩⟩
      unfold field at hf
      rw [List.getElem?_map, List.getElem?_range hi] at hf
      simpa using hf)
    rw [if_neg (marked_ne _), Nat.zero_add, hs2] at this
    exact this
  have hlen2 : ∀ p, (env p).length < 2 ^ 64 := by
    intro p
    have := G2.len p
    rw [hsl] at this
    simp at this
    omega
  refine ⟨?_, hA2, a2, fun j a hj => ⟨(a3 j a hj).2.1, hkind j a hj⟩, ?_, ?_, ?_⟩
  · have h1 := D2.presents.rows
    have h2 := hA2.length_eq
    have h1' : d2.maxRow = f.rows := h1
    show (d2.allAttributes.length, d2.maxRow) = _
    rw [h2, h1', hlen]
  · intro a
    have : d2.allClassAttributes = [cl] := by
      rw [← K1]
      unfold Dense.allClassAttributes
      rw [C2]
    rw [this, hcl, List.mem_singleton, Option.some.injEq, eq_comm]
  · intro i j a v hj hv
    obtain ⟨hi, hst⟩ := hstored i j a v hj hv
    obtain ⟨s, g1, g2, g3⟩ := D2.presents.read a (hA2.symm.subset (List.mem_of_getElem? hj))
    refine ⟨s, _, g1, g3 i hi, ?_, ?_⟩
    · intro hcat
      have hb := (a3 j a hj).2.1
      unfold Stored at hst
      rw [trim_marked] at hst
      obtain ⟨p, body⟩ := a
      cases body with
      | float n k => exact hst
      | cat n vs => simp [Attr.isCat] at hcat
      | bin n => simp [Attr.isBin] at hb
    · intro hcat
      unfold Stored at hst
      rw [trim_marked] at hst
      obtain ⟨p, body⟩ := a
      cases body with
      | float n k => simp [Attr.isCat] at hcat
      | bin n => simp [Attr.isCat] at hcat
      | cat n vs =>
        obtain ⟨k, hk1, hk2⟩ := hst
        have hk3 : k < (env p).length := (List.getElem?_eq_some_iff.1 hk1).1
        have := hlen2 p
        rw [hk2, catGetString, C01_unpack_pack, Res.bind_ok]
        have hmod : (BitVec.ofNat 64 k).toNat = k := by
          rw [BitVec.toNat_ofNat]; exact Nat.mod_eq_of_lt (by omega)
        simp only [hmod]
        simp only at hk1
        rw [hk1]
  · intro j a hj hcat
    refine ⟨G2.nodup _ (by simp), ?_⟩
    intro x
    constructor
    · intro hx
      rcases V2 _ x hx with h | ⟨r, hr, q, hq, hq1, hq2, hq3⟩
      · simp at h
      · obtain ⟨i, hi, rfl⟩ := List.mem_map.1 hr
        obtain ⟨j', v, h1, h2, h3⟩ := hzip i q (by simpa using hi) hq
        have e : j' = j := by
          have k1 := (a3 j' _ h1).1
          have k2 := (a3 j _ hj).1
          have := hfresh (0 + j') (0 + j) (by rw [← k1, ← k2, hq1])
          omega
        subst e
        exact ⟨i, v, h2, by rw [hq3, h3, trim_marked]⟩
    · rintro ⟨i, v, hv, rfl⟩
      have hst := (hstored i j a v hj hv).2
      unfold Stored at hst
      rw [trim_marked] at hst
      obtain ⟨p, body⟩ := a
      cases body with
      | float n k => simp [Attr.isCat] at hcat
      | bin n => simp [Attr.isCat] at hcat
      | cat n vs =>
        obtain ⟨k, hk1, _⟩ := hst
        exact List.mem_of_getElem? hk1

/-! ## Failures are panics -/

theorem bind_ne_err' {α β : Type} {r : Res α} {f : α → Res β} (h : r ≠ Res.err) (hf : ∀ a, f a ≠ Res.err) : r.bind f ≠ Res.err := by
  cases r with
  | ok a => exact hf a
  | err => exact absurd rfl h
  | panic => intro e; cases e

theorem map_ne_err' {α β : Type} {r : Res α} {f : α → β} (h : r ≠ Res.err) : r.map f ≠ Res.err := by
  cases r with
  | ok a => intro e; cases e
  | err => exact absurd rfl h
  | panic => intro e; cases e

theorem orPanic_ne_err {α : Type} (r : Res α) : r.orPanic ≠ Res.err := by
  cases r <;> simp [Res.orPanic]

theorem colValue_ne_err (c : List FVal) (i : Nat) : colValue c i ≠ Res.err := by
  unfold colValue
  split <;> simp

theorem frameAttrs_ne_err (fresh : Nat → Nat) (cols : List (String × List FVal)) (i : Nat) : frameAttrs fresh i cols ≠ Res.err := by
  induction cols generalizing i with
  | nil => simp [frameAttrs]
  | cons c cs ih =>
    rw [frameAttrs]
    apply bind_ne_err' _ fun a => map_ne_err' (ih _)
    apply bind_ne_err' (colValue_ne_err _ _)
    intro v
    cases v <;> simp

theorem set_ne_err (d : Dense) (s : Spec) (r : Nat) (v : Bytes) : d.set s r v ≠ Res.err := by
  unfold Dense.set
  split
  · simp
  · split
    · simp
    · apply map_ne_err'
      unfold Group.set
      split
      · split
        · simp
        · simp only
          split
          · simp
          · split <;> simp
      · split
        · simp
        · split <;> simp

theorem frameRow_ne_err (fo : FrameOps) (row : Nat) (cols : List (List FVal)) :
    ∀ (d : Dense) (env : ValEnv) (specs : List Spec), frameRow fo row d env specs cols ≠ Res.err := by
  induction cols with
  | nil => intro d env specs; cases specs <;> simp [frameRow]
  | cons c cs ih =>
    intro d env specs
    cases specs with
    | nil => simp [frameRow]
    | cons s ss =>
      rw [frameRow]
      apply bind_ne_err' (colValue_ne_err _ _)
      intro v
      apply bind_ne_err' (orPanic_ne_err _)
      intro q
      apply bind_ne_err' (set_ne_err _ _ _ _)
      intro d'
      exact ih _ _ _

theorem frameRows_ne_err (fo : FrameOps) (specs : List Spec) (cols : List (List FVal)) (rs : List Nat) :
    ∀ (d : Dense) (env : ValEnv), frameRows fo specs cols d env rs ≠ Res.err := by
  induction rs with
  | nil => intro d env; simp [frameRows]
  | cons r rs ih =>
    intro d env
    rw [frameRows]
    exact bind_ne_err' (frameRow_ne_err _ _ _ _ _ _) fun q => ih _ _

theorem convertFrame_ne_err (pg : Nat) (fo : FrameOps) (fresh : Nat → Nat) (f : Frame) (cls : Int) : convertFrame pg fo fresh f cls ≠ Res.err := by
  unfold convertFrame
  apply bind_ne_err' (frameAttrs_ne_err _ _ _)
  intro as
  obtain ⟨st, specs, s1, _⟩ := addSpecs_run pg as [] St.init (by simp) rfl (by simp)
  have s1' : addSpecs pg Dense.new as = Res.ok (st.d, specs) := s1
  rw [s1', Res.bind_ok]
  apply bind_ne_err'
  · unfold attrAt
    split
    · simp
    · split <;> simp
  · intro a
    apply bind_ne_err'
    · split <;> simp
    · intro d
      exact frameRows_ne_err _ _ _ _ _ _

theorem frameRow_numbers (fo : FrameOps) (row : Nat) (cols : List (List FVal)) :
    ∀ (d : Dense) (env : ValEnv) (specs : List Spec) (q : Dense × ValEnv), frameRow fo row d env specs cols = Res.ok q →
      ∀ (j : Nat) s c v, specs[j]? = some s → cols[j]? = some c → c[row]? = some v → s.attr.isCat = false →
        (fo.parse (frameText fo v)).isSome := by
  induction cols with
  | nil => intro d env specs q _ j s c v _ h; simp at h
  | cons c cs ih =>
    intro d env specs q h j s c' v hs hc hv hcat
    cases specs with
    | nil => simp at hs
    | cons s0 ss =>
      rw [frameRow] at h
      simp only [Res.bind_eq_ok] at h
      obtain ⟨v0, h0, p, h1, d', h2, h3⟩ := h
      cases j with
      | succ j => exact ih _ _ _ _ h3 j s c' v (by simpa using hs) (by simpa using hc) hv hcat
      | zero =>
        simp only [List.getElem?_cons_zero, Option.some.injEq] at hs hc
        subst hs hc
        have : v0 = v := by
          unfold colValue at h0
          rw [hv] at h0
          simpa using h0.symm
        subst this
        rw [frameSysVal_ok] at h1
        unfold sysValFromString at h1
        have hp : ((frameCsv fo).parse (frameText fo v0)).isSome = true := by
          cases hb : s0.attr.body with
          | float n k =>
            rw [hb] at h1
            cases hq : (frameCsv fo).parse (frameText fo v0) with
            | none => rw [hq] at h1; cases h1
            | some b => rfl
          | bin n =>
            rw [hb] at h1
            cases hq : (frameCsv fo).parse (frameText fo v0) with
            | none => rw [hq] at h1; cases h1
            | some b => rfl
          | cat n vs =>
            obtain ⟨pos, sp, ptr, body⟩ := s0
            simp only at hb
            subst hb
            simp [Attr.isCat] at hcat
        exact hp

theorem frameRows_numbers (fo : FrameOps) (specs : List Spec) (cols : List (List FVal)) (rs : List Nat) :
    ∀ (d : Dense) (env : ValEnv) (q : Dense × ValEnv), frameRows fo specs cols d env rs = Res.ok q →
      ∀ row ∈ rs, ∀ (j : Nat) s c v, specs[j]? = some s → cols[j]? = some c → c[row]? = some v → s.attr.isCat = false →
        (fo.parse (frameText fo v)).isSome := by
  induction rs with
  | nil => intro d env q _ row hr; cases hr
  | cons r rs ih =>
    intro d env q h row hr
    rw [frameRows, Res.bind_eq_ok] at h
    obtain ⟨p, h1, h2⟩ := h
    rcases List.mem_cons.1 hr with rfl | hr
    · exact frameRow_numbers fo row cols _ _ _ _ h1
    · exact ih _ _ _ h2 row hr

theorem frameAttrs_first (fresh : Nat → Nat) (cols : List (String × List FVal)) : ∀ i as, frameAttrs fresh i cols = Res.ok as →
    ∀ c ∈ cols, ∃ v, c.2[0]? = some v ∧ v ≠ .nil := by
  induction cols with
  | nil => intro i as _ c hc; cases hc
  | cons c cs ih =>
    intro i as h x hx
    rw [frameAttrs, Res.bind_eq_ok] at h
    obtain ⟨a, h1, h2⟩ := h
    rw [Res.map_eq_ok] at h2
    obtain ⟨l, h2, _⟩ := h2
    rcases List.mem_cons.1 hx with rfl | hx
    · unfold frameAttr colValue at h1
      cases hv : x.2[0]? with
      | none => rw [hv] at h1; cases h1
      | some v =>
        refine ⟨v, rfl, ?_⟩
        rintro rfl
        rw [hv] at h1
        cases h1
    · exact ih _ _ h2 x hx

theorem convertFrame_only (pg : Nat) (fo : FrameOps) (fresh : Nat → Nat) (f : Frame) (cls : Int) (hg : f.Good) (q : Dense × ValEnv)
    (h : convertFrame pg fo fresh f cls = Res.ok q) : f.Convertible fo cls := by
  unfold convertFrame at h
  rw [Res.bind_eq_ok] at h
  obtain ⟨as, a1, h⟩ := h
  have hfirst := frameAttrs_first fresh f.cols 0 as a1
  obtain ⟨as', a1', a2, a3⟩ := frameAttrs_spec fresh f.cols 0 hfirst
  rw [a1, Res.ok.injEq] at a1'
  subst a1'
  obtain ⟨st, specs, s1, s2, s3, s4, s5⟩ := addSpecs_run pg as [] St.init (by simp) rfl (by simp)
  have s1' : addSpecs pg Dense.new as = Res.ok (st.d, specs) := s1
  rw [s1', Res.bind_ok, Res.bind_eq_ok] at h
  obtain ⟨cl, hcl, h⟩ := h
  rw [Res.bind_eq_ok] at h
  obtain ⟨d, _, h⟩ := h
  have hlen : as.length = f.cols.length := by
    have := congrArg List.length a2
    simpa using this
  have hcls : 0 ≤ cls ∧ cls < f.cols.length := by
    unfold attrAt at hcl
    split at hcl
    · cases hcl
    · split at hcl
      · rename_i e
        have := (List.getElem?_eq_some_iff.1 e).1
        omega
      · cases hcl
  refine ⟨?_, ?_, ?_, hcls⟩
  · obtain ⟨c, hc⟩ : ∃ c, c ∈ f.cols := ⟨f.cols[0]'(by omega), List.getElem_mem _⟩
    obtain ⟨v, hv, _⟩ := hfirst c hc
    have := (List.getElem?_eq_some_iff.1 hv).1
    have := hg.2 c hc
    omega
  · intro j e
    unfold Frame.val at e
    rw [Option.bind_eq_some_iff] at e
    obtain ⟨c, hc, e⟩ := e
    obtain ⟨v, hv, hv'⟩ := hfirst c (List.mem_of_getElem? hc)
    rw [e, Option.some.injEq] at hv
    exact hv' hv.symm
  · intro i j v hv ht
    unfold Frame.val at hv
    rw [Option.bind_eq_some_iff] at hv
    obtain ⟨c, hc, hv⟩ := hv
    have hi := (List.getElem?_eq_some_iff.1 hv).1
    have hl := hg.2 c (List.mem_of_getElem? hc)
    obtain ⟨hj, _⟩ := List.getElem?_eq_some_iff.1 hc
    obtain ⟨a, hja⟩ : ∃ a, as[j]? = some a := ⟨as[j]'(by omega), List.getElem?_eq_getElem _⟩
    have hcat : a.isCat = false := by
      obtain ⟨_, _, c', hc', he⟩ := a3 j _ hja
      rw [hc, Option.some.injEq] at hc'
      subst hc'
      rw [← Bool.not_eq_true, he]
      rintro ⟨s, hs⟩
      have : f.isText j = true := (isText_iff f j).2 ⟨s, by unfold Frame.val; rw [hc]; exact hs⟩
      rw [ht] at this
      cases this
    have hja' := hja
    rw [← s4, List.getElem?_map, Option.map_eq_some_iff] at hja'
    obtain ⟨s, hs1, hs2⟩ := hja'
    exact frameRows_numbers fo specs _ _ _ _ _ h i (by simp; omega) j s c.2 v hs1 (by rw [List.getElem?_map, hc]; rfl) hv (by
      rw [hs2, hcat])

end Golearn
