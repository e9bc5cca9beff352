import Verif.Proofs.ArffWrite

/-! # C105: writing a table to an ARFF file and reading it again -/

namespace Golearn

/-- The characters that separate words are the white space characters of Unicode. -/
theorem C105_space (c : Char) : isSpace c = true ↔ c.toNat ∈ [0x9, 0xA, 0xB, 0xC, 0xD, 0x20, 0x85, 0xA0, 0x1680, 0x2000, 0x2001, 0x2002,
    0x2003, 0x2004, 0x2005, 0x2006, 0x2007, 0x2008, 0x2009, 0x200A, 0x2028, 0x2029, 0x202F, 0x205F, 0x3000] := by
  simp only [isSpace, Bool.or_eq_true, Bool.and_eq_true, decide_eq_true_eq, beq_iff_eq, List.mem_cons, List.not_mem_nil, or_false]
  omega

theorem mapRes_text (fo : FloatOps) (g : Grid) (txt : Attr → Nat → String) (r : Nat) (specs : List Spec)
    (h : ∀ s ∈ specs, s.attr.getString fo (g.cell s.attr r) = Res.ok (txt s.attr r)) :
    mapRes (fun p : Spec × Bytes => p.1.attr.getString fo p.2) (specs.zip (specs.map fun s => g.cell s.attr r)) =
      Res.ok (specs.map fun s => txt s.attr r) := by
  induction specs with
  | nil => rfl
  | cons s ss ih =>
    rw [List.map_cons, List.zip_cons_cons, mapRes, h s (by simp), Res.bind_ok, ih fun q hq => h q (by simp [hq]), Res.bind_ok, List.map_cons]

/-- What is written: the lines of the relation, the attributes, the marker and the rows, each row with the texts of its cells. -/
theorem C105_writes (fo : FloatOps) (srt : List Spec → List Spec) (g : Grid) (n : Nat) (P : g.Presents n) (attrs : List Attr)
    (hsub : ∀ a ∈ attrs, a ∈ g.allAttributes) (order : List Nat) (ho : g.RowOrder order) (relation : String) (txt : Attr → Nat → String)
    (htxt : ∀ a ∈ attrs, ∀ r, r < n → a.getString fo (g.cell a r) = Res.ok (txt a r))
    (hsrt : ∀ l : List Spec, l.length = attrs.length → srt l = l) :
    writeARFFWith fo srt order g attrs relation = Res.ok (unlines (arffLines relation attrs order txt)) := by
  obtain ⟨specs, e1, ms, ws⟩ := resolveUnsorted_attrs P hsub
  have hlen : specs.length = attrs.length := by rw [← ms, List.length_map]
  have hord := P.order order ho
  obtain ⟨i1, i2⟩ := P.iter specs fun s hs => ⟨s.attr, (ws s hs).1, (ws s hs).2⟩
  have hmem : ∀ s ∈ specs, s.attr ∈ attrs := fun s hs => ms ▸ List.mem_map_of_mem hs
  have hlt : ∀ r ∈ order, r < n := fun r hr => List.mem_range.1 (hord.subset hr)
  have hmap := mapOver_all (g.rowVals specs) (fun r => specs.map fun s => g.cell s.attr r) (arffRow fo specs)
    (fun out _ r => out ++ joinWith ",".toList (attrs.map fun a => (txt a r).toList) ++ "\n".toList) order (fun r hr => i2 r (hlt r hr)) (by
      intro s r hr
      rw [arffRow, mapRes_text fo g txt r specs (fun s hs => htxt s.attr (hmem s hs) r (hlt r hr)), Res.map_ok]
      rw [← ms, List.map_map, List.map_map]
      rfl) (arffHeader relation specs)
  rw [writeARFFWith, Grid.resolve, e1, Res.map_ok, Res.bind_ok, hsrt specs hlen, Grid.mapOverRows, i1, Res.bind_ok, hmap, Res.map_ok]
  congr 1
  have hfold : ∀ (l : List Nat) (t : Text), l.foldl (fun out r => out ++ joinWith ",".toList (attrs.map fun a => (txt a r).toList) ++ "\n".toList) t =
      t ++ unlines (l.map fun r => joinWith ",".toList (attrs.map fun a => (txt a r).toList)) := by
    intro l
    induction l with
    | nil => intro t; simp [unlines]
    | cons r l ih => intro t; rw [List.foldl_cons, ih]; simp [unlines]
  have happ : ∀ a b : List Text, unlines (a ++ b) = unlines a ++ unlines b := by intro a b; simp [unlines]
  have hcons : ∀ (a : Text) (b : List Text), unlines (a :: b) = a ++ "\n".toList ++ unlines b := by intro a b; simp [unlines]
  simp only
  unfold arffHeader arffLines
  rewrite [hfold, hcons, hcons, happ, hcons, hcons]
  have hattr : (specs.flatMap fun s => "@attribute ".toList ++ s.attr.name.toList ++ " ".toList ++ arffType s.attr ++ "\n".toList) =
      unlines (attrs.map arffAttrLine) := by
    rw [← ms, unlines, List.flatMap_map, List.flatMap_map]
    have hh : "@attribute ".toList = "@attribute".toList ++ " ".toList := by decide +kernel
    rw [hh]
    congr 1
  rewrite [hattr]
  have h1 : "\n\n".toList = "\n".toList ++ "\n".toList := by decide +kernel
  have h2 : "\n@data\n".toList = "\n".toList ++ ("@data".toList ++ "\n".toList) := by decide +kernel
  rewrite [h1, h2]
  simp only [List.append_assoc, List.nil_append]

theorem arffType_mem {a : Attr} (hv : ∀ n vs, a.body = .cat n vs → ∀ v ∈ vs, IsPlain v.toList) : ∀ c ∈ arffType a, c ≠ '\n' ∧ c ≠ '\r' := by
  intro c hc
  obtain ⟨p, b⟩ := a
  cases b with
  | float _ _ => exact (by decide : ∀ c ∈ "real".toList, c ≠ '\n' ∧ c ≠ '\r') c hc
  | bin _ => exact (by decide : ∀ c ∈ "real".toList, c ≠ '\n' ∧ c ≠ '\r') c hc
  | cat n vs =>
    unfold arffType at hc
    simp only [List.mem_append] at hc
    rcases hc with (hc | hc) | hc
    · exact (by decide : ∀ c ∈ "{".toList, c ≠ '\n' ∧ c ≠ '\r') c hc
    · rcases joinWith_mem hc with hc | ⟨t, ht, hc⟩
      · exact (by decide : ∀ c ∈ ", ".toList, c ≠ '\n' ∧ c ≠ '\r') c hc
      · obtain ⟨v, hvm, rfl⟩ := List.mem_map.1 ht
        have := (hv n vs rfl v hvm).1
        exact ⟨fun e => this.no_newline (e ▸ hc), fun e => this.no_return (e ▸ hc)⟩
    · exact (by decide : ∀ c ∈ "}".toList, c ≠ '\n' ∧ c ≠ '\r') c hc

/-- No line breaks within the lines. -/
theorem arffLines_mem {ops : ArffOps} {relation : String} {attrs : List Attr} {order : List Nat} {txt : Attr → Nat → String}
    (W : ArffWritable ops relation attrs order txt) : ∀ l ∈ arffLines relation attrs order txt, ∀ c ∈ l, c ≠ '\n' ∧ c ≠ '\r' := by
  intro l hl c hc
  simp only [arffLines, List.mem_cons, List.mem_append, List.mem_map] at hl
  rcases hl with rfl | rfl | ⟨a, ha, rfl⟩ | rfl | rfl | ⟨r, hr, rfl⟩
  · rcases List.mem_append.1 hc with hc | hc
    · exact (by decide : ∀ c ∈ "@relation ".toList, c ≠ '\n' ∧ c ≠ '\r') c hc
    · exact W.oneLine c hc
  · cases hc
  · rw [arffAttrLine] at hc
    rcases joinWith_mem hc with hc | ⟨t, ht, hc⟩
    · exact (by decide : ∀ c ∈ " ".toList, c ≠ '\n' ∧ c ≠ '\r') c hc
    · simp only [List.mem_cons, List.not_mem_nil, or_false] at ht
      rcases ht with rfl | rfl | rfl
      · exact (by decide : ∀ c ∈ "@attribute".toList, c ≠ '\n' ∧ c ≠ '\r') c hc
      · have := W.words a ha
        exact ⟨fun e => this.no_newline (e ▸ hc), fun e => this.no_return (e ▸ hc)⟩
      · exact arffType_mem (fun n vs e => (W.values a ha n vs e).2.2.2) c hc
  · cases hc
  · exact (by decide : ∀ c ∈ "@data".toList, c ≠ '\n' ∧ c ≠ '\r') c hc
  · have hs := join_plain_space (ts := attrs.map fun a => (txt a r).toList) (by
      intro t ht
      obtain ⟨a, ha, rfl⟩ := List.mem_map.1 ht
      exact W.plain a ha r hr) c hc
    refine ⟨fun e => ?_, fun e => ?_⟩
    · rw [e, isSpace_newline] at hs; cases hs
    · rw [e, isSpace_return] at hs; cases hs

/-- The header of the file. -/
def arffHead (relation : String) (attrs : List Attr) : List Text :=
  ("@relation ".toList ++ relation.toList) :: [] :: (attrs.map arffAttrLine ++ [[]])

/-- The lines of the rows. -/
def arffBody (attrs : List Attr) (order : List Nat) (txt : Attr → Nat → String) : List Text :=
  order.map fun r => joinWith ",".toList (attrs.map fun a => (txt a r).toList)

/-- The precision that is estimated for the file. -/
def arffPrecision (relation : String) (attrs : List Attr) (order : List Nat) (txt : Attr → Nat → String) : Nat :=
  estimatePrecision (unlines (arffLines relation attrs order txt))

theorem withPrecision_declared (p : Int) (a : Attr) : (declaredAs 0 a).withPrecision p = declaredAs p a := by
  obtain ⟨q, b⟩ := a
  cases b <;> rfl

theorem declared_name (p : Int) (a : Attr) : (declaredAs p a).name = a.name := by
  obtain ⟨q, b⟩ := a
  cases b <;> rfl

/-- The file that is written is one that can be read. -/
theorem arffLines_file {ops : ArffOps} (L : LowerOk ops.lower) {relation : String} {attrs : List Attr} {order : List Nat}
    {txt : Attr → Nat → String} (W : ArffWritable ops relation attrs order txt)
    (hcat : ∀ a ∈ attrs, ∀ r ∈ order, ∀ n vs, a.body = .cat n vs → txt a r ∈ vs) :
    ArffFile ops (unlines (arffLines relation attrs order txt)) (attrs.map (declaredAs (arffPrecision relation attrs order txt)))
      (arffHead relation attrs) "@data".toList (arffBody attrs order txt) [] ∧
    recordsOf (arffBody attrs order txt) = order.map fun r => attrs.map fun a => (txt a r).toList := by
  have hmem := arffLines_mem W
  have hscan : scanLines (unlines (arffLines relation attrs order txt)) = arffLines relation attrs order txt :=
    scanLines_unlines _ (fun l hl h => (hmem l hl _ h).1 rfl) (fun l hl h => (hmem l hl _ (List.mem_of_getLast? h)).2 rfl) W.short
  have hlines : arffLines relation attrs order txt = arffHead relation attrs ++ "@data".toList :: (arffBody attrs order txt ++ []) := by
    simp [arffLines, arffHead, arffBody]
  have hplain : ∀ r ∈ order, ∀ t ∈ attrs.map (fun a => (txt a r).toList), IsPlain t := by
    intro r hr t ht
    obtain ⟨a, ha, rfl⟩ := List.mem_map.1 ht
    exact W.plain a ha r hr
  have hne : ∀ r : Nat, attrs.map (fun a => (txt a r).toList) ≠ [] := fun r => by simpa using W.nonempty
  have hcsv : ∀ r ∈ order, csvLine (joinWith ",".toList (attrs.map fun a => (txt a r).toList)) = Res.ok (some (attrs.map fun a => (txt a r).toList)) :=
    fun r hr => csvLine_join (hne r) (hplain r hr)
  have hhead : ∀ r ∈ order, (joinWith ",".toList (attrs.map fun a => (txt a r).toList)).head? ≠ some '@' ∧
      (joinWith ",".toList (attrs.map fun a => (txt a r).toList)).head? ≠ some '%' ∧
      joinWith ",".toList (attrs.map fun a => (txt a r).toList) ≠ [] := by
    intro r hr
    obtain ⟨a, as, e⟩ := List.exists_cons_of_ne_nil W.nonempty
    have hp := W.plain a (by simp [e]) r hr
    have hf := W.first a (by simp [e]) r hr
    rw [e, List.map_cons]
    have hh := joinWith_head (sep := ",".toList) (ts := as.map fun a => (txt a r).toList) hp.1.1
    refine ⟨by rw [hh]; exact hf.1, by rw [hh]; exact hf.2, ?_⟩
    intro h0
    rw [h0] at hh
    obtain ⟨c, cs, e'⟩ := List.exists_cons_of_ne_nil hp.1.1
    rw [e'] at hh
    cases hh
  have hdata : ∀ l ∈ arffBody attrs order txt, Readable l := by
    intro l hl
    obtain ⟨r, hr, rfl⟩ := List.mem_map.1 hl
    exact ⟨(hhead r hr).1, fun _ => ⟨_, hcsv r hr⟩⟩
  have hrecs : recordsOf (arffBody attrs order txt) = order.map fun r => attrs.map fun a => (txt a r).toList := by
    have : ∀ l : List Nat, (∀ r ∈ l, r ∈ order) →
        recordsOf (l.map fun r => joinWith ",".toList (attrs.map fun a => (txt a r).toList)) = l.map fun r => attrs.map fun a => (txt a r).toList := by
      intro l
      induction l with
      | nil => intro _; rfl
      | cons r l ih =>
        intro h
        have hr := h r (by simp)
        have hd := isDataLine_of (hhead r hr).2.2 (hhead r hr).1 (hhead r hr).2.1
        have hrec : recordOf (joinWith ",".toList (attrs.map fun a => (txt a r).toList)) = some (attrs.map fun a => (txt a r).toList) := by
          rw [recordOf, hcsv r hr]
        rw [List.map_cons, List.map_cons, recordsOf, List.filter_cons_of_pos hd, List.filterMap_cons, hrec]
        simp only
        congr 1
        exact ih fun q hq => h q (by simp [hq])
    exact this order fun _ h => h
  refine ⟨⟨by rw [hscan, hlines], ?_, L.map (by decide), by decide, hdata, ?_, by simpa using W.nonempty, ?_, ?_, ?_⟩, hrecs⟩
  · intro l hl
    simp only [arffHead, List.mem_cons, List.mem_append, List.mem_map, List.not_mem_nil, or_false] at hl
    rcases hl with rfl | rfl | ⟨a, ha, rfl⟩ | rfl
    · have : ("@relation ".toList ++ relation.toList).map ops.lower = '@' :: 'r' :: ("elation ".toList ++ relation.toList).map ops.lower := by
        rw [show "@relation ".toList ++ relation.toList = '@' :: 'r' :: ("elation ".toList ++ relation.toList) from rfl, List.map_cons, List.map_cons,
          L.keeps '@' (by decide), L.keeps 'r' (by decide)]
      rw [this]
      exact not_marker (by decide)
    · rw [List.map_nil]; decide
    · have : (arffAttrLine a).map ops.lower = '@' :: 'a' :: ((arffAttrLine a).drop 2).map ops.lower := by
        rw [show arffAttrLine a = '@' :: 'a' :: (arffAttrLine a).drop 2 from rfl, List.map_cons, List.map_cons,
          L.keeps '@' (by decide), L.keeps 'a' (by decide)]
        rfl
      rw [this]
      exact not_marker (by decide)
    · rw [List.map_nil]; decide
  · have hat := arffAttributes_lines ops.lower (arffHead relation attrs) "@data".toList (arffBody attrs order txt) (L.map (by decide)) L.space
      (fun l hl => (hdata l hl).1)
    have hrel : arffAttribute ops.lower ("@relation ".toList ++ relation.toList) = Res.ok none := by
      rw [arffAttribute]
      split
      · rfl
      · split
        · rename_i f0 f1 f2 fs hf
          have : f0.map ops.lower ≠ "@attribute".toList := by
            have h0 : fieldsOf ("@relation ".toList ++ relation.toList) = "@relation".toList :: fieldsOf relation.toList := by
              have := fieldsGo_word "@relation".toList (' ' :: relation.toList) (by decide) []
              rw [fieldsOf, show "@relation ".toList ++ relation.toList = "@relation".toList ++ ' ' :: relation.toList from rfl, this, fieldsGo,
                if_pos (by decide), if_neg (by decide)]
              rfl
            rw [h0] at hf
            injection hf with hf _
            rw [← hf, L.map (by decide)]
            decide
          rw [if_pos this]
        · rfl
    have hnil : arffAttribute ops.lower [] = Res.ok none := rfl
    have hall : ∀ l : List Attr, (∀ a ∈ l, a ∈ attrs) →
        mapRes (arffAttribute ops.lower) (l.map arffAttrLine ++ [[]]) = Res.ok (l.map (fun a => some (declaredAs 0 a)) ++ [none]) := by
      intro l
      induction l with
      | nil => intro _; rfl
      | cons a l ih =>
        intro h
        have ha := h a (by simp)
        rw [List.map_cons, List.cons_append, mapRes, arffAttribute_line L a (W.words a ha) (W.values a ha), Res.bind_ok,
          ih fun q hq => h q (by simp [hq]), Res.bind_ok]
        rfl
    have hhd : mapRes (arffAttribute ops.lower) (arffHead relation attrs) =
        Res.ok (none :: none :: (attrs.map (fun a => some (declaredAs 0 a)) ++ [none])) := by
      rw [arffHead, mapRes, hrel, Res.bind_ok, mapRes, hnil, Res.bind_ok, hall attrs fun _ h => h, Res.bind_ok, Res.bind_ok]
    rw [hhd, Res.map_ok] at hat
    rw [arffAttributes, hscan, arffPrecision]
    rw [List.append_nil] at hlines
    rw [Res.map_eq_ok] at hat
    obtain ⟨l, hl1, hl2⟩ := hat
    rw [hlines] at *
    rw [hl1, Res.map_ok, hl2]
    congr 1
    have : (none :: none :: (attrs.map (fun a => some (declaredAs 0 a)) ++ [none])).filterMap id = attrs.map (declaredAs 0) := by
      simp [List.filterMap_append, List.filterMap_map]
    rw [this, List.map_map]
    exact List.map_congr_left fun a _ => by rw [Function.comp, withPrecision_declared]
  · rw [List.map_map]
    have : (AttrBody.name ∘ declaredAs (arffPrecision relation attrs order txt)) = Attr.name := funext fun a => declared_name _ a
    rw [this]
    exact W.names
  · intro n vs h
    obtain ⟨a, ha, e⟩ := List.mem_map.1 h
    obtain ⟨q, b⟩ := a
    cases b with
    | float _ _ => cases e
    | bin _ => cases e
    | cat m us =>
      cases e
      exact (W.values _ ha _ _ rfl).2.2.1
  · intro rec hr
    rw [hrecs] at hr
    obtain ⟨r, hro, rfl⟩ := List.mem_map.1 hr
    refine ⟨by simp, ?_⟩
    intro j b v hb hv
    rw [List.getElem?_map, Option.map_eq_some_iff] at hb hv
    obtain ⟨a, hj, rfl⟩ := hb
    obtain ⟨a', hj', rfl⟩ := hv
    rw [hj, Option.some.injEq] at hj'
    subst hj'
    have ha := List.mem_of_getElem? hj
    rw [trimSpace_word (W.plain a ha r hro).1.2, String.ofList_toList]
    have h1 := hcat a ha r hro
    have h2 := W.means a ha r hro
    obtain ⟨q, b⟩ := a
    cases b with
    | float _ _ => exact h2 rfl
    | bin _ => exact h2 rfl
    | cat m us => exact h1 m us rfl

theorem catGetString_mem {vs : List String} {c : Bytes} {t : String} (h : catGetString vs c = Res.ok t) :
    ∃ u, unpackU64 c = Res.ok u ∧ vs[u.toNat]? = some t := by
  rw [catGetString, Res.bind_eq_ok] at h
  obtain ⟨u, h1, h2⟩ := h
  refine ⟨u, h1, ?_⟩
  split at h2
  · cases h2; assumption
  · cases h2

/-- A table is written to a file, and the file is read again: the result has the same columns, of which the last is the class, and the same rows; every
cell says what the text of the cell said. The precision of float columns is the one that is estimated for the file, and binary columns come back as
float columns.

Missing: names, values and relations with spaces, commas or quotes, the empty list of values, lines that are too long, and first columns whose texts
start with `@` or `%`, for which see below. -/
theorem C105_round_trip_partial (fo : FloatOps) (ops : ArffOps) (L : LowerOk ops.lower) (pg : Nat) (srt srt' : List Spec → List Spec)
    (fresh : Nat → Nat) (g : Grid) (n : Nat) (P : g.Presents n) (attrs : List Attr) (hsub : ∀ a ∈ attrs, a ∈ g.allAttributes) (order : List Nat)
    (ho : g.RowOrder order) (relation : String) (txt : Attr → Nat → String)
    (htxt : ∀ a ∈ attrs, ∀ r, r < n → a.getString fo (g.cell a r) = Res.ok (txt a r))
    (hsrt : ∀ l : List Spec, l.length = attrs.length → srt l = l) (hsrt' : ∀ l : List Spec, l.length = attrs.length → srt' l = l)
    (W : ArffWritable ops relation attrs order txt) :
    ∃ file d cols, writeARFFWith fo srt order g attrs relation = Res.ok file ∧ parseARFF pg ops srt' fresh file = Res.ok d ∧
      ArffTable ops (attrs.map (declaredAs (estimatePrecision file))) (order.map fun r => attrs.map fun a => (txt a r).toList) d cols := by
  have hlt : ∀ r ∈ order, r < n := fun r hr => List.mem_range.1 ((P.order order ho).subset hr)
  obtain ⟨F, hrec⟩ := arffLines_file L W (by
    intro a ha r hr m vs e
    have := htxt a ha r (hlt r hr)
    rw [Attr.getString, e] at this
    obtain ⟨u, _, h⟩ := catGetString_mem this
    exact List.mem_of_getElem? h)
  obtain ⟨d, cols, e, T⟩ := C104_reads_partial pg ops srt' fresh _ _ _ _ _ F (fun l hl => hsrt' l (by simpa using hl))
  rw [hrec] at T
  exact ⟨_, d, cols, C105_writes fo srt g n P attrs hsub order ho relation txt htxt hsrt, e, T⟩

/-- In particular the cells of categorical columns hold the same bytes. -/
theorem C105_codes (ops : ArffOps) (fo : FloatOps) (g : Grid) (n : Nat) (T : g.typed n) (attrs : List Attr)
    (hsub : ∀ a ∈ attrs, a ∈ g.allAttributes) (order : List Nat) (hlt : ∀ r ∈ order, r < n) (txt : Attr → Nat → String)
    (htxt : ∀ a ∈ attrs, ∀ r, r < n → a.getString fo (g.cell a r) = Res.ok (txt a r)) (relation : String)
    (W : ArffWritable ops relation attrs order txt) (p : Int) (d : Dense) (cols : List Attr)
    (A : ArffTable ops (attrs.map (declaredAs p)) (order.map fun r => attrs.map fun a => (txt a r).toList) d cols)
    (i j r : Nat) (a b : Attr) (hi : order[i]? = some r) (hj : attrs[j]? = some a) (hb : cols[j]? = some b) (hc : a.isCat = true) :
    b.body = a.body ∧ ∃ s, d.getAttribute b = Res.ok s ∧ d.get s i = Res.ok (g.cell a r) := by
  have ha := List.mem_of_getElem? hj
  have hr := List.mem_of_getElem? hi
  have hbody : b.body = declaredAs p a := by
    have := congrArg (fun l => l[j]?) A.declared
    simp only [List.getElem?_map, hb, hj, Option.map_some, Option.some.injEq] at this
    exact this
  obtain ⟨s, c, h1, h2, h3⟩ := A.cells i j b (attrs.map fun a => (txt a r).toList) (txt a r).toList hb (by rw [List.getElem?_map, hi]; rfl)
    (by rw [List.getElem?_map, hj]; rfl)
  rw [trimSpace_word (W.plain a ha r hr).1.2, String.ofList_toList] at h3
  have hty := T a (hsub a ha) r (hlt r hr)
  have hval := htxt a ha r (hlt r hr)
  have hvs := W.values a ha
  obtain ⟨q, bd⟩ := a
  cases bd with
  | float _ _ => cases hc
  | bin _ => cases hc
  | cat m vs =>
    refine ⟨hbody, s, h1, ?_⟩
    rw [h2]
    congr 1
    simp only [FieldSays, hbody, declaredAs] at h3
    obtain ⟨hl, h3⟩ := h3
    have hval : catGetString vs (g.cell ⟨q, .cat m vs⟩ r) = Res.ok _ := hval
    obtain ⟨u, u1, u2⟩ := catGetString_mem h3
    obtain ⟨w, w1, w2⟩ := catGetString_mem hval
    have huw : u.toNat = w.toNat := (List.getElem?_inj (List.getElem?_eq_some_iff.1 u2).1 (hvs m vs rfl).2.1).1 (by rw [u2, w2])
    have huw : u = w := BitVec.eq_of_toNat_eq huw
    have hl' : (g.cell ⟨q, .cat m vs⟩ r).length = 8 := hty
    obtain ⟨x, x1, x2⟩ := C01_pack_unpack c hl
    obtain ⟨y, y1, y2⟩ := C01_pack_unpack _ hl'
    rw [u1, Res.ok.injEq] at x1
    rw [w1, Res.ok.injEq] at y1
    rw [← x2, ← y2, ← x1, ← y1, huw]

/-- The cells of float columns hold the same bytes if the text of each number is that of no other, to the reader. -/
theorem C105_floats (ops : ArffOps) (fo : FloatOps) (g : Grid) (n : Nat) (T : g.typed n) (attrs : List Attr)
    (hsub : ∀ a ∈ attrs, a ∈ g.allAttributes) (order : List Nat) (hlt : ∀ r ∈ order, r < n) (txt : Attr → Nat → String)
    (htxt : ∀ a ∈ attrs, ∀ r, r < n → a.getString fo (g.cell a r) = Res.ok (txt a r)) (relation : String)
    (W : ArffWritable ops relation attrs order txt) (p : Int) (d : Dense) (cols : List Attr)
    (A : ArffTable ops (attrs.map (declaredAs p)) (order.map fun r => attrs.map fun a => (txt a r).toList) d cols)
    (i j r : Nat) (a b : Attr) (hi : order[i]? = some r) (hj : attrs[j]? = some a) (hb : cols[j]? = some b) (m : String) (k : Int)
    (hc : a.body = .float m k) (hexact : ∀ x, unpackFloatBits (g.cell a r) = Res.ok x → ops.parse (fo.fmt k x) = some x) :
    b.body = .float m p ∧ ∃ s, d.getAttribute b = Res.ok s ∧ d.get s i = Res.ok (g.cell a r) := by
  have ha := List.mem_of_getElem? hj
  have hr := List.mem_of_getElem? hi
  have hbody : b.body = declaredAs p a := by
    have := congrArg (fun l => l[j]?) A.declared
    simp only [List.getElem?_map, hb, hj, Option.map_some, Option.some.injEq] at this
    exact this
  obtain ⟨s, c, h1, h2, h3⟩ := A.cells i j b (attrs.map fun a => (txt a r).toList) (txt a r).toList hb (by rw [List.getElem?_map, hi]; rfl)
    (by rw [List.getElem?_map, hj]; rfl)
  rw [trimSpace_word (W.plain a ha r hr).1.2, String.ofList_toList] at h3
  have hty := T a (hsub a ha) r (hlt r hr)
  have hval := htxt a ha r (hlt r hr)
  obtain ⟨q, bd⟩ := a
  simp only at hc
  subst hc
  refine ⟨hbody, s, h1, ?_⟩
  rw [h2]
  congr 1
  simp only [FieldSays, hbody, declaredAs] at h3
  obtain ⟨x, hx, rfl⟩ := h3
  have hl : (g.cell ⟨q, .float m k⟩ r).length = 8 := hty
  obtain ⟨y, y1, y2⟩ := C01_pack_unpack _ hl
  have hval : (unpackFloatBits (g.cell ⟨q, .float m k⟩ r)).map (fo.fmt k) = Res.ok _ := hval
  have hy : unpackFloatBits (g.cell ⟨q, .float m k⟩ r) = Res.ok y := y1
  rw [hy, Res.map_ok, Res.ok.injEq] at hval
  have := hexact y hy
  rw [hval, hx, Option.some.injEq] at this
  rw [this, y2]

/-! ## What does not hold, and a case -/

/-- The full claim: whatever table is written, if the number in each cell can be read from its text, the file is read as a table with as many
columns and rows, the same names, the same class attributes, and the same texts in categorical columns. -/
def C105_claim : Prop :=
  ∀ (fo : FloatOps) (ops : ArffOps), LowerOk ops.lower → ∀ (pg : Nat) (fresh : Nat → Nat) (g : Grid) (n : Nat), g.Presents n → g.typed n →
    ∀ (nrm : List Attr), (nrm ++ g.allClassAttributes).Perm g.allAttributes → ∀ (order : List Nat), g.RowOrder order → ∀ (relation : String)
      (txt : Attr → Nat → String), (∀ a ∈ g.allAttributes, ∀ r, r < n → a.getString fo (g.cell a r) = Res.ok (txt a r)) →
      (∀ a ∈ g.allAttributes, ∀ r, r < n → a.isCat = false → (ops.parse (txt a r)).isSome = true) →
      ∃ file d, writeARFF fo id nrm order g relation = Res.ok file ∧ parseARFF pg ops id fresh file = Res.ok d ∧
        d.size = g.size ∧ d.allAttributes.map Attr.name = (nrm ++ g.allClassAttributes).map Attr.name ∧
        d.allClassAttributes.map Attr.name = g.allClassAttributes.map Attr.name

namespace ArffExample

def fmt0 (_ : Int) (x : U64) : String := if x = 15 then "1.5" else if x = 20 then "2.0" else "0.0"
def fo0 : FloatOps := { fmt := fmt0, gt := fun _ _ => false }
def parse0 (s : String) : Option U64 :=
  if s = "1.5" then some 15 else if s = "2.0" then some 20 else if s = "0.0" then some 0 else if s = "0" then some 0 else if s = "1" then some 1
  else none
def ops0 : ArffOps := { lower := asciiLower, parse := parse0 }

theorem lower0 : LowerOk asciiLower where
  keeps := by decide
  space := by
    intro c hc
    unfold asciiLower
    split
    · rename_i h
      exfalso
      have h1 : 65 ≤ c.toNat := h.1
      have h2 : c.toNat ≤ 90 := h.2
      simp only [isSpace, Bool.or_eq_true, Bool.and_eq_true, decide_eq_true_eq, beq_iff_eq] at hc
      omega
    · exact hc

def aH : Attr := ⟨0, .float "height" 1⟩
def aB : Attr := ⟨1, .bin "tall"⟩
def aC : Attr := ⟨2, .cat "kind" ["tree", "bush"]⟩

def ops1 : List Op :=
  [.add aH, .add aB, .add aC, .addClass aC, .extend 2, .set 0 0 (packU64 15), .set 0 1 (packU64 20), .set 1 1 [1#8], .set 2 0 (packU64 1)]

def txt0 (a : Attr) (r : Nat) : String :=
  if a = aH then (if r = 0 then "1.5" else "2.0") else if a = aB then (if r = 0 then "0" else "1") else if r = 0 then "bush" else "tree"

/-- The whole way: from a grid to the file and back. -/
def roundTrip (ops : List Op) (attrs : List Attr) : Res Dense :=
  (run 4096 ops).bind fun st => (writeARFFWith fo0 id (List.range st.d.maxRow) (.dense st.d) attrs "some plants").bind fun t =>
    parseARFF 4096 ops0 id (· + 10) t

/-- The file. -/
example : ((run 4096 ops1).bind fun st => writeARFFWith fo0 id [0, 1] (.dense st.d) [aH, aB, aC] "some plants") =
    Res.ok ("@relation some plants\n\n@attribute height real\n@attribute tall real\n@attribute kind {tree, bush}\n\n@data\n" ++
      "1.5,0,bush\n2.0,1,tree\n").toList := by decide +kernel

/-- The hypotheses hold for a table of three columns and two rows. -/
example : ∃ st, run 4096 ops1 = Res.ok st ∧ (Grid.dense st.d).Presents 2 ∧ (Grid.dense st.d).typed 2 ∧
    (∀ a ∈ [aH, aB, aC], a ∈ (Grid.dense st.d).allAttributes) ∧ (Grid.dense st.d).RowOrder [0, 1] ∧
    (∀ a ∈ [aH, aB, aC], ∀ r, r < 2 → a.getString fo0 ((Grid.dense st.d).cell a r) = Res.ok (txt0 a r)) ∧
    ArffWritable ops0 "some plants" [aH, aB, aC] [0, 1] txt0 ∧
    (∀ r < 2, ∀ x, unpackFloatBits ((Grid.dense st.d).cell aH r) = Res.ok x → ops0.parse (fo0.fmt 1 x) = some x) := by
  have e : ((run 4096 ops1).map fun st => decide ((∀ a ∈ [aH, aB, aC], a ∈ st.d.allAttributes) ∧ [0, 1] = List.range st.d.maxRow ∧
      (∀ a ∈ [aH, aB, aC], ∀ r, r < 2 → a.getString fo0 ((Grid.dense st.d).cell a r) = Res.ok (txt0 a r)) ∧
      (Grid.dense st.d).cell aH 0 = packU64 15 ∧ (Grid.dense st.d).cell aH 1 = packU64 20)) = Res.ok true := by decide +kernel
  obtain ⟨st, hst, e⟩ := Res.map_eq_ok.1 e
  rw [decide_eq_true_eq] at e
  have D := denseOK_run (pg := 4096) (ops := ops1) (by decide) hst (by decide)
  refine ⟨st, hst, D.presents, D.typed, e.1, e.2.1, e.2.2.1, ?_, ?_⟩
  · exact
      { nonempty := by decide
        names := by decide
        words := by decide +kernel
        values := by
          have h : ∀ a ∈ [aH, aB, aC], a.isCat = true → a.body = .cat "kind" ["tree", "bush"] := by decide
          intro a ha n vs hb
          have := h a ha (by rw [Attr.isCat, hb])
          rw [hb] at this
          cases this
          decide +kernel
        oneLine := by decide +kernel
        plain := by decide +kernel
        means := by decide +kernel
        first := by
          intro a ha
          cases ha
          decide +kernel
        short := by decide +kernel }
  · intro r hr x hx
    have : r = 0 ∨ r = 1 := by omega
    rcases this with rfl | rfl
    · rw [e.2.2.2.1] at hx
      have hx := (C01_float_roundtrip 15).symm.trans hx
      cases hx
      decide
    · rw [e.2.2.2.2] at hx
      have hx := (C01_float_roundtrip 20).symm.trans hx
      cases hx
      decide

/-- The table that is read: the binary column is a float column now. -/
example : (roundTrip ops1 [aH, aB, aC]).map (fun d => (d.size, d.allAttributes.map Attr.body, d.allClassAttributes.map Attr.name)) =
    Res.ok ((3, 2), [.float "height" 1, .float "tall" 1, .cat "kind" ["tree", "bush"]], ["kind"]) := by decide +kernel

def aS : Attr := ⟨0, .float "the height" 1⟩
def aV : Attr := ⟨0, .cat "kind" ["tree,bush"]⟩
def aW : Attr := ⟨0, .cat "place" ["New York", "Paris"]⟩
def aE : Attr := ⟨0, .cat "kind" []⟩

end ArffExample

open ArffExample

/-- A name with a space: the file cannot be read. -/
theorem C105_space_in_name : roundTrip [.add aS, .addClass aS, .extend 1, .set 0 0 (packU64 15)] [aS] = Res.err := by decide +kernel

/-- A value with a comma comes back as two values, without an error. -/
theorem C105_comma_in_value : (roundTrip [.add aV, .addClass aV, .extend 1] [aV]).map (fun d => d.allAttributes.map Attr.body) =
    Res.ok [.cat "kind" ["tree", "bush"]] := by decide +kernel

/-- A value with a space: the file cannot be read. -/
theorem C105_space_in_value : roundTrip [.add aW, .addClass aW, .extend 1] [aW] = Res.err := by decide +kernel

/-- An attribute without values gets one, the empty text. -/
theorem C105_no_values : (roundTrip [.add aE, .addClass aE] [aE]).map (fun d => d.allAttributes.map Attr.body) = Res.ok [.cat "kind" [""]] := by
  decide +kernel

/-- Two class attributes: only the last comes back as one. -/
theorem C105_two_classes : (roundTrip [.add aH, .add aC, .addClass aH, .addClass aC, .extend 1, .set 0 0 (packU64 15)] [aH, aC]).map
    (fun d => d.allClassAttributes.map Attr.name) = Res.ok ["kind"] := by decide +kernel

/-- The full claim does not hold. -/
theorem C105_refuted : ¬ C105_claim := by
  intro H
  have e : ((run 4096 [.add aS, .addClass aS, .extend 1, .set 0 0 (packU64 15)]).map fun st => decide (st.d.allAttributes = [aS] ∧
      st.d.allClassAttributes = [aS] ∧ [0] = List.range st.d.maxRow ∧ (∀ r, r < 1 → aS.getString fo0 ((Grid.dense st.d).cell aS r) = Res.ok "1.5") ∧
      ((writeARFF fo0 id [] [0] (.dense st.d) "r").bind fun t => parseARFF 4096 ops0 id id t) = Res.err)) = Res.ok true := by decide +kernel
  obtain ⟨st, hst, e⟩ := Res.map_eq_ok.1 e
  rw [decide_eq_true_eq] at e
  obtain ⟨e1, e2, e3, e4, e5⟩ := e
  have D := denseOK_run (pg := 4096) (ops := [.add aS, .addClass aS, .extend 1, .set 0 0 (packU64 15)]) (by decide) hst (by decide)
  have e1' : (Grid.dense st.d).allAttributes = [aS] := e1
  have e2' : (Grid.dense st.d).allClassAttributes = [aS] := e2
  obtain ⟨file, d, h1, h2, _⟩ := H fo0 ops0 lower0 4096 id (.dense st.d) 1 D.presents D.typed [] (by rw [e1', e2']; exact List.Perm.refl _) [0] e3 "r"
    (fun _ _ => "1.5") (by
      rw [e1']
      intro a ha r hr
      rw [List.mem_singleton] at ha
      subst ha
      exact e4 r hr) (by intro _ _ _ _ _; decide)
  rw [h1, Res.bind_ok, h2] at e5
  cases e5

end Golearn
