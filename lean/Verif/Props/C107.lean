import Verif.Proofs.CsvText
import Verif.Props.C34
import Verif.Props.C105

/-! # C107: writing a table to a CSV file and reading it again -/

namespace Golearn

/-- Records that are written with `csv.Writer` are read again with `csv.Reader`, whatever commas, quotes, spaces and newlines are in the fields; except that
a carriage return before a newline is lost, and so is a record of one empty field. -/
theorem C107_records (recs : List (List Text)) (h : ∀ r ∈ recs, r ≠ [] ∧ r ≠ [[]] ∧ ∀ t ∈ r, NoCRLF t) : csvRead (csvWrite recs) = Res.ok recs :=
  csvRead_write recs h

/-- Records with commas, quotes, a newline, spaces and an empty field meet the hypothesis. -/
example : ∀ r ∈ ([["a,b", "c\"\nd"], ["", " x"], ["\\."]] : List (List String)).map (fun r => r.map String.toList),
    r ≠ [] ∧ r ≠ [[]] ∧ ∀ t ∈ r, NoCRLF t := by decide +kernel

/-- A column is read as a column of numbers when the first field is a number, after spaces around it have been left out. -/
theorem C107_numbers (t : Text) : looksNumeric t = true ↔ IsNumber (trimBlank t) := matchNum_start _

/-- Numbers, and texts that are none. -/
example : (["1", "-1.5", ".5", "+2e-3", "1.5E10", "", "1.", "e5", "1e", "0x10", "1,5", "NaN"].map fun s => looksNumeric s.toList) =
    [true, true, true, true, true, false, false, false, false, false, false, false] := by decide +kernel

theorem mapRes_attrText (fo : FloatOps) (g : Grid) (txt : Attr → Nat → String) (r : Nat) (attrs : List Attr)
    (h : ∀ a ∈ attrs, a.getString fo (g.cell a r) = Res.ok (txt a r)) :
    mapRes (fun p : Attr × Bytes => p.1.getString fo p.2) (attrs.zip (attrs.map fun a => g.cell a r)) = Res.ok (attrs.map fun a => txt a r) := by
  induction attrs with
  | nil => rfl
  | cons s ss ih =>
    rw [List.map_cons, List.zip_cons_cons, mapRes, h s (by simp), Res.bind_ok, ih fun q hq => h q (by simp [hq]), Res.bind_ok, List.map_cons]

/-- What is written: a line of the names, first those of the attributes that are not class attributes; and for each row a line with the texts of its cells. -/
theorem C107_writes (fo : FloatOps) (srt : List Spec → List Spec) (g : Grid) (n : Nat) (P : g.Presents n) (nrm : List Attr)
    (hsub : ∀ a ∈ nrm ++ g.allClassAttributes, a ∈ g.allAttributes) (hsize : g.size.1 = (nrm ++ g.allClassAttributes).length)
    (order : List Nat) (ho : g.RowOrder order) (txt : Attr → Nat → String)
    (htxt : ∀ a ∈ nrm ++ g.allClassAttributes, ∀ r, r < n → a.getString fo (g.cell a r) = Res.ok (txt a r))
    (hsrt : ∀ l : List Spec, l.length = g.size.1 → srt l = l) :
    writeCSV fo srt nrm order g = Res.ok (csvFile (nrm ++ g.allClassAttributes) order txt) := by
  set attrs := nrm ++ g.allClassAttributes with hattrs
  obtain ⟨specs, e1, ms, ws⟩ := resolveUnsorted_attrs P hsub
  have hlen : specs.length = g.size.1 := by rw [hsize, ← ms, List.length_map]
  have hord := P.order order ho
  obtain ⟨i1, i2⟩ := P.iter specs fun s hs => ⟨s.attr, (ws s hs).1, (ws s hs).2⟩
  have hlt : ∀ r ∈ order, r < n := fun r hr => List.mem_range.1 (hord.subset hr)
  have hmap := mapOver_all (g.rowVals specs) (fun r => specs.map fun s => g.cell s.attr r) (csvRow fo attrs)
    (fun out _ r => out ++ csvRecordText ((attrs.map fun a => txt a r).map String.toList)) order (fun r hr => i2 r (hlt r hr)) (by
      intro s r hr
      have : (specs.map fun s => g.cell s.attr r) = attrs.map fun a => g.cell a r := by rw [← ms, List.map_map]; rfl
      rw [csvRow, this, mapRes_attrText fo g txt r attrs (fun a ha => htxt a ha r (hlt r hr)), Res.map_ok])
    (csvRecordText (attrs.map fun a => a.name.toList))
  have htake : attrs.take g.size.1 = attrs := by rw [hsize, List.take_length]
  rw [writeCSV]
  simp only [← hattrs, htake]
  rw [if_neg (by omega), Grid.resolve, e1, Res.map_ok, Res.bind_ok, hsrt specs hlen, Grid.mapOverRows, i1, Res.bind_ok, hmap, Res.map_ok]
  congr 1
  have hfold : ∀ (l : List Nat) (t : Text), l.foldl (fun out r => out ++ csvRecordText ((attrs.map fun a => txt a r).map String.toList)) t =
      t ++ csvWrite ((csvTable attrs l txt).map fun r => r.map String.toList) := by
    intro l
    induction l with
    | nil => intro t; simp [csvWrite, csvTable]
    | cons r l ih => intro t; rw [List.foldl_cons, ih]; simp [csvWrite, csvTable]
  simp only
  rw [hfold, csvFile]
  simp [csvWrite, List.map_map, Function.comp_def]

theorem field_csvTable {attrs : List Attr} {order : List Nat} {txt : Attr → Nat → String} {i j : Nat} {v : String} :
    field (csvTable attrs order txt) i j = some v ↔ ∃ r a, order[i]? = some r ∧ attrs[j]? = some a ∧ v = txt a r := by
  rw [field, csvTable, List.getElem?_map]
  cases hr : order[i]? with
  | none => simp
  | some r =>
    simp only [Option.map_some, Option.bind_some, List.getElem?_map]
    cases ha : attrs[j]? with
    | none => simp
    | some a => simp [eq_comm]

theorem csvFile_read {parse : String → Option U64} {attrs : List Attr} {order : List Nat} {txt : Attr → Nat → String}
    (W : CsvWritable parse attrs order txt) :
    csvRead (csvFile attrs order txt) = Res.ok ((attrs.map Attr.name :: csvTable attrs order txt).map fun r => r.map String.toList) := by
  have hone : ∀ (f : Attr → String), (∀ a ∈ attrs, NoCRLF (f a).toList) → (∀ a, attrs = [a] → f a ≠ "") →
      ((attrs.map f).map String.toList) ≠ [] ∧ ((attrs.map f).map String.toList) ≠ [[]] ∧ ∀ t ∈ (attrs.map f).map String.toList, NoCRLF t := by
    intro f h1 h2
    have hc := W.columns
    refine ⟨by simpa using hc, ?_, ?_⟩
    · intro e
      cases attrs with
      | nil => exact hc rfl
      | cons a l =>
        simp at e
        obtain ⟨e1, rfl⟩ := e
        exact h2 a rfl e1
    · intro t ht
      rw [List.map_map, List.mem_map] at ht
      obtain ⟨a, ha, rfl⟩ := ht
      exact h1 a ha
  refine csvRead_write _ ?_
  intro r hr
  rw [List.map_cons, List.mem_cons] at hr
  rcases hr with rfl | hr
  · exact hone Attr.name W.nameText fun a e => (W.single a e).1
  · rw [csvTable, List.map_map, List.mem_map] at hr
    obtain ⟨i, hi, rfl⟩ := hr
    exact hone (fun a => txt a i) (fun a ha => W.cellText a ha i hi) fun a e => (W.single a e).2 i hi

/-- A table is written to a file, and the file is read again: the result has the same columns, in the order in which they were written, of which the last is the
class; the same rows; and every cell says what the text of the cell said, without the space around it. Whether a column is one of numbers is
decided by the text in its first row.

Missing: more than one class attribute; tables without rows or columns; texts with a carriage return before a newline; a single column with
empty texts; a column that starts with a number and has other texts; and sizes that differ from the number of attributes, for which see below. -/
theorem C107_round_trip_partial (fo : FloatOps) (parse : String → Option U64) (pg : Nat) (srt srt' : List Spec → List Spec) (fresh : Nat → Nat)
    (hfresh : ∀ i j, fresh i = fresh j → i = j) (g : Grid) (n : Nat) (P : g.Presents n) (nrm : List Attr)
    (hsub : ∀ a ∈ nrm ++ g.allClassAttributes, a ∈ g.allAttributes) (hsize : g.size.1 = (nrm ++ g.allClassAttributes).length)
    (order : List Nat) (ho : g.RowOrder order) (txt : Attr → Nat → String)
    (htxt : ∀ a ∈ nrm ++ g.allClassAttributes, ∀ r, r < n → a.getString fo (g.cell a r) = Res.ok (txt a r))
    (hsrt : ∀ l : List Spec, l.length = g.size.1 → srt l = l) (hsrt' : ∀ l : List Spec, l.length = g.size.1 → srt' l = l)
    (W : CsvWritable parse (nrm ++ g.allClassAttributes) order txt) :
    ∃ file d env cols, writeCSV fo srt nrm order g = Res.ok file ∧ parseCSVText pg parse srt' fresh true file = Res.ok (d, env) ∧
      Parsed (textOps parse file) ((nrm ++ g.allClassAttributes).map fun a => String.ofList (trimSpace a.name.toList))
        (csvTable (nrm ++ g.allClassAttributes) order txt) d env cols := by
  have hw := C107_writes fo srt g n P nrm hsub hsize order ho txt htxt hsrt
  set attrs := nrm ++ g.allClassAttributes with hattrs
  set file := csvFile attrs order txt with hfile
  have hrd := csvFile_read W
  have hcol : 0 < attrs.length := List.length_pos_iff.2 W.columns
  have hmm : ∀ l : List (List String), (l.map fun r => r.map String.toList).map (fun r => r.map String.ofList) = l := by
    intro l
    rw [List.map_map]
    conv_rhs => rw [← List.map_id l]
    refine List.map_congr_left fun r _ => ?_
    simp [Function.comp_def]
  obtain ⟨d, env, cols, e, Q⟩ := C34_parse_partial pg (textOps parse file) srt' fresh (some (attrs.map Attr.name)) (csvTable attrs order txt)
    attrs.length (by simpa [csvTable] using W.rows) hcol (by
      intro r hr
      rw [csvTable, List.mem_map] at hr
      obtain ⟨i, _, rfl⟩ := hr
      simp) (by
      intro h e
      rw [Option.some.injEq] at e
      subst e
      refine ⟨by simp, ?_⟩
      have hn := W.names
      rw [List.map_map]
      have : (attrs.map ((textOps parse file).trim ∘ Attr.name)) = (attrs.map fun a => trimSpace a.name.toList).map String.ofList := by
        rw [List.map_map]; rfl
      rw [this]
      exact hn.map fun a b h => String.ofList_injective h) (by
      intro i j v hnum hv hne
      obtain ⟨r, a, hi, hj, rfl⟩ := field_csvTable.1 hv
      have ha := List.mem_of_getElem? hj
      have hr := List.mem_of_getElem? hi
      obtain ⟨r0, hr0⟩ : ∃ r0, order[0]? = some r0 := by
        cases ho0 : order with
        | nil => rw [ho0] at hr; simp at hr
        | cons x xs => exact ⟨x, rfl⟩
      have h0 : field (csvTable attrs order txt) 0 j = some (txt a r0) := field_csvTable.2 ⟨r0, a, hr0, hj, rfl⟩
      rw [numericCol, h0] at hnum
      exact W.numbers a ha r0 (by rw [List.head?_eq_getElem?]; exact hr0) hnum r hr hne) (by
      rw [csvTable, List.length_map]; exact W.small) hfresh
    fun l hl => hsrt' l (by rw [hsize]; exact hl)
  refine ⟨file, d, env, cols, hw, ?_, ?_⟩
  · rw [parseCSVText, hrd, Res.bind_ok, hmm]
    exact e
  · rw [csvColNames] at Q
    simp only [List.map_map] at Q
    exact Q

/-- In particular a column of texts of which the first is not a number comes back as a categorical column with the same texts. -/
theorem C107_texts (parse : String → Option U64) (attrs : List Attr) (order : List Nat) (txt : Attr → Nat → String) (file : Text)
    (names : List String) (d : Dense) (env : ValEnv) (cols : List Attr) (Q : Parsed (textOps parse file) names (csvTable attrs order txt) d env cols)
    (j r0 : Nat) (a b : Attr) (hj : attrs[j]? = some a) (hb : cols[j]? = some b) (h0 : order.head? = some r0)
    (hnum : ¬ IsNumber (trimBlank (txt a r0).toList)) (i r : Nat) (hi : order[i]? = some r) (hne : txt a r ≠ "")
    (htrim : trimSpace (txt a r).toList = (txt a r).toList) :
    b.isCat = true ∧ ∃ s c, d.getAttribute b = Res.ok s ∧ d.get s i = Res.ok c ∧ catGetString (env b.ptr) c = Res.ok (txt a r) := by
  have hk := (Q.kinds j b hb).2
  have hf : field (csvTable attrs order txt) 0 j = some (txt a r0) :=
    field_csvTable.2 ⟨r0, a, by rw [← List.head?_eq_getElem?]; exact h0, hj, rfl⟩
  have hcat : b.isCat = true := by
    rw [hk, numericCol, hf]
    have : looksNumeric (txt a r0).toList = false := by
      rw [Bool.eq_false_iff]; intro h; exact hnum ((C107_numbers _).1 h)
    simp [textOps, this]
  obtain ⟨s, c, s1, s2, _, _, s5⟩ := Q.cells i j b (txt a r) hb (field_csvTable.2 ⟨r, a, hi, hj, rfl⟩)
  refine ⟨hcat, s, c, s1, s2, ?_⟩
  have := s5 hne hcat
  rw [this]
  show Res.ok (String.ofList (trimSpace (txt a r).toList)) = _
  rw [htrim, String.ofList_toList]

/-- A column whose first text is a number comes back as a float column, and holds the numbers that its texts are read as. -/
theorem C107_floats (parse : String → Option U64) (attrs : List Attr) (order : List Nat) (txt : Attr → Nat → String) (file : Text)
    (names : List String) (d : Dense) (env : ValEnv) (cols : List Attr) (Q : Parsed (textOps parse file) names (csvTable attrs order txt) d env cols)
    (j r0 : Nat) (a b : Attr) (hj : attrs[j]? = some a) (hb : cols[j]? = some b) (h0 : order.head? = some r0)
    (hnum : IsNumber (trimBlank (txt a r0).toList)) (i r : Nat) (hi : order[i]? = some r) (hne : txt a r ≠ "")
    (htrim : trimSpace (txt a r).toList = (txt a r).toList) (x : U64) (hx : parse (txt a r) = some x) :
    b.isCat = false ∧ b.isBin = false ∧ ∃ s, d.getAttribute b = Res.ok s ∧ d.get s i = Res.ok (packU64 x) := by
  have hk := Q.kinds j b hb
  have hf : field (csvTable attrs order txt) 0 j = some (txt a r0) :=
    field_csvTable.2 ⟨r0, a, by rw [← List.head?_eq_getElem?]; exact h0, hj, rfl⟩
  have hcat : b.isCat = false := by
    rw [hk.2, numericCol, hf]
    have : looksNumeric (txt a r0).toList = true := (C107_numbers _).2 hnum
    simp [textOps, this]
  obtain ⟨s, c, s1, s2, _, s4, _⟩ := Q.cells i j b (txt a r) hb (field_csvTable.2 ⟨r, a, hi, hj, rfl⟩)
  obtain ⟨y, hy, rfl⟩ := s4 hne hcat
  refine ⟨hcat, hk.1, s, s1, ?_⟩
  rw [s2]
  have hy : parse (String.ofList (trimSpace (txt a r).toList)) = some y := hy
  rw [htrim, String.ofList_toList, hx, Option.some.injEq] at hy
  rw [hy]

/-! ## What does not hold, and a case -/

/-- The full claim: whatever table with a row and names is written, if the numbers can be read from their texts, the file is read as a table with the same
names, the same kinds of columns, and the same texts in the categorical ones. -/
def C107_claim : Prop :=
  ∀ (fo : FloatOps) (parse : String → Option U64) (pg : Nat) (fresh : Nat → Nat), (∀ i j, fresh i = fresh j → i = j) →
    ∀ (g : Grid) (n : Nat), g.Presents n → g.typed n → 0 < n → g.allAttributes ≠ [] →
    ∀ (nrm : List Attr), (nrm ++ g.allClassAttributes).Perm g.allAttributes → (g.allAttributes.map Attr.name).Nodup →
    ∀ (order : List Nat), g.RowOrder order → ∀ (txt : Attr → Nat → String),
      (∀ a ∈ g.allAttributes, ∀ r, r < n → a.getString fo (g.cell a r) = Res.ok (txt a r)) →
      (∀ a ∈ g.allAttributes, ∀ r, r < n → a.isCat = false → (parse (txt a r)).isSome = true) →
      ∃ file d env, writeCSV fo id nrm order g = Res.ok file ∧ parseCSVText pg parse id fresh true file = Res.ok (d, env) ∧
        d.allAttributes.map Attr.name = (nrm ++ g.allClassAttributes).map Attr.name ∧
        d.allAttributes.map Attr.isCat = (nrm ++ g.allClassAttributes).map Attr.isCat

namespace CsvExample
open ArffExample

/-- The whole way: from a grid to the file and back; the values of the categorical columns are given too, by column. -/
def csvTrip (g : Grid) (nrm : List Attr) : Res (Dense × ValEnv) :=
  (writeCSV fo0 id nrm (List.range g.size.2) g).bind fun t => parseCSVText 4096 parse0 id id true t

/-- The texts of a column of a grid that was read, with the values of its column. -/
def columnTexts (q : Dense × ValEnv) (j : Nat) : Res (List String) :=
  match q.1.allAttributes[j]? with
  | none => Res.err
  | some a => mapRes (fun r => (q.1.getAttribute a).bind fun s => (q.1.get s r).bind fun c => catGetString (q.2 a.ptr) c) (List.range q.1.maxRow)

def aQ : Attr := ⟨2, .cat "kind, or \"sort\"" ["a tree", "bush, low", "the \"rest\"\nof it"]⟩
def opsQ : List Op :=
  [.add aH, .add aB, .add aQ, .addClass aQ, .extend 3, .set 0 0 (packU64 15), .set 0 1 (packU64 20), .set 0 2 (packU64 15), .set 1 1 [1#8],
    .set 2 0 (packU64 2), .set 2 1 (packU64 1)]
def txtQ (a : Attr) (r : Nat) : String :=
  if a = aH then (if r = 1 then "2.0" else "1.5") else if a = aB then (if r = 1 then "1" else "0")
  else if r = 0 then "the \"rest\"\nof it" else if r = 1 then "bush, low" else "a tree"

/-- The hypotheses are met by a table of a float, a binary and a categorical column, whose name and values have commas, quotes, spaces and a newline. -/
example : ∃ st, run 4096 opsQ = Res.ok st ∧ (Grid.dense st.d).Presents 3 ∧
    (∀ a ∈ [aH, aB] ++ (Grid.dense st.d).allClassAttributes, a ∈ (Grid.dense st.d).allAttributes) ∧
    (Grid.dense st.d).size.1 = ([aH, aB] ++ (Grid.dense st.d).allClassAttributes).length ∧ (Grid.dense st.d).RowOrder [0, 1, 2] ∧
    (∀ a ∈ [aH, aB] ++ (Grid.dense st.d).allClassAttributes, ∀ r, r < 3 → a.getString fo0 ((Grid.dense st.d).cell a r) = Res.ok (txtQ a r)) ∧
    CsvWritable parse0 ([aH, aB] ++ (Grid.dense st.d).allClassAttributes) [0, 1, 2] txtQ := by
  have e : ((run 4096 opsQ).map fun st => decide ((∀ a ∈ [aH, aB, aQ], a ∈ st.d.allAttributes) ∧ st.d.allClassAttributes = [aQ] ∧ st.d.size.1 = 3 ∧
      [0, 1, 2] = List.range st.d.maxRow ∧ (∀ a ∈ [aH, aB, aQ], ∀ r, r < 3 → a.getString fo0 ((Grid.dense st.d).cell a r) = Res.ok (txtQ a r)))) =
      Res.ok true := by decide +kernel
  obtain ⟨st, hst, e⟩ := Res.map_eq_ok.1 e
  rw [decide_eq_true_eq] at e
  obtain ⟨e1, e2, e3, e4, e5⟩ := e
  have e2' : (Grid.dense st.d).allClassAttributes = [aQ] := e2
  have D := denseOK_run (pg := 4096) (ops := opsQ) (by decide) hst (by decide)
  refine ⟨st, hst, D.presents, ?_, ?_, e4, ?_, ?_⟩
  · rw [e2']; exact e1
  · rw [e2']; exact e3
  · rw [e2']; exact e5
  · rw [e2']
    exact
      { rows := by decide
        columns := by decide
        names := by decide +kernel
        nameText := by decide +kernel
        cellText := by decide +kernel
        single := by intro a h; cases h
        numbers := by
          intro a ha r0 h0
          cases h0
          revert a
          decide +kernel
        small := by decide }

/-- The table that is read. The values of the categorical column are in another order now, that of the rows. -/
example : ((run 4096 opsQ).bind fun st => (csvTrip (.dense st.d) [aH, aB]).bind fun q => (columnTexts q 2).map fun ts =>
    (q.1.size, q.1.allAttributes.map Attr.body, ts, q.2 2)) =
    Res.ok ((3, 3), [.float "height" 1, .float "tall" 1, .cat "kind, or \"sort\"" []], ["the \"rest\"\nof it", "bush, low", "a tree"],
      ["the \"rest\"\nof it", "bush, low", "a tree"]) := by decide +kernel

def aP : Attr := ⟨0, .cat "code" ["1.5", "none"]⟩
def aZ : Attr := ⟨0, .cat "note" ["", "yes"]⟩
def aL : Attr := ⟨0, .cat "note" ["first\r\nsecond", "other"]⟩
def aX : Attr := ⟨1, .cat "colour" ["red", "green", "blue"]⟩

end CsvExample

open CsvExample ArffExample

/-- A categorical column whose first text is a number comes back as a column of numbers. -/
theorem C107_number_category : ((run 4096 [.add aP, .addClass aP, .extend 1]).bind fun st => (csvTrip (.dense st.d) []).map fun q =>
    q.1.allAttributes.map Attr.body) = Res.ok [.float "code" 1] := by decide +kernel

/-- If another of its texts is not a number the file cannot be read. -/
theorem C107_number_category_fails : ((run 4096 [.add aP, .addClass aP, .extend 2, .set 0 1 (packU64 1)]).bind fun st =>
    csvTrip (.dense st.d) []).map (fun _ => true) = Res.err := by decide +kernel

/-- In a table of one column the rows with an empty text are lost. -/
theorem C107_empty_rows : ((run 4096 [.add aZ, .addClass aZ, .extend 3, .set 0 1 (packU64 1)]).bind fun st => (csvTrip (.dense st.d) []).map fun q =>
    (st.d.size, q.1.size)) = Res.ok ((1, 3), (1, 1)) := by decide +kernel

/-- In a table of two columns an empty text comes back as the first value of its column that is not empty. -/
theorem C107_empty_text : ((run 4096 [.add aZ, .add aX, .addClass aX, .extend 2, .set 0 1 (packU64 1)]).bind fun st =>
    (csvTrip (.dense st.d) [aZ]).bind fun q => columnTexts q 0) = Res.ok ["yes", "yes"] := by decide +kernel

/-- A carriage return before a newline is lost. -/
theorem C107_carriage_return : ((run 4096 [.add aL, .addClass aL, .extend 1]).bind fun st => (csvTrip (.dense st.d) []).bind fun q =>
    columnTexts q 0) = Res.ok ["first\nsecond"] := by decide +kernel

/-- Instances with the binary filter on a column of three values have two columns more, but their size is that of the instances they are made from: the
last two columns are not written, among them the class. -/
theorem C107_filtered_loses : ((run 4096 [.add aX, .add aC, .addClass aC, .extend 1]).bind fun st =>
    let g := Grid.newFiltered (.dense st.d) (Conv.binary (· + 20) [aX])
    let nrm := g.allAttributes.filter fun a => !g.allClassAttributes.contains a
    (writeCSV fo0 id nrm [0] g).map fun t => (g.allAttributes.map Attr.name, g.allClassAttributes.map Attr.name, String.ofList t)) =
    Res.ok (["colour_red", "colour_green", "colour_blue", "kind"], ["kind"], "colour_red,colour_green\n1,0\n") := by decide +kernel

/-- The full claim does not hold. -/
theorem C107_refuted : ¬ C107_claim := by
  intro H
  have e : ((run 4096 [.add aP, .addClass aP, .extend 1]).map fun st => decide (st.d.allAttributes = [aP] ∧
      st.d.allClassAttributes = [aP] ∧ [0] = List.range st.d.maxRow ∧ (∀ r, r < 1 → aP.getString fo0 ((Grid.dense st.d).cell aP r) = Res.ok "1.5") ∧
      ((writeCSV fo0 id [] [0] (.dense st.d)).bind fun t => (parseCSVText 4096 parse0 id id true t).map fun q => q.1.allAttributes.map Attr.isCat) =
        Res.ok [false])) = Res.ok true := by decide +kernel
  obtain ⟨st, hst, e⟩ := Res.map_eq_ok.1 e
  rw [decide_eq_true_eq] at e
  obtain ⟨e1, e2, e3, e4, e5⟩ := e
  have D := denseOK_run (pg := 4096) (ops := [.add aP, .addClass aP, .extend 1]) (by decide) hst (by decide)
  have e1' : (Grid.dense st.d).allAttributes = [aP] := e1
  have e2' : (Grid.dense st.d).allClassAttributes = [aP] := e2
  obtain ⟨file, d, env, h1, h2, _, h3⟩ := H fo0 parse0 4096 id (fun _ _ h => h) (.dense st.d) 1 D.presents D.typed (by decide) (by rw [e1']; decide) []
    (by rw [e1', e2']; exact List.Perm.refl _) (by rw [e1']; decide) [0] e3 (fun _ _ => "1.5") (by
      rw [e1']
      intro a ha r hr
      rw [List.mem_singleton] at ha
      subst ha
      exact e4 r hr) (by intro _ _ _ _ _; decide)
  rw [h1, Res.bind_ok, h2, Res.map_ok, h3, e2'] at e5
  cases e5

end Golearn
