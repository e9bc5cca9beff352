import Verif.Model.FileText
import Verif.Props.C105
import Verif.Props.C107
import Verif.Props.C141

/-! # C142: writing a table to a path -/

namespace Golearn

/-- The full claim for CSV files: when writing reports success, the text of the table is the content of the file. -/
def C142_csv_full : Prop :=
  ∀ (utf8 : Char → Bytes) (fault : Option Nat) (text : Text) (old : Option Bytes) (content : Bytes),
    csvToFile utf8 fault (Res.ok text) old = Res.ok content → content = text.flatMap utf8

/-- The full claim for ARFF files. -/
def C142_arff_full : Prop :=
  ∀ (utf8 : Char → Bytes) (fault : Nat → Option Nat) (pieces : List Text) (old : Option Bytes) (content : Bytes),
    arffToFile utf8 fault (Res.ok pieces) old = Res.ok content → content = pieces.flatten.flatMap utf8

/-- No table can be written to a path where there is no file. -/
theorem C142_no_file (utf8 : Char → Bytes) (fault : Option Nat) (faults : Nat → Option Nat) (text : Res Text) (pieces : Res (List Text))
    (D : DiskEnv) (entries : Res Archive) :
    csvToFile utf8 fault text none = Res.err ∧ arffToFile utf8 faults pieces none = Res.err ∧ tableToFile D false entries = Res.err :=
  ⟨rfl, rfl, rfl⟩

theorem overwrite_eq {new old : Bytes} : overwrite new old = new ↔ old.length ≤ new.length := by
  unfold overwrite
  constructor
  · intro h
    have := congrArg List.length h
    simp at this
    omega
  · intro h
    rw [List.drop_eq_nil_of_le h, List.append_nil]

/-! ## CSV files -/

/-- On a disk that takes everything, the file has the text of the table exactly if the file was not longer before. -/
theorem C142_csv_exact (utf8 : Char → Bytes) (text : Text) (old : Bytes) :
    csvToFile utf8 none (Res.ok text) (some old) = Res.ok (text.flatMap utf8) ↔ old.length ≤ (text.flatMap utf8).length := by
  rw [← overwrite_eq]
  exact ⟨fun h => Res.ok.inj h, fun h => congrArg Res.ok h⟩

/-- A table that is written to a new or shorter file, and read again, as in C107: the same columns, rows and cells. -/
theorem C142_csv_round_trip_partial (utf8 : Char → Bytes) (decode : Bytes → Text) (hdec : ∀ t : Text, decode (t.flatMap utf8) = t)
    (fo : FloatOps) (parse : String → Option U64) (pg : Nat) (srt srt' : List Spec → List Spec) (fresh : Nat → Nat)
    (hfresh : ∀ i j, fresh i = fresh j → i = j) (g : Grid) (n : Nat) (P : g.Presents n) (nrm : List Attr)
    (hsub : ∀ a ∈ nrm ++ g.allClassAttributes, a ∈ g.allAttributes) (hsize : g.size.1 = (nrm ++ g.allClassAttributes).length)
    (order : List Nat) (ho : g.RowOrder order) (txt : Attr → Nat → String)
    (htxt : ∀ a ∈ nrm ++ g.allClassAttributes, ∀ r, r < n → a.getString fo (g.cell a r) = Res.ok (txt a r))
    (hsrt : ∀ l : List Spec, l.length = g.size.1 → srt l = l) (hsrt' : ∀ l : List Spec, l.length = g.size.1 → srt' l = l)
    (W : CsvWritable parse (nrm ++ g.allClassAttributes) order txt) (old : Bytes)
    (hold : old.length ≤ ((csvFile (nrm ++ g.allClassAttributes) order txt).flatMap utf8).length) :
    ∃ content d env cols, csvToFile utf8 none (writeCSV fo srt nrm order g) (some old) = Res.ok content ∧
      parseCSVText pg parse srt' fresh true (decode content) = Res.ok (d, env) ∧
      Parsed (textOps parse (decode content)) ((nrm ++ g.allClassAttributes).map fun a => String.ofList (trimSpace a.name.toList))
        (csvTable (nrm ++ g.allClassAttributes) order txt) d env cols := by
  obtain ⟨file, d, env, cols, h1, h2, h3⟩ := C107_round_trip_partial fo parse pg srt srt' fresh hfresh g n P nrm hsub hsize order ho txt htxt hsrt
    hsrt' W
  have h4 := C107_writes fo srt g n P nrm hsub hsize order ho txt htxt hsrt
  rw [h1, Res.ok.injEq] at h4
  subst h4
  refine ⟨_, d, env, cols, by rw [h1]; exact (C142_csv_exact utf8 _ old).2 hold, ?_⟩
  rw [hdec]
  exact ⟨h2, h3⟩

/-- Old rows come back. Whatever table is written and whatever rows `stale`: after writing it to a file that has these rows from where the text of the table
ends, the file is read as the rows of the table followed by those rows. -/
theorem C142_csv_stale (utf8 : Char → Bytes) (decode : Bytes → Text) (hdec : ∀ t : Text, decode (t.flatMap utf8) = t)
    (recs stale : List (List Text)) (h : ∀ r ∈ recs ++ stale, r ≠ [] ∧ r ≠ [[]] ∧ ∀ t ∈ r, NoCRLF t) (before : Bytes)
    (hb : before.length = ((csvWrite recs).flatMap utf8).length) :
    ∃ content, csvToFile utf8 none (Res.ok (csvWrite recs)) (some (before ++ (csvWrite stale).flatMap utf8)) = Res.ok content ∧
      csvRead (decode content) = Res.ok (recs ++ stale) := by
  refine ⟨(csvWrite (recs ++ stale)).flatMap utf8, ?_, ?_⟩
  · simp only [csvToFile, Res.map_ok, cutAt, overwrite, Res.ok.injEq]
    rw [← hb, List.drop_left]
    simp [csvWrite]
  · rw [hdec]
    exact C107_records _ h

/-- Success is always reported: whatever part of the text the disk takes, that part is what is written. -/
theorem C142_csv_silent (utf8 : Char → Bytes) (k : Nat) (text : Text) (old : Bytes) :
    csvToFile utf8 (some k) (Res.ok text) (some old) = Res.ok (overwrite ((text.flatMap utf8).take k) old) := rfl

/-- So the full claim does not hold, for two reasons: a file that was longer, and a disk that is full. -/
theorem C142_csv_full_false : ¬ C142_csv_full ∧
    (∃ (utf8 : Char → Bytes) (text : Text) (old content : Bytes), csvToFile utf8 none (Res.ok text) (some old) = Res.ok content ∧
      content ≠ text.flatMap utf8) ∧
    (∃ (utf8 : Char → Bytes) (text : Text) (content : Bytes), csvToFile utf8 (some 0) (Res.ok text) (some []) = Res.ok content ∧
      content ≠ text.flatMap utf8) := by
  have h1 : csvToFile (fun _ => [0#8]) none (Res.ok []) (some [1#8]) = Res.ok [1#8] := rfl
  refine ⟨fun h => ?_, ⟨fun _ => [0#8], [], [1#8], [1#8], h1, by decide⟩, ⟨fun _ => [0#8], ['x'], [], rfl, by decide⟩⟩
  have := h _ _ _ _ _ h1
  exact absurd this (by decide)

/-! ## ARFF files -/

/-- The pieces make up the text of the file. -/
theorem C142_arff_pieces (fo : FloatOps) (srt : List Spec → List Spec) (g : Grid) (n : Nat) (P : g.Presents n) (attrs : List Attr)
    (hsub : ∀ a ∈ attrs, a ∈ g.allAttributes) (order : List Nat) (ho : g.RowOrder order) (relation : String) (txt : Attr → Nat → String)
    (htxt : ∀ a ∈ attrs, ∀ r, r < n → a.getString fo (g.cell a r) = Res.ok (txt a r))
    (hsrt : ∀ l : List Spec, l.length = attrs.length → srt l = l) :
    ∃ header : List Text, (∀ rows : List Nat, header.flatten ++
        unlines (rows.map fun r => joinWith ",".toList (attrs.map fun a => (txt a r).toList)) = unlines (arffLines relation attrs rows txt)) ∧
      arffPieces fo srt order g attrs relation = Res.ok (header ++
        order.flatMap fun r => [joinWith ",".toList (attrs.map fun a => (txt a r).toList), "\n".toList]) := by
  obtain ⟨specs, e1, ms, ws⟩ := resolveUnsorted_attrs P hsub
  have hlen : specs.length = attrs.length := by rw [← ms, List.length_map]
  have hord := P.order order ho
  obtain ⟨i1, i2⟩ := P.iter specs fun s hs => ⟨s.attr, (ws s hs).1, (ws s hs).2⟩
  have hmem : ∀ s ∈ specs, s.attr ∈ attrs := fun s hs => ms ▸ List.mem_map_of_mem hs
  have hlt : ∀ r ∈ order, r < n := fun r hr => List.mem_range.1 (hord.subset hr)
  have hmap := mapOver_all (g.rowVals specs) (fun r => specs.map fun s => g.cell s.attr r) (arffRowPieces fo specs)
    (fun out _ r => out ++ [joinWith ",".toList (attrs.map fun a => (txt a r).toList), "\n".toList]) order (fun r hr => i2 r (hlt r hr)) (by
      intro s r hr
      rw [arffRowPieces, mapRes_text fo g txt r specs (fun s hs => htxt s.attr (hmem s hs) r (hlt r hr)), Res.map_ok]
      rw [← ms, List.map_map, List.map_map]
      rfl) (arffHeaderPieces relation specs)
  have hfold : ∀ (l : List Nat) (t : List Text), l.foldl (fun out r => out ++ [joinWith ",".toList (attrs.map fun a => (txt a r).toList), "\n".toList]) t =
      t ++ l.flatMap fun r => [joinWith ",".toList (attrs.map fun a => (txt a r).toList), "\n".toList] := by
    intro l
    induction l with
    | nil => intro t; simp
    | cons r l ih => intro t; rw [List.foldl_cons, ih]; simp
  refine ⟨arffHeaderPieces relation specs, ?_, ?_⟩
  · intro rows
    have happ : ∀ a b : List Text, unlines (a ++ b) = unlines a ++ unlines b := by intro a b; simp [unlines]
    have hcons : ∀ (a : Text) (b : List Text), unlines (a :: b) = a ++ "\n".toList ++ unlines b := by intro a b; simp [unlines]
    have hattr : (specs.map fun s => "@attribute ".toList ++ s.attr.name.toList ++ " ".toList ++ arffType s.attr ++ "\n".toList).flatten =
        unlines (attrs.map arffAttrLine) := by
      rw [← ms, unlines, List.flatMap_map, List.flatMap_map, ← List.flatMap_def]
      have hh : "@attribute ".toList = "@attribute".toList ++ " ".toList := by decide +kernel
      rw [hh]
      congr 1
    unfold arffHeaderPieces arffLines
    rewrite [hcons, hcons, happ, hcons, hcons, List.cons_append, List.flatten_cons, List.flatten_append, hattr]
    have h1 : "\n\n".toList = "\n".toList ++ "\n".toList := by decide +kernel
    have h2 : "\n@data\n".toList = "\n".toList ++ ("@data".toList ++ "\n".toList) := by decide +kernel
    rewrite [h1, h2]
    simp only [List.append_assoc, List.nil_append, List.flatten_cons, List.flatten_nil, List.append_nil]
  · rw [arffPieces, Grid.resolve, e1, Res.map_ok, Res.bind_ok, hsrt specs hlen, Grid.mapOverRows, i1, Res.bind_ok, hmap, Res.map_ok]
    simp only [hfold]

theorem arff_no_fault (utf8 : Char → Bytes) (ps : List Text) :
    (ps.zipIdx.map fun p => cutAt none (p.1.flatMap utf8)).flatten = ps.flatten.flatMap utf8 := by
  have : (ps.zipIdx.map fun p => cutAt none (p.1.flatMap utf8)) = ps.map fun t => t.flatMap utf8 := by
    simp only [cutAt]
    rw [show (fun p : Text × Nat => p.1.flatMap utf8) = (fun t : Text => t.flatMap utf8) ∘ Prod.fst from rfl, ← List.map_map,
      List.zipIdx_map_fst]
  rw [this]
  clear this
  induction ps with
  | nil => rfl
  | cons p ps ih => rw [List.map_cons, List.flatten_cons, ih, List.flatten_cons, List.flatMap_append]

/-- On a disk that takes everything, the file has the text of the table exactly if the file was not longer before. -/
theorem C142_arff_exact (utf8 : Char → Bytes) (pieces : List Text) (old : Bytes) :
    arffToFile utf8 (fun _ => none) (Res.ok pieces) (some old) = Res.ok (pieces.flatten.flatMap utf8) ↔
      old.length ≤ (pieces.flatten.flatMap utf8).length := by
  rw [← overwrite_eq]
  simp only [arffToFile, Res.map_ok, arff_no_fault, Res.ok.injEq]

/-- A row in the middle can be lost. For every table and each of its rows there are faults of the disk such that success is reported and the file is the file of
the table without this row. -/
theorem C142_arff_row_lost (utf8 : Char → Bytes) (fo : FloatOps) (srt : List Spec → List Spec) (g : Grid) (n : Nat) (P : g.Presents n)
    (attrs : List Attr) (hsub : ∀ a ∈ attrs, a ∈ g.allAttributes) (front back : List Nat) (row : Nat)
    (ho : g.RowOrder (front ++ row :: back)) (relation : String) (txt : Attr → Nat → String)
    (htxt : ∀ a ∈ attrs, ∀ r, r < n → a.getString fo (g.cell a r) = Res.ok (txt a r))
    (hsrt : ∀ l : List Spec, l.length = attrs.length → srt l = l) :
    ∃ fault, arffToFile utf8 fault (arffPieces fo srt (front ++ row :: back) g attrs relation) (some []) =
      Res.ok ((unlines (arffLines relation attrs (front ++ back) txt)).flatMap utf8) := by
  obtain ⟨header, h1, h2⟩ := C142_arff_pieces fo srt g n P attrs hsub _ ho relation txt htxt hsrt
  set line : Nat → Text := fun r => joinWith ",".toList (attrs.map fun a => (txt a r).toList) with hline
  set pre : List Text := header ++ front.flatMap fun r => [line r, "\n".toList] with hpre
  set post : List Text := back.flatMap fun r => [line r, "\n".toList] with hpost
  refine ⟨fun i => if i = pre.length ∨ i = pre.length + 1 then some 0 else none, ?_⟩
  have hps : header ++ (front ++ row :: back).flatMap (fun r => [line r, "\n".toList]) = pre ++ ([line row, "\n".toList] ++ post) := by
    simp [hpre, hpost, List.append_assoc]
  have hun : ∀ l : List Nat, unlines (l.map line) = (l.flatMap fun r => [line r, "\n".toList]).flatten := by
    intro l
    induction l with
    | nil => rfl
    | cons r l ih => simp only [List.map_cons, List.flatMap_cons, List.flatten_append, ← ih]; simp [unlines]
  have hpf : pre.flatten = header.flatten ++ unlines (front.map line) := by rw [hpre, List.flatten_append, hun]
  have hqf : post.flatten = unlines (back.map line) := by rw [hpost, hun]
  have hgoal : header.flatten ++ unlines ((front ++ back).map line) = pre.flatten ++ post.flatten := by
    rw [hpf, hqf, List.map_append, List.append_assoc]
    simp [unlines]
  rw [h2, hps, ← h1, hgoal]
  clear_value pre post
  clear hpf hqf hps hgoal
  simp only [arffToFile, Res.map_ok, Res.ok.injEq, overwrite, List.drop_nil, List.append_nil]
  rw [List.zipIdx_append, List.map_append, List.flatten_append, List.zipIdx_append, List.map_append, List.flatten_append]
  have keep : ∀ (ps : List Text) (k : Nat), (∀ i, i < ps.length → ¬ (k + i = pre.length ∨ k + i = pre.length + 1)) →
      ((ps.zipIdx k).map fun p => cutAt (if p.2 = pre.length ∨ p.2 = pre.length + 1 then some 0 else none) (p.1.flatMap utf8)).flatten =
        ps.flatten.flatMap utf8 := by
    intro ps
    induction ps with
    | nil => intro k _; rfl
    | cons p ps ih =>
      intro k hk
      rw [List.zipIdx_cons, List.map_cons, List.flatten_cons, ih (k + 1) fun i hi => by
        have := hk (i + 1) (by simpa using hi)
        rwa [Nat.add_right_comm, Nat.add_assoc], if_neg (by simpa using hk 0 (by simp))]
      simp [cutAt]
  rw [keep pre 0 fun i hi => by omega, keep post _ fun i hi => by simp; omega]
  simp only [List.zipIdx_cons, List.zipIdx_nil, List.map_cons, List.map_nil, Nat.zero_add, true_or, or_true, if_true, cutAt, List.take_zero,
    List.flatten_cons, List.flatten_nil, List.append_nil, List.nil_append]
  rw [List.flatMap_append]

/-- So the full claim does not hold. -/
theorem C142_arff_full_false : ¬ C142_arff_full := by
  intro h
  have := h (fun _ => [0#8]) (fun _ => none) [] (some [1#8]) [1#8] rfl
  exact absurd this (by decide)

/-! ## Binary files -/

/-- When success is reported all entries are in the file, so that reading it is reading the table. -/
theorem C142_table (D : DiskEnv) (srt : List Spec → List Spec) (nilVals : Bool) (cls nrm : List Attr) (order : List Nat) (g : Grid)
    (content : Archive) (h : tableToFile D true (serializeInstances srt nilVals cls nrm order g "") = Res.ok content) :
    serializeInstances srt nilVals cls nrm order g "" = Res.ok content := by
  rw [tableToFile, if_pos rfl] at h
  obtain ⟨es, h1, h2⟩ := Res.bind_eq_ok.1 h
  dsimp only at h2
  split at h2
  · rename_i h3
    rw [h1, ← h2, C141_returned D _ h3, List.map_map]
    exact congrArg Res.ok (List.map_id' es).symm
  · cases h2

section Examples
open CsvExample ArffExample

private def ascii (c : Char) : Bytes := [BitVec.ofNat 8 c.toNat]
private def unascii (b : Bytes) : Text := b.map fun x => Char.ofNat x.toNat

/-- A table of one row is written to a file that has a table of three rows: it is read as a table of three rows. -/
example : ((run 4096 [.add aX, .addClass aX, .extend 1, .set 0 0 (packU64 1)]).bind fun st =>
    (csvToFile ascii none (writeCSV fo0 id [] [0] (.dense st.d)) (some ("colour\ngreen\nred\nblue\n".toList.flatMap ascii))).bind fun b =>
      (parseCSVText 4096 parse0 id id true (unascii b)).bind fun q => (columnTexts q 0).map fun ts =>
        (st.d.size, String.ofList (unascii b), q.1.size, ts)) =
    Res.ok ((1, 1), "colour\ngreen\nred\nblue\n", (1, 3), ["green", "red", "blue"]) := by decide +kernel

/-- The hypotheses of `C142_csv_stale` with the same names. -/
example : ∀ r ∈ ([["colour", "size"], ["red", "1,5"]] ++ [["blue", "\"x\""]] : List (List String)).map (fun r => r.map String.toList),
    r ≠ [] ∧ r ≠ [[]] ∧ ∀ t ∈ r, NoCRLF t := by decide +kernel

/-- The second of three rows is lost. -/
example : ((run 4096 [.add aX, .addClass aX, .extend 3, .set 0 0 (packU64 1), .set 0 2 (packU64 2)]).bind fun st =>
    (arffToFile ascii (fun i => if i = 5 ∨ i = 6 then some 0 else none) (arffPieces fo0 id [0, 1, 2] (.dense st.d) [aX] "r") (some [])).map fun b =>
      String.ofList (unascii b)) =
    Res.ok "@relation r\n\n@attribute colour {red, green, blue}\n\n@data\ngreen\nblue\n" := by decide +kernel

/-- Binary files: a disk that works, and one that fails. -/
example : ((run 4096 [.add aX, .addClass aX, .extend 1]).map fun st =>
    let es := serializeInstances id true [aX] [] [0] (.dense st.d) ""
    ((tableToFile ⟨fun _ => none, fun _ => false, true⟩ true es).isOk, (tableToFile (failsAt 0) true es).isOk)) = Res.ok (true, false) := by
  decide +kernel
end Examples

end Golearn
