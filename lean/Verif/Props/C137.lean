import Verif.Spec.CsvLoad
import Verif.Proofs.Current
import Verif.Props.C01
import Verif.Props.C34
import Verif.Props.C123
import Verif.Props.C125
import Verif.Props.C136
import Verif.Props.C138

/-! # C137: classifiers measured on a CSV file -/

namespace Golearn

theorem numericCol_iff {parse : String → Option U64} {text : Text} {rows : List (List String)} {j : Nat} :
    numericCol (textOps parse text) rows j = true ↔ NumberColumn rows j := by
  unfold numericCol NumberColumn
  cases h : field rows 0 j with
  | none => simp
  | some v => simp [textOps]

/-- A file of training data is loaded as the table it is, with everything that is known of tables. -/
theorem file_loaded {parse : String → Option U64} {text : Text} {header : Option (List String)} {rows : List (List String)} {m : Nat}
    (F : DataFile parse text header rows m) (pg : Nat) {fresh : Nat → Nat} (hfresh : ∀ i j, fresh i = fresh j → i = j)
    {srt : List Spec → List Spec} (hsrt : ∀ l : List Spec, l.length = m → srt l = l) :
    ∃ d cols, loadCSV pg parse srt fresh header.isSome text = Res.ok d ∧ Loaded parse (columnNames header m) rows m d cols ∧
      DenseOK rows.length d := by
  have hm := F.columns
  obtain ⟨d, env, cols, e, Q, D, hcls⟩ := csv_parsed pg (textOps parse text) srt fresh header rows m F.lines (by omega) F.fields F.names (by
    intro i j v hn hv _
    exact F.numbers i j v (numericCol_iff.1 hn) hv) F.small hfresh hsrt
  have hnames : csvColNames (textOps parse text) header m = columnNames header m := by
    cases header <;> rfl
  rw [hnames] at Q
  have hlen : (columnNames header m).length = m := by
    cases header with
    | none => simp [columnNames]
    | some h => simpa [columnNames] using (F.names h rfl).1
  have hnd : (columnNames header m).Nodup := by
    cases header with
    | none => exact List.nodup_range.map (fun a b => repr_inj)
    | some h => exact (F.names h rfl).2
  have hndA : (d.allAttributes.map Attr.name).Nodup := by
    rw [(Q.attrs.map Attr.name).nodup_iff, Q.named]
    exact hnd
  have hmm : ∀ l : List (List String), (l.map fun r => r.map String.toList).map (fun r => r.map String.ofList) = l := by
    intro l
    rw [List.map_map]
    conv_rhs => rw [← List.map_id l]
    refine List.map_congr_left fun r _ => ?_
    simp [Function.comp_def]
  have hcell : ∀ i j a v, cols[j]? = some a → field rows i j = some v →
      (a.isCat = false → ∃ b, parse (trimmed v) = some b ∧ (Grid.dense (d.current env)).cell (a.current env) i = packU64 b) ∧
      (a.isCat = true → catGetString (env a.ptr) ((Grid.dense (d.current env)).cell (a.current env) i) = Res.ok (trimmed v)) := by
    intro i j a v ha hv
    have hmem : a ∈ d.allAttributes := Q.attrs.symm.subset (List.mem_of_getElem? ha)
    obtain ⟨s, c, h1, h2, _, h4, h5⟩ := Q.cells i j a v ha hv
    have hc : (Grid.dense (d.current env)).cell (a.current env) i = c := by
      rw [current_cell env hndA hmem]
      unfold Grid.cell
      show (match d.getAttribute a with | .ok s => (match d.get s i with | .ok v => v | _ => []) | _ => []) = c
      rw [h1]
      simp only [h2]
    rw [hc]
    exact ⟨h4 (F.filled i j v hv), h5 (F.filled i j v hv)⟩
  refine ⟨d.current env, cols.map (Attr.current env), ?_, ?_, D.current hndA env⟩
  · unfold loadCSV parseCSVText
    rw [F.reads, Res.bind_ok, hmm]
    have : parseCSVToInstances pg (textOps parse text) srt fresh header.isSome (header.toList ++ rows) = Res.ok (d, env) := e
    rw [this]
    rfl
  · refine ⟨?_, ?_, ?_, ?_, ?_, ?_⟩
    · have := Q.size
      rw [hlen] at this
      rw [← this, Dense.size, Dense.size, current_allAttributes, List.length_map]
      rfl
    · rw [current_allAttributes]
      exact Q.attrs.map _
    · rw [List.map_map, ← Q.named]
      exact List.map_congr_left fun a _ => current_name env a
    · intro j a' ha' hn
      rw [List.getElem?_map, Option.map_eq_some_iff] at ha'
      obtain ⟨a, ha, rfl⟩ := ha'
      obtain ⟨k1, k2⟩ := Q.kinds j a ha
      rw [numericCol_iff.2 hn] at k2
      refine ⟨?_, fun i v hv => (hcell i j a v ha hv).1 k2⟩
      rw [current_isFloat]
      obtain ⟨p, b⟩ := a
      cases b <;> simp_all [Attr.isBin, Attr.isCat, Attr.isFloat]
    · intro j a' ha' hn
      rw [List.getElem?_map, Option.map_eq_some_iff] at ha'
      obtain ⟨a, ha, rfl⟩ := ha'
      obtain ⟨k1, k2⟩ := Q.kinds j a ha
      have hf : numericCol (textOps parse text) rows j = false := by
        rw [← Bool.not_eq_true, numericCol_iff]; exact hn
      rw [hf] at k2
      obtain ⟨v1, v2⟩ := Q.values j a ha k2
      have k2' := k2
      obtain ⟨p, b⟩ := a
      cases b with
      | float _ _ => simp [Attr.isCat] at k2
      | bin _ => simp [Attr.isCat] at k2
      | cat nm vs =>
        refine ⟨p, nm, env p, rfl, v1, ?_, fun i v hv => (hcell i j _ v ha hv).2 k2'⟩
        intro x
        rw [v2 x]
        exact ⟨fun ⟨i, v, a1, _, a3⟩ => ⟨i, v, a1, a3⟩, fun ⟨i, v, a1, a3⟩ => ⟨i, v, a1, F.filled i j v a1, a3⟩⟩
    · intro a' ha'
      rw [List.getLast?_map, Option.map_eq_some_iff] at ha'
      obtain ⟨a, ha, rfl⟩ := ha'
      rw [current_allClassAttributes, hcls a ha]
      rfl

theorem field_some {rows : List (List String)} {m : Nat} (h : ∀ r ∈ rows, r.length = m) {i j : Nat} (hi : i < rows.length) (hj : j < m) :
    ∃ v, field rows i j = some v := by
  have hr := h _ (List.getElem_mem hi)
  exact ⟨rows[i][j], by simp [field, hi, hr, hj]⟩

/-- A file that has been loaded is training data, with the last fields as labels. -/
theorem loaded_data {parse : String → Option U64} {text : Text} {header : Option (List String)} {rows : List (List String)} {m : Nat}
    (F : DataFile parse text header rows m) {d : Dense} {cols : List Attr} (L : Loaded parse (columnNames header m) rows m d cols)
    (D : DenseOK rows.length d) (fo : FloatOps) (S : U64 → Prop)
    (hS : ∀ i j v b, NumberColumn rows j → field rows i j = some v → parse (trimmed v) = some b → S b) :
    ∃ p nm vs, cols.getLast? = some ⟨p, .cat nm vs⟩ ∧ TreeData fo (.dense d) rows.length (lineLabel rows m) ⟨p, .cat nm vs⟩ ∧
      (Grid.dense d).FloatsIn rows.length S ∧ vs.length + rows.length ≤ 2 ^ 64 := by
  have hm := F.columns
  have hlen : cols.length = m := by
    have := congrArg Prod.fst L.size
    simp only [Dense.size] at this
    rw [← this, L.attrs.length_eq]
  have hl : cols[m - 1]? = some cols[m - 1] := List.getElem?_eq_getElem (by omega)
  have hlast : cols.getLast? = some (cols[m - 1]) := by
    rw [List.getLast?_eq_getElem?, ← hl]
    congr 1
    omega
  obtain ⟨p, nm, vs, e1, e2, e3, e4⟩ := L.textual (m - 1) _ hl F.classes
  rw [e1] at hlast hl e4
  have hn : 0 < rows.length := List.length_pos_iff.2 F.lines
  have hcol : ∀ a ∈ d.allAttributes, ∃ j, j < m ∧ cols[j]? = some a := by
    intro a ha
    obtain ⟨j, hj⟩ := List.getElem?_of_mem (L.attrs.subset ha)
    exact ⟨j, hlen ▸ (List.getElem?_eq_some_iff.1 hj).1, hj⟩
  refine ⟨p, nm, vs, hlast, ⟨D.presents, D.1, D.typed, ?_, hn, ?_, ?_, L.cls _ hlast, ?_, ?_⟩, ?_, ?_⟩
  · intro a ha i hi
    obtain ⟨j, hj, hc⟩ := hcol a ha
    obtain ⟨v, hv⟩ := field_some F.fields hi hj
    by_cases hnum : NumberColumn rows j
    · obtain ⟨f1, f2⟩ := L.numeric j a hc hnum
      obtain ⟨b, _, hb⟩ := f2 i v hv
      obtain ⟨q, x⟩ := a
      cases x with
      | float nm pr => exact ⟨fo.fmt pr b, by rw [hb, Attr.getString]; simp [unpackFloatBits, C01_unpack_pack]⟩
      | cat _ _ => simp [Attr.isFloat] at f1
      | bin _ => simp [Attr.isFloat] at f1
    · obtain ⟨q, nm', vs', rfl, _, _, f4⟩ := L.textual j a hc hnum
      exact ⟨_, f4 i v hv⟩
  · rfl
  · show 2 ≤ d.allAttributes.length
    rw [L.attrs.length_eq, hlen]
    exact hm
  · exact L.attrs.symm.subset (List.mem_of_getElem? hl)
  · intro i hi
    obtain ⟨v, hv⟩ := field_some (j := m - 1) F.fields hi (by omega)
    show catGetString vs _ = _
    rw [e4 i v hv, lineLabel, hv]
    rfl
  · intro a ha hf i hi
    obtain ⟨j, hj, hc⟩ := hcol a ha
    obtain ⟨v, hv⟩ := field_some F.fields hi hj
    by_cases hnum : NumberColumn rows j
    · obtain ⟨b, hb1, hb2⟩ := (L.numeric j a hc hnum).2 i v hv
      exact ⟨b, by rw [hb2]; simp [unpackFloatBits, C01_unpack_pack], hS i j v b hnum hv hb1⟩
    · obtain ⟨q, nm', vs', rfl, _⟩ := L.textual j a hc hnum
      simp [Attr.isFloat] at hf
  · have hsub : vs.length ≤ rows.length := by
      have : vs ⊆ (List.range rows.length).map fun i => trimmed ((field rows i (m - 1)).getD "") := by
        intro x hx
        obtain ⟨i, v, h1, rfl⟩ := (e3 x).1 hx
        refine List.mem_map.2 ⟨i, List.mem_range.2 ?_, by rw [h1]; rfl⟩
        by_contra h
        rw [field, List.getElem?_eq_none (by omega)] at h1
        simp at h1
      simpa using (e2.subperm this).length_le
    have h1 : rows.length * 2 ≤ rows.length * m := Nat.mul_le_mul_left _ hm
    have := F.small
    omega

/-- Loading a file of training data succeeds, with a table that says what the file says: the columns in the file, with their names,
as many rows as lines, and in every cell what the field says. -/
theorem C137_loaded (parse : String → Option U64) (text : Text) (header : Option (List String)) (rows : List (List String)) (m : Nat)
    (F : DataFile parse text header rows m) (pg : Nat) (fresh : Nat → Nat) (hfresh : ∀ i j, fresh i = fresh j → i = j)
    (srt : List Spec → List Spec) (hsrt : ∀ l : List Spec, l.length = m → srt l = l) :
    ∃ d cols, loadCSV pg parse srt fresh header.isSome text = Res.ok d ∧ Loaded parse (columnNames header m) rows m d cols := by
  obtain ⟨d, cols, h1, h2, _⟩ := file_loaded F pg hfresh hsrt
  exact ⟨d, cols, h1, h2⟩

/-- A file of training data is loaded and an ID3 tree with information gain, gain ratio or Gini, without pruning, is
cross-validated on it, with comparisons and thresholds of `float64` and entropies rounded in any way: for every assignment of lines to folds that leaves a line outside each fold there is one
matrix for each fold, which counts exactly the lines of the fold, with the label in the file and the label given to them. For each
fold there is one tree, built from the lines outside the fold only, and the label of each line of the fold is the one this tree
gives it. The numbers in the file are finite. -/
theorem C137_id3 (parse : String → Option U64) (text : Text) (header : Option (List String)) (rows : List (List String)) (m : Nat)
    (F : DataFile parse text header rows m) (pg : Nat) (fresh : Nat → Nat) (hfresh : ∀ i j, fresh i = fresh j → i = j)
    (srt : List Spec → List Spec) (hsrt : ∀ l : List Spec, l.length = m → srt l = l)
    (hfin : ∀ i j v b, NumberColumn rows j → field rows i j = some v → parse (trimmed v) = some b → finite64 b = true)
    (fo : FloatOps) (e : Grid → Id3Env) (E : ∀ v, MachineTree fo (e v).tree) (p : Grid → PredEnv)
    (Ep : ∀ v, (p v).Ok ∧ (p v).fo = fo)
    (srt' : List Spec → List Spec) (hsrt' : ∀ l, (srt' l).Perm l) (draw : Nat → Nat) (folds : Nat)
    (hdraw : ∀ i, i < rows.length → draw i < folds) (hk : ∀ f, f < folds → ∃ q, q < rows.length ∧ draw q ≠ f) (pct : Int)
    (old : Option Tree) :
    ∃ d cols cls ms, ∃ (c : Nat → String) (t : Nat → Tree), loadCSV pg parse srt fresh header.isSome text = Res.ok d ∧
      Loaded parse (columnNames header m) rows m d cols ∧ cols.getLast? = some cls ∧
      crossValidate fo srt' (id3Ops e false pct p) old (.dense d) draw folds = Res.ok ms ∧ ms.length = folds ∧
      (∀ f (h : f < ms.length), Counts ms[f]
        (((List.range rows.length).filter fun q => decide (draw q = f)).map fun q => (lineLabel rows m q, c q))) ∧
      (∀ f, f < folds → (t f).BuiltFrom fo (.dense d) cls (lineLabel rows m)
        ((List.range rows.length).filter fun q => decide (draw q ≠ f))) ∧
      ∀ q, q < rows.length → (t (draw q)).Leads ((Grid.dense d).branch fo) q (c q) := by
  obtain ⟨d, cols, h1, L, D⟩ := file_loaded F pg hfresh hsrt
  obtain ⟨q, nm, vs, l1, T, l3, l4⟩ := loaded_data F L D fo (fun u => finite64 u = true) hfin
  obtain ⟨ms, c, t, h⟩ := C125_id3 fo _ e (fun v => (E v).ok) p Ep (.dense d) rows.length (lineLabel rows m) q nm vs T
    l3 l4 srt' hsrt' draw folds hdraw hk pct old
  exact ⟨d, cols, _, ms, c, t, h1, L, l1, h⟩

/-- A tree grown from the whole file describes it: the class of each node is a most frequent label among the lines that reach it,
and a node has branches only if these differ, one for each value that occurs. -/
theorem C137_fits (parse : String → Option U64) (text : Text) (header : Option (List String)) (rows : List (List String)) (m : Nat)
    (F : DataFile parse text header rows m) (pg : Nat) (fresh : Nat → Nat) (hfresh : ∀ i j, fresh i = fresh j → i = j)
    (srt : List Spec → List Spec) (hsrt : ∀ l : List Spec, l.length = m → srt l = l)
    (hfin : ∀ i j v b, NumberColumn rows j → field rows i j = some v → parse (trimmed v) = some b → finite64 b = true)
    (fo : FloatOps) (e : TreeEnv) (E : MachineTree fo e) :
    ∃ d cols t, loadCSV pg parse srt fresh header.isSome text = Res.ok d ∧ Loaded parse (columnNames header m) rows m d cols ∧
      inferID3 e (.dense d) = Res.ok t ∧ t.Fits ((Grid.dense d).branch fo) (lineLabel rows m) (List.range rows.length) := by
  obtain ⟨d, cols, h1, L, D⟩ := file_loaded F pg hfresh hsrt
  obtain ⟨q, nm, vs, l1, T, l3, l4⟩ := loaded_data F L D fo (fun u => finite64 u = true) hfin
  obtain ⟨E1, E2⟩ := E.ok
  obtain ⟨t, t1, t2, _⟩ := C48_fits e _ E1 (.dense d) _ _ _ (E2 ▸ T) l3
  exact ⟨d, cols, t, h1, L, t1, E2 ▸ t2⟩

section
variable {R : Type} [Field R] [LinearOrder R]

/-- The numbers on line `i` in the columns `js`. -/
def lineNumbers (parse : String → Option U64) (val : U64 → R) (rows : List (List String)) (js : List Nat) (i : Nat) : List R :=
  js.map fun j => ((parse (trimmed ((field rows i j).getD ""))).map val).getD 0

/-- The label `c` has a majority among `k` lines of `known` that are nearest to line `r`, by all columns of numbers. -/
def NearestLines (parse : String → Option U64) (val : U64 → R) (dist : List R → List R → R) (rows : List (List String)) (m k : Nat)
    (known : List Nat) (r : Nat) (c : String) : Prop :=
  ∃ js near, js.Nodup ∧ (∀ j, j ∈ js ↔ j < m ∧ NumberColumn rows j) ∧
    KNearest dist (lineNumbers parse val rows js) known r k near ∧ Majority (near.map (lineLabel rows m)) c

theorem nearest_lines {parse : String → Option U64} {text : Text} {header : Option (List String)} {rows : List (List String)} {m : Nat}
    (F : DataFile parse text header rows m) {d : Dense} {cols : List Attr} (L : Loaded parse (columnNames header m) rows m d cols)
    (hnd : cols.Nodup) {val : U64 → R} {dist : List R → List R → R} {k : Nat} {known : List Nat} {r : Nat} {c : String}
    (hk : ∀ q ∈ known, q < rows.length) (hr : r < rows.length)
    (h : NearestLabel val dist (.dense d) (lineLabel rows m) k known r c) : NearestLines parse val dist rows m k known r c := by
  obtain ⟨fs, near, h1, h2, h3⟩ := h
  have hlen : cols.length = m := by
    have := congrArg Prod.fst L.size
    simp only [Dense.size] at this
    rw [← this, L.attrs.length_eq]
  have hfs : ∀ a, a ∈ fs ↔ a ∈ cols ∧ a.isFloat = true := by
    intro a
    rw [h1.mem_iff, List.mem_filter]
    exact and_congr_left fun _ => L.attrs.mem_iff
  have hnum : ∀ j a, cols[j]? = some a → (a.isFloat = true ↔ NumberColumn rows j) := by
    intro j a ha
    constructor
    · intro hf
      by_contra hn
      obtain ⟨_, _, _, rfl, _⟩ := L.textual j a ha hn
      simp [Attr.isFloat] at hf
    · exact fun hn => (L.numeric j a ha hn).1
  have hfnd : fs.Nodup := h1.nodup_iff.2 ((L.attrs.nodup_iff.2 hnd).filter _)
  have hidx : ∀ a ∈ fs, cols[cols.idxOf a]? = some a := by
    intro a ha
    have := List.idxOf_lt_length_of_mem ((hfs a).1 ha).1
    rw [List.getElem?_eq_getElem this, List.getElem_idxOf]
  have hpt : ∀ i, i < rows.length → (Grid.dense d).point val fs i = lineNumbers parse val rows (fs.map cols.idxOf) i := by
    intro i hi
    unfold Grid.point lineNumbers
    rw [List.map_map]
    refine List.map_congr_left fun a ha => ?_
    have hc := hidx a ha
    have hj : cols.idxOf a < m := hlen ▸ (List.getElem?_eq_some_iff.1 hc).1
    obtain ⟨v, hv⟩ := field_some F.fields hi hj
    obtain ⟨b, b1, b2⟩ := (L.numeric _ a hc ((hnum _ a hc).1 ((hfs a).1 ha).2)).2 i v hv
    simp only [Function.comp_apply, hv, Option.getD_some, b1, Option.map_some]
    unfold Grid.number
    rw [b2]
    simp [unpackFloatBits, C01_unpack_pack]
  refine ⟨fs.map cols.idxOf, near, ?_, ?_, ⟨h2.length, h2.distinct, h2.within, ?_⟩, h3⟩
  · refine hfnd.map_on fun a ha b hb e => ?_
    have h1 := hidx a ha
    rw [e, hidx b hb] at h1
    exact (Option.some.inj h1).symm
  · intro j
    rw [List.mem_map]
    constructor
    · rintro ⟨a, ha, rfl⟩
      have hc := hidx a ha
      exact ⟨hlen ▸ (List.getElem?_eq_some_iff.1 hc).1, (hnum _ a hc).1 ((hfs a).1 ha).2⟩
    · rintro ⟨hj, hn⟩
      have hc : cols[j]? = some cols[j] := List.getElem?_eq_getElem (by omega)
      exact ⟨cols[j], (hfs _).2 ⟨List.getElem_mem _, (hnum _ _ hc).2 hn⟩, hnd.idxOf_getElem j (by omega)⟩
  · intro q hq q' hq' hn
    rw [← hpt r hr, ← hpt q (hk q (h2.within q hq)), ← hpt q' (hk q' hq')]
    exact h2.closest q hq q' hq' hn

/-- A file of training data is loaded and a k-nearest-neighbours classifier is cross-validated on it: for every assignment of lines
to folds that leaves at least `k` lines outside each fold there is one matrix for each fold, which counts exactly the lines of the
fold, with the label in the file and the label given to them; and the label given to a line has a majority among `k` lines that are
nearest to it among those outside its fold, by the numbers in the file. -/
theorem C137_knn (parse : String → Option U64) (text : Text) (header : Option (List String)) (rows : List (List String)) (m : Nat)
    (F : DataFile parse text header rows m) (pg : Nat) (fresh : Nat → Nat) (hfresh : ∀ i j, fresh i = fresh j → i = j)
    (srt : List Spec → List Spec) (hsrt : ∀ l : List Spec, l.length = m → srt l = l) (fo : FloatOps) (val : U64 → R)
    (e : Grid → Grid → KnnEnv R) (ch : Grid → Grid → KnnChoices R) (E : KnnChoicesOk fo val e ch) (M : KnnMetrics R)
    (dist : List R → List R → R) (k : Nat) (hk0 : 0 < k) (model : KnnModel) (hm : KnnSettings M dist k model)
    (srt' : List Spec → List Spec) (hsrt' : ∀ l, (srt' l).Perm l) (draw : Nat → Nat) (folds : Nat)
    (hdraw : ∀ i, i < rows.length → draw i < folds)
    (hk : ∀ f, f < folds → k ≤ (List.range rows.length).countP fun r => decide (draw r ≠ f)) :
    ∃ d ms, ∃ c : Nat → String, loadCSV pg parse srt fresh header.isSome text = Res.ok d ∧
      crossValidate fo srt' (knnOps M e ch) model (.dense d) draw folds = Res.ok ms ∧ ms.length = folds ∧
      (∀ f (h : f < ms.length), Counts ms[f]
        (((List.range rows.length).filter fun q => decide (draw q = f)).map fun q => (lineLabel rows m q, c q))) ∧
      ∀ r, r < rows.length → NearestLines parse val dist rows m k
        ((List.range rows.length).filter fun q => decide (draw q ≠ draw r)) r (c r) := by
  obtain ⟨d, cols, h1, L, D⟩ := file_loaded F pg hfresh hsrt
  obtain ⟨q, nm, vs, l1, T, l3, l4⟩ := loaded_data F L D fo (fun _ => True) fun _ _ _ _ _ _ _ => trivial
  obtain ⟨ms, c, g1, g2, g3, g4⟩ := C123_cross_validation fo val e ch E M dist k hk0 (.dense d) rows.length T.rows T.distinct T.typed q nm vs
    T.classAttr T.classIn _ T.label l4 model hm srt' hsrt' draw folds hdraw hk
  have hnd : cols.Nodup := by
    have := D.1
    rw [← L.attrs.nodup_iff]
    refine this.imp ?_
    rintro a b hab rfl
    rw [current_equals_refl] at hab
    cases hab
  refine ⟨d, ms, c, h1, g1, g2, g3, fun r hr => nearest_lines F L hnd ?_ hr (g4 r hr)⟩
  intro q hq
  exact List.mem_range.1 (List.mem_filter.1 hq).1

end

section Witness

/-- What is to be checked of a file. -/
def dataFileCheck (parse : String → Option U64) (text : Text) (header : Option (List String)) (rows : List (List String)) (m : Nat) : Bool :=
  decide (csvRead text = Res.ok ((header.toList ++ rows).map fun r => r.map String.toList)) && !rows.isEmpty && decide (2 ≤ m) &&
    (rows.all fun r => r.length == m) && (header.all fun h => h.length == m && decide (h.map trimmed).Nodup) &&
    (rows.all fun r => r.all fun v => v != "") &&
    ((List.range m).all fun j => !numericCol (textOps parse []) rows j ||
      rows.all fun r => match r[j]? with | some v => (parse (trimmed v)).isSome | none => true) &&
    !numericCol (textOps parse []) rows (m - 1) && decide (rows.length * m < 2 ^ 64)

theorem dataFile_check {parse : String → Option U64} {text : Text} {header : Option (List String)} {rows : List (List String)} {m : Nat}
    (h : dataFileCheck parse text header rows m = true) : DataFile parse text header rows m := by
  unfold dataFileCheck at h
  simp only [Bool.and_eq_true, decide_eq_true_eq] at h
  obtain ⟨⟨⟨⟨⟨⟨⟨⟨h1, h2⟩, h3⟩, h4⟩, h5⟩, h6⟩, h7⟩, h8⟩, h9⟩ := h
  have hfields : ∀ r ∈ rows, r.length = m := fun r hr => by simpa using List.all_eq_true.1 h4 r hr
  have hfield : ∀ i j v, field rows i j = some v → ∃ r ∈ rows, r[j]? = some v := by
    intro i j v hv
    unfold field at hv
    rw [Option.bind_eq_some_iff] at hv
    obtain ⟨r, hr, hv⟩ := hv
    exact ⟨r, List.mem_of_getElem? hr, hv⟩
  refine ⟨h1, by simpa using h2, h3, hfields, ?_, ?_, ?_, ?_, h9⟩
  · rintro h rfl
    simpa using h5
  · intro i j v hv
    obtain ⟨r, hr, hv⟩ := hfield i j v hv
    simpa using List.all_eq_true.1 (List.all_eq_true.1 h6 r hr) v (List.mem_of_getElem? hv)
  · intro i j v hn hv
    obtain ⟨r, hr, hv⟩ := hfield i j v hv
    have hj : j < m := hfields r hr ▸ (List.getElem?_eq_some_iff.1 hv).1
    have := List.all_eq_true.1 h7 j (List.mem_range.2 hj)
    rw [numericCol_iff.2 hn, Bool.not_true, Bool.false_or] at this
    have := List.all_eq_true.1 this r hr
    rw [hv] at this
    exact this
  · rw [← numericCol_iff (parse := parse) (text := []), Bool.not_eq_true]
    simpa using h8

private def text0 : Text := "x, colour ,class\n1,red,a\n2,\"dark, red\", b\n4,red,b\n1,red,a\n".toList
private def rows0 : List (List String) := [["1", "red", "a"], ["2", "dark, red", " b"], ["4", "red", "b"], ["1", "red", "a"]]
private def parse0 (s : String) : Option U64 := if s = "1" then some ex1 else if s = "2" then some ex2 else if s = "4" then some ex4 else none

private theorem file0 : DataFile parse0 text0 (some ["x", " colour ", "class"]) rows0 3 := dataFile_check (by decide +kernel)

private theorem numbers0 : ∀ i j v b, NumberColumn rows0 j → field rows0 i j = some v → parse0 (trimmed v) = some b →
    finite64 b = true := by
  intro i j v b _ _ h
  unfold parse0 at h
  split at h
  · rw [← Option.some.inj h]; exact ex1_val.1
  · split at h
    · rw [← Option.some.inj h]; exact ex2_val.1
    · split at h
      · rw [← Option.some.inj h]; exact ex4_val.1
      · cases h

private def pred0 : PredEnv := ⟨⟨fun _ _ => "", gt64⟩, fun _ => none, 4096, id, id, someOrder, fun _ l => l⟩

/-- The hypotheses of `C137_loaded`, `C137_fits` and `C137_id3` hold for a file of a header and four lines, one of its fields quoted, some
with space around them, two folds, and entropies rounded to thousandths. -/
theorem C137_witness : DataFile parse0 text0 (some ["x", " colour ", "class"]) rows0 3 ∧
    (∀ i j v b, NumberColumn rows0 j → field rows0 i j = some v → parse0 (trimmed v) = some b → finite64 b = true) ∧
    MachineTree roughEnv.fo roughTree ∧ pred0.Ok ∧ pred0.fo = roughEnv.fo ∧ ∀ f, f < 2 → ∃ q, q < rows0.length ∧ q % 2 ≠ f :=
  ⟨file0, numbers0, roughTree_machine,
    ⟨fun _ => List.Perm.refl _, fun _ => List.Perm.refl _, someOrder_rowOrder, fun _ _ => List.Perm.refl _⟩, rfl,
    fun f hf => ⟨1 - f, by show 1 - f < 4; omega, by omega⟩⟩

/-- What is loaded from that file. -/
example : (loadCSV 4096 parse0 id id true text0).map (fun d => (d.allAttributes, d.allClassAttributes, d.maxRow)) =
    Res.ok ([⟨0, .float "x" 0⟩, ⟨1, .cat "colour" ["red", "dark, red"]⟩, ⟨2, .cat "class" ["a", "b"]⟩],
      [⟨2, .cat "class" ["a", "b"]⟩], 4) := by decide +kernel

private def kval0 (u : U64) : Rat := if u = ex1 then 1 else if u = ex2 then 2 else 4
private def fo0 : FloatOps := ⟨fun _ _ => "", fun u v => v.toNat < u.toNat⟩
private def kenv0 (g v : Grid) : KnnEnv Rat :=
  ⟨fo0, fun _ => none, 4096, kval0, fun _ _ => 0, id, fun _ => keySort, someOrder v, fun _ => someOrder g⟩
private def kch0 (g _v : Grid) : KnnChoices Rat := ⟨fun _ l => l, fun _ _ l => l, someOrder g, id, [], fun _ => []⟩
private def abs0 (x y : List Rat) : Rat := (List.zipWith (fun a b => |a - b|) x y).sum
private def M0 : KnnMetrics Rat := ⟨fun _ _ => 0, abs0, fun _ _ => 0⟩
private def m0 : KnnModel := KnnModel.new "manhattan" "linear" 1 (.dense St.init.d)

set_option synthInstance.maxSize 1000 in
/-- Cross validation of a nearest neighbour on that file, with the lines of even number in the first fold: the hypotheses of
`C137_knn` hold, and this is what is counted. -/
example : KnnChoicesOk fo0 kval0 kenv0 kch0 ∧ KnnSettings M0 abs0 1 m0 ∧
    (∀ f, f < 2 → 1 ≤ (List.range rows0.length).countP fun r => decide (r % 2 ≠ f)) ∧
    ((loadCSV 4096 parse0 id id true text0).bind fun d =>
      crossValidate fo0 id (knnOps M0 kenv0 kch0) m0 (.dense d) (fun r => r % 2) 2) =
    Res.ok [[("a", [("a", 1)]), ("b", [("b", 1)])], [("b", [("a", 1)]), ("a", [("a", 1)])]] :=
  ⟨⟨fun _ _ => rfl, fun _ _ => rfl, fun _ _ => ⟨List.range, fun _ => List.Perm.refl _, fun l => by rw [filterMap_range_getElem?]; rfl⟩,
    fun _ _ _ => keySort_sorts, fun _ v => someOrder_rowOrder v, fun g _ _ => someOrder_rowOrder g, fun _ _ _ _ => List.Perm.refl _⟩,
    ⟨Or.inr (Or.inl ⟨rfl, rfl⟩), rfl, rfl, rfl⟩, by decide, by decide +kernel⟩

end Witness

end Golearn
