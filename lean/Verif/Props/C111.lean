import Verif.Proofs.Mat
import Verif.Props.C01

/-! # C111: instances over a matrix show the matrix -/

namespace Golearn

open MatInst

/-- The instances have a numeric column for each column of the matrix, called by its number, and the given number of rows. -/
theorem C111_columns (fresh : Nat → Nat) (rows cols : Nat) (data : List (List U64)) :
    (new fresh rows cols data).size = (cols, rows) ∧
    (new fresh rows cols data).allAttributes.map Attr.body = (List.range cols).map fun i => .float (toString i) 2 := by
  constructor
  · simp [new, size]
  · simp [new, allAttributes]

/-- A column is found by its name, with any numeric attribute, and no other attribute is found. -/
theorem C111_lookup (fresh : Nat → Nat) (rows cols : Nat) (data : List (List U64)) (b : Attr) :
    (∀ i, i < cols → ∀ p, b.body = .float (toString i) p → ∃ s, (new fresh rows cols data).getAttribute b = Res.ok s ∧
      (new fresh rows cols data).allAttributes[i]? = some s.attr ∧ s.attr.name = toString i) ∧
    ((∀ i, i < cols → ∀ p, b.body ≠ .float (toString i) p) → (new fresh rows cols data).getAttribute b = Res.err) := by
  constructor
  · intro i hi p hb
    refine ⟨⟨some 0, i, ⟨fresh i, .float (toString i) 2⟩⟩, ?_, new_attr fresh rows cols data i hi, rfl⟩
    unfold getAttribute
    rw [find_new fresh rows cols data b i hi p hb]
  · intro h
    unfold getAttribute
    rw [find_new_none fresh rows cols data b h]

/-- Reading a cell gives the number in the matrix. -/
theorem C111_cells (fresh : Nat → Nat) (rows cols : Nat) (data : List (List U64)) (hfit : MatFits rows cols data) (i : Nat) (hi : i < cols) (a : Attr)
    (ha : (new fresh rows cols data).allAttributes[i]? = some a) : ∃ s, (new fresh rows cols data).getAttribute a = Res.ok s ∧ s.attr = a ∧
    ∀ r, r < rows → (((new fresh rows cols data).get s r).bind unpackFloatBits) = Res.ok (matEntry data r i) := by
  have hatt : (new fresh rows cols data).allAttributes[i]? = some ⟨fresh i, .float (toString i) 2⟩ := new_attr fresh rows cols data i hi
  rw [hatt, Option.some.injEq] at ha
  subst ha
  refine ⟨⟨some 0, i, ⟨fresh i, .float (toString i) 2⟩⟩, ?_, rfl, ?_⟩
  · unfold getAttribute
    rw [find_new fresh rows cols data _ i hi 2 rfl]
  · intro r hr
    have hr' : r < data.length := by have := hfit.1; omega
    have hl := hfit.2 data[r] (List.getElem_mem _)
    have hi' : i < data[r].length := by omega
    have : (new fresh rows cols data).at? r i = Res.ok (matEntry data r i) := by
      have e1 : (new fresh rows cols data).data[r]? = some data[r] := by simp [new, hr']
      simp only [at?, e1, matEntry, List.getD_eq_getElem?_getD, List.getElem?_eq_getElem hr', List.getElem?_eq_getElem hi', Option.getD_some]
    unfold MatInst.get
    simp only [this, Res.map_ok, Res.bind_ok]
    exact C01_unpack_pack _

/-- Iterating over the columns `is` visits every row once, in order, with the numbers of the matrix. -/
theorem C111_iter (fresh : Nat → Nat) (rows cols : Nat) (data : List (List U64)) (hfit : MatFits rows cols data) (is : List Nat)
    (his : ∀ i ∈ is, i < cols) : ∃ specs, mapRes (fun i => ((new fresh rows cols data).getAttribute ⟨0, .float (toString i) 2⟩)) is = Res.ok specs ∧
    (new fresh rows cols data).mapOverRows specs
      (fun (seen : List (Nat × List U64)) vals r => (mapRes unpackFloatBits vals).map fun l => (seen ++ [(r, l)], Ctl.cont)) [] =
      Res.ok ((List.range rows).map fun r => (r, is.map (matEntry data r)), false) := by
  let sp : Nat → Spec := fun i => ⟨some 0, i, ⟨fresh i, .float (toString i) 2⟩⟩
  refine ⟨is.map sp, ?_, ?_⟩
  · apply mapRes_of_ok
    intro i hi
    unfold getAttribute
    rw [find_new fresh rows cols data _ i (his i hi) 2 rfl]
  · unfold mapOverRows
    have hv : ∀ r ∈ List.range (new fresh rows cols data).rows,
        (new fresh rows cols data).rowVals (is.map sp) r = Res.ok (is.map fun i => packFloatBits (matEntry data r i)) := by
      intro r hr
      have hr : r < rows := List.mem_range.1 hr
      unfold rowVals
      have := mapRes_of_ok (fun s => (new fresh rows cols data).get s r) (fun s => packFloatBits (matEntry data r s.position)) (is.map sp) (by
        intro s hs
        obtain ⟨i, hi, rfl⟩ := List.mem_map.1 hs
        have hr' : r < data.length := by have := hfit.1; omega
        have hl := hfit.2 data[r] (List.getElem_mem _)
        have hi' : i < data[r].length := by have := his i hi; omega
        have : (new fresh rows cols data).at? r i = Res.ok (matEntry data r i) := by
          have e1 : (new fresh rows cols data).data[r]? = some data[r] := by simp [new, hr']
          simp only [at?, e1, matEntry, List.getD_eq_getElem?_getD, List.getElem?_eq_getElem hr', List.getElem?_eq_getElem hi', Option.getD_some]
        unfold MatInst.get
        simp only [sp, this, Res.map_ok])
      rw [this, List.map_map]
      rfl
    have hu : ∀ (r : Nat) (js : List Nat), mapRes unpackFloatBits (js.map fun i => packFloatBits (matEntry data r i)) = Res.ok (js.map (matEntry data r)) := by
      intro r js
      induction js with
      | nil => rfl
      | cons i js ih =>
        simp only [List.map_cons, mapRes]
        rw [show unpackFloatBits (packFloatBits (matEntry data r i)) = Res.ok (matEntry data r i) from C01_unpack_pack _, Res.bind_ok, ih]
        rfl
    rw [mapOver_all _ _ _ (fun seen _ r => seen ++ [(r, is.map (matEntry data r))]) _ hv (by
      intro s r _
      rw [hu]
      rfl)]
    have : ∀ (l : List Nat) (acc : List (Nat × List U64)),
        l.foldl (fun seen r => seen ++ [(r, is.map (matEntry data r))]) acc = acc ++ l.map fun r => (r, is.map (matEntry data r)) := by
      intro l
      induction l with
      | nil => simp
      | cons x xs ih => intro acc; simp [ih]
    rw [this]
    rfl

/-- After any calls the class attributes are the columns that were made class attributes and not removed since, each once. -/
theorem C111_class (fresh : Nat → Nat) (rows cols : Nat) (data : List (List U64)) (ops : List MatOp) (ord : List Nat → List Nat)
    (hord : ∀ l, (ord l).Perm l) : ∃ l, (ops.foldl MatOp.apply (new fresh rows cols data)).allClassAttributes ord = Res.ok l ∧ l.Nodup ∧
      ∀ x, x ∈ l ↔ x ∈ (new fresh rows cols data).allAttributes ∧ matDesignated ops x := by
  have H := class_inv fresh rows cols data ops
  obtain ⟨h1, h2, h3, h4⟩ := H
  generalize ops.foldl MatOp.apply (new fresh rows cols data) = m at *
  let at' : Nat → Attr := fun i => ⟨fresh i, .float (toString i) 2⟩
  let ks := (ord (m.classAttrs.map Prod.fst)).filter fun i => (m.classAttrs.get? i).getD false
  have hks : ∀ i, i ∈ ks ↔ i < cols ∧ matDesignated ops (at' i) := by
    intro i
    simp only [ks, List.mem_filter, (hord _).mem_iff]
    constructor
    · rintro ⟨hi, hb⟩
      have hc := h3 i hi
      refine ⟨hc, (h4 i hc).1 ?_⟩
      cases hg : m.classAttrs.get? i with
      | none => rw [hg] at hb; simp at hb
      | some b => rw [hg] at hb; simp at hb; rw [hb]
    · rintro ⟨hc, hd⟩
      have := (h4 i hc).2 hd
      refine ⟨?_, by rw [this]; rfl⟩
      exact (GoMap.isSome_iff_mem _ _).1 (by rw [this]; rfl)
  have hnd : ks.Nodup := ((hord _).nodup_iff.2 h2).filter _
  refine ⟨ks.map at', ?_, ?_, ?_⟩
  · unfold allClassAttributes
    apply mapRes_of_ok
    intro i hi
    rw [h1, new_attr fresh rows cols data i ((hks i).1 hi).1]
  · apply hnd.map
    intro i j e
    simp only [at', Attr.mk.injEq, AttrBody.float.injEq] at e
    exact toString_nat_inj e.2.1
  · intro x
    simp only [List.mem_map, hks, new, allAttributes, List.mem_range]
    constructor
    · rintro ⟨i, ⟨hi, hd⟩, rfl⟩
      exact ⟨⟨i, hi, rfl⟩, hd⟩
    · rintro ⟨⟨i, hi, rfl⟩, hd⟩
      exact ⟨i, ⟨hi, hd⟩, rfl⟩

/-- The numbers of rows and columns are not checked against the matrix: a row the matrix lacks is counted, and reading it panics. -/
theorem C111_unchecked (fresh : Nat → Nat) (rows cols : Nat) (data : List (List U64)) (h : data.length < rows) (s : Spec) :
    (new fresh rows cols data).size.2 = rows ∧ (new fresh rows cols data).get s data.length = Res.panic := by
  refine ⟨rfl, ?_⟩
  simp [MatInst.get, at?, new, Res.map]

namespace C111Ex

/-- The matrix with the rows 1 2 and 0.5 4. -/
def mat : List (List U64) := [[0x3FF0000000000000#64, 0x4000000000000000#64], [0x3FE0000000000000#64, 0x4010000000000000#64]]

end C111Ex

open C111Ex

example : MatFits 2 2 mat := by unfold MatFits; decide

/-- The second column of the matrix, and the class attributes after calls. -/
theorem C111_witness : (((new (· + 5) 2 2 mat).getAttribute ⟨0, .float "1" 7⟩).bind fun s =>
      (mapRes (fun r => (new (· + 5) 2 2 mat).get s r) [0, 1])) = Res.ok [packU64 0x4000000000000000#64, packU64 0x4010000000000000#64] ∧
    (([MatOp.addClass ⟨0, .float "1" 2⟩, .addClass ⟨0, .float "0" 2⟩, .removeClass ⟨0, .float "1" 2⟩, .addClass ⟨0, .bin "1"⟩].foldl MatOp.apply
      (new (· + 5) 2 2 mat)).allClassAttributes id) = Res.ok [⟨5, .float "0" 2⟩] := by
  constructor <;> decide +kernel

end Golearn
