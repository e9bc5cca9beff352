import Verif.Proofs.DbscanProps
import Verif.Proofs.DenseTable
import Verif.Proofs.NaiveBayes
import Verif.Model.History

/-! # C110: rows of a grid as matrices -/

namespace Golearn

/-- Every row of a grid is converted to the numbers of the given columns in that row, one for each attribute. All rows at once are the same rows
as one at a time. The numbers are in the order of the attributes if the sort in `ResolveAttributes`, in which no element is less than another,
leaves lists of this length as they are; otherwise all rows are in one common order. -/
theorem C110_rows {K : Type} [Zero K] (g : Grid) (n : Nat) (P : g.Presents n) (T : g.typed n)
    (srt : List Spec → List Spec) (hsrt : ∀ l, (srt l).Perm l) (val : U64 → K) (attrs : List Attr) (hf : g.Finds attrs)
    (hfl : ∀ a ∈ attrs, a.isFloat = true) (hne : attrs ≠ []) :
    ∃ fs : List Attr, fs.Perm attrs ∧ ((∀ l : List Spec, l.length = attrs.length → srt l = l) → fs = attrs) ∧
      (∀ r, r < n → rowMat srt val g attrs r = Res.ok (fs.map fun a => g.number val a r)) ∧
      ∃ rows, allRows srt val g attrs = Res.ok rows ∧ rows.length = n ∧
        ∀ r (h : r < rows.length), rowMat srt val g attrs r = Res.ok rows[r] := by
  obtain ⟨fs, h1, h2, h3, h4⟩ := rowMat_spec P T srt hsrt val hf hfl hne
  refine ⟨fs, h1, h2, h3, _, h4, by simp, ?_⟩
  intro r h
  rw [h3 r (by simpa using h)]
  simp

/-- An attribute that is not numeric is an error, for one row and for all. -/
theorem C110_not_numeric {K : Type} [Zero K] (g : Grid) (srt : List Spec → List Spec) (val : U64 → K) (attrs : List Attr)
    (a : Attr) (ha : a ∈ attrs) (hfl : a.isFloat = false) :
    allRows srt val g attrs = Res.err ∧ ∀ r, rowMat srt val g attrs r = Res.err := by
  have : ¬ attrs.all Attr.isFloat = true := by
    intro h
    rw [List.all_eq_true] at h
    rw [h a ha] at hfl
    cases hfl
  exact ⟨by rw [allRows, if_neg this], fun r => by rw [rowMat, if_neg this]⟩

/-- An attribute that the grid lacks is a panic, not an error. -/
theorem C110_unknown {K : Type} [Zero K] (g : Grid) (srt : List Spec → List Spec) (val : U64 → K) (attrs : List Attr)
    (hfl : ∀ a ∈ attrs, a.isFloat = true) (a : Attr) (ha : a ∈ attrs) (hg : g.getAttribute a = Res.err) :
    allRows srt val g attrs = Res.panic ∧ ∀ r, rowMat srt val g attrs r = Res.panic := by
  have hu : g.resolve srt attrs = Res.panic := by
    unfold Grid.resolve
    have : g.resolveUnsorted attrs = Res.panic := by
      unfold Grid.resolveUnsorted
      clear hfl
      induction attrs with
      | nil => cases ha
      | cons b l ih =>
        rw [mapRes]
        rcases List.mem_cons.mp ha with rfl | hl
        · rw [hg]; rfl
        · rw [ih hl]
          split <;> rfl
    rw [this]
    rfl
  have hne : attrs ≠ [] := by rintro rfl; cases ha
  have h : attrs.all Attr.isFloat = true := by simpa using hfl
  exact ⟨by rw [allRows, if_pos h, hu]; rfl, fun r => by rw [rowMat, if_pos h, if_neg hne, hu]; rfl⟩

/-- Without attributes the conversion of a row panics, and the conversion of all rows panics if there are any. -/
theorem C110_none {K : Type} [Zero K] (g : Grid) (srt : List Spec → List Spec) (val : U64 → K) (hsrt : srt [] = []) :
    (∀ r, rowMat srt val g [] r = Res.panic) ∧
    allRows srt val g [] = if g.size.2 = 0 then Res.ok [] else Res.panic := by
  constructor
  · intro r; rfl
  · unfold allRows Grid.resolve Grid.resolveUnsorted
    simp only [List.all_nil, if_true, mapRes, Res.map_ok, Res.bind_ok, hsrt]
    cases g.size.2 with
    | zero => rfl
    | succ n =>
      rw [List.range_succ_eq_map]
      simp [mapRes, Res.bind]

namespace C110Ex

def x : Attr := ⟨1, .float "x" 2⟩
def c : Attr := ⟨2, .cat "c" ["a"]⟩
def y : Attr := ⟨3, .float "y" 2⟩
def ops : List Op := [.add x, .add c, .add y, .extend 2, .set 0 0 (packU64 1), .set 0 1 (packU64 2), .set 2 0 (packU64 3), .set 2 1 (packU64 4)]

end C110Ex

open C110Ex

/-- A grid with two numeric columns, asked for in the other order. -/
theorem C110_witness : ∃ st, run 4096 C110Ex.ops = Res.ok st ∧ Grid.Presents (.dense st.d) 2 ∧ Grid.typed (.dense st.d) 2 ∧
    Grid.Finds (.dense st.d) [C110Ex.y, C110Ex.x] ∧
    allRows id (fun u => (u.toNat : Int)) (.dense st.d) [C110Ex.y, C110Ex.x] = Res.ok [[3, 1], [4, 2]] ∧
    rowMat id (fun u => (u.toNat : Int)) (.dense st.d) [C110Ex.y, C110Ex.x] 1 = Res.ok [4, 2] ∧
    Grid.getAttribute (.dense st.d) ⟨9, .float "z" 2⟩ = Res.err := by
  have h : ∃ st, run 4096 C110Ex.ops = Res.ok st ∧ allRows id (fun u => (u.toNat : Int)) (.dense st.d) [C110Ex.y, C110Ex.x] = Res.ok [[3, 1], [4, 2]] ∧
      rowMat id (fun u => (u.toNat : Int)) (.dense st.d) [C110Ex.y, C110Ex.x] 1 = Res.ok [4, 2] ∧
      Grid.getAttribute (.dense st.d) ⟨9, .float "z" 2⟩ = Res.err ∧
      ∀ a ∈ [C110Ex.y, C110Ex.x], a ∈ Grid.allAttributes (.dense st.d) := by
    refine ⟨_, rfl, ?_⟩
    decide +kernel
  obtain ⟨st, hst, h1, h2, h3, h4⟩ := h
  have D : DenseOK 2 st.d := denseOK_run (by decide) hst (by decide)
  exact ⟨st, hst, D.presents, D.typed, finds_self h4, h1, h2, h3⟩

end Golearn
