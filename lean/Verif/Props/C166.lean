import Verif.Proofs.DbscanColumns
import Verif.Props.C160
import Verif.Proofs.NaiveBayes

/-! # C166: the columns DBSCAN looks at -/

namespace Golearn

/-- DBSCAN on two tables with the same numbers in the chosen columns: the result is the same, whatever the order of the columns in the tables
and in the parameters, the sort of the resolved attributes and the other columns. -/
theorem C166_columns {R : Type} [Zero R] [LE R] [DecidableLE R] (g g' : Grid) (n : Nat) (P : g.Presents n) (T : g.typed n)
    (P' : g'.Presents n) (T' : g'.typed n) (srt srt' : List Spec → List Spec) (hsrt : ∀ l, (srt l).Perm l) (hsrt' : ∀ l, (srt' l).Perm l)
    (val : U64 → R) (metric : List R → List R → R) (hmetric : ColumnOrderFree metric) (attrs attrs' : List Attr) (hp : attrs'.Perm attrs)
    (hf : g.Finds attrs) (hf' : g'.Finds attrs') (hfl : ∀ a ∈ attrs, a.isFloat = true) (hne : attrs ≠ []) (hn : 0 < n)
    (hsame : SameNumbers val g g' n attrs) (eps : R) (minCount : Int) :
    dbscan srt' val metric g' attrs' eps minCount = dbscan srt val metric g attrs eps minCount := by
  refine dbscan_same P T P' T' hsrt hsrt' hp hf hf' hfl hne hn minCount Iff.rfl fun fs fs' h1 h2 p q hpn hqn => ?_
  have e : ∀ i, i < n → g'.point val fs' i = fs'.map fun a => g.number val a i := fun i hi =>
    List.map_congr_left fun a ha => hsame a (h1.subset (h2.subset ha)) (hfl a (h1.subset (h2.subset ha))) i hi
  rw [e p hpn, e q hqn, hmetric fs' fs _ _ h2]
  rfl

/-- Other units: if the numbers are multiplied by `c` and moved by an offset per column, and eps is multiplied by the factor by which the
distances grow, the result is the same. -/
theorem C166_units {R : Type} [Field R] [LinearOrder R] [IsStrictOrderedRing R] (g g' : Grid) (n : Nat) (P : g.Presents n) (T : g.typed n)
    (P' : g'.Presents n) (T' : g'.typed n) (srt srt' : List Spec → List Spec) (hsrt : ∀ l, (srt l).Perm l) (hsrt' : ∀ l, (srt' l).Perm l)
    (val : U64 → R) (metric : List R → List R → R) (hmetric : ColumnOrderFree metric) (c s : R) (hs : 0 < s)
    (hscale : DistanceScales metric c s) (off : Attr → R) (attrs attrs' : List Attr) (hp : attrs'.Perm attrs)
    (hf : g.Finds attrs) (hf' : g'.Finds attrs') (hfl : ∀ a ∈ attrs, a.isFloat = true) (hne : attrs ≠ []) (hn : 0 < n)
    (hsame : Rescaled val c off g g' n attrs) (eps : R) (minCount : Int) :
    dbscan srt' val metric g' attrs' (s * eps) minCount = dbscan srt val metric g attrs eps minCount := by
  refine dbscan_same P T P' T' hsrt hsrt' hp hf hf' hfl hne hn minCount (mul_nonneg_iff_of_pos_left hs) fun fs fs' h1 h2 p q hpn hqn => ?_
  have e : ∀ i, i < n → g'.point val fs' i = fs'.map fun a => c * g.number val a i + off a := fun i hi =>
    List.map_congr_left fun a ha => hsame a (h1.subset (h2.subset ha)) i hi
  rw [e p hpn, e q hqn, hscale, mul_le_mul_iff_right₀ hs, hmetric fs' fs _ _ h2]
  rfl

/-- The square of the Euclidean distance grows by the square of the factor, the Manhattan distance by its absolute value. -/
theorem C166_distances {R : Type} [Field R] [LinearOrder R] [IsStrictOrderedRing R] (c : R) :
    DistanceScales (sqDist (R := R)) c (c * c) ∧
    DistanceScales (fun x y : List R => (List.zipWith (fun a b => |a - b|) x y).sum) c |c| := by
  constructor
  · intro as x y off
    simp only [sqDist, List.zipWith_map, List.zipWith_self, ← List.sum_map_mul_left]
    congr 1
    refine List.map_congr_left fun a _ => ?_
    ring
  · intro as x y off
    simp only [List.zipWith_map, List.zipWith_self, ← List.sum_map_mul_left]
    congr 1
    refine List.map_congr_left fun a _ => ?_
    rw [← abs_mul]
    congr 1
    ring

namespace C166
def x : Attr := ⟨1, .float "x" 2⟩
def y : Attr := ⟨2, .float "y" 2⟩
def z : Attr := ⟨3, .float "z" 2⟩
def c : Attr := ⟨4, .cat "c" ["a", "b"]⟩
def plane : List Op := [.add x, .add y, .extend 5,
  .set 0 0 (packU64 1), .set 0 1 (packU64 2), .set 0 2 (packU64 9), .set 0 3 (packU64 1), .set 0 4 (packU64 9),
  .set 1 0 (packU64 5), .set 1 1 (packU64 5), .set 1 2 (packU64 0), .set 1 3 (packU64 6), .set 1 4 (packU64 1)]
def more : List Op := [.add z, .add y, .add x, .add c, .extend 5,
  .set 2 0 (packU64 1), .set 2 1 (packU64 2), .set 2 2 (packU64 9), .set 2 3 (packU64 1), .set 2 4 (packU64 9),
  .set 1 0 (packU64 5), .set 1 1 (packU64 5), .set 1 2 (packU64 0), .set 1 3 (packU64 6), .set 1 4 (packU64 1),
  .set 0 0 (packU64 7), .set 0 3 (packU64 8)]
def scaled : List Op := [.add y, .add x, .extend 5,
  .set 1 0 (packU64 5), .set 1 1 (packU64 7), .set 1 2 (packU64 21), .set 1 3 (packU64 5), .set 1 4 (packU64 21),
  .set 0 0 (packU64 10), .set 0 1 (packU64 10), .set 0 2 (packU64 0), .set 0 3 (packU64 12), .set 0 4 (packU64 2)]
def val : U64 → ℚ := fun u => (u.toNat : ℚ)
def off : Attr → ℚ := fun a => if a = x then 3 else 0
end C166

open C166 in
/-- Five points in two groups, a table with the columns in another order, a further number and a class, and a table with the numbers doubled
and one column moved: the conditions hold, and the clusters are those of the points. -/
theorem C166_witness : ∃ st st' st'', run 4096 plane = Res.ok st ∧ run 4096 more = Res.ok st' ∧ run 4096 scaled = Res.ok st'' ∧
    (Grid.dense st.d).Presents 5 ∧ (Grid.dense st.d).typed 5 ∧ (Grid.dense st'.d).Presents 5 ∧ (Grid.dense st'.d).typed 5 ∧
    (Grid.dense st''.d).Presents 5 ∧ (Grid.dense st''.d).typed 5 ∧
    (Grid.dense st.d).Finds [x, y] ∧ (Grid.dense st'.d).Finds [y, x] ∧ (Grid.dense st''.d).Finds [y, x] ∧
    SameNumbers val (.dense st.d) (.dense st'.d) 5 [x, y] ∧ Rescaled val 2 off (.dense st.d) (.dense st''.d) 5 [x, y] ∧
    dbscan id val sqDist (.dense st.d) [x, y] 2 2 = Res.ok [(1, [0, 1, 3]), (2, [2, 4])] ∧
    dbscan List.reverse val sqDist (.dense st'.d) [y, x] 2 2 = Res.ok [(1, [0, 1, 3]), (2, [2, 4])] ∧
    dbscan id val sqDist (.dense st''.d) [y, x] 8 2 = Res.ok [(1, [0, 1, 3]), (2, [2, 4])] := by
  have h : ((run 4096 plane).bind fun st => (run 4096 more).bind fun st' => (run 4096 scaled).map fun st'' =>
      [decide (∀ a ∈ [x, y], a ∈ Grid.allAttributes (.dense st.d)), decide (∀ a ∈ [y, x], a ∈ Grid.allAttributes (.dense st'.d)),
       decide (∀ a ∈ [y, x], a ∈ Grid.allAttributes (.dense st''.d)),
       decide (∀ a ∈ [x, y], ∀ r ∈ List.range 5, (Grid.dense st'.d).number val a r = (Grid.dense st.d).number val a r),
       decide (∀ a ∈ [x, y], ∀ r ∈ List.range 5, (Grid.dense st''.d).number val a r = 2 * (Grid.dense st.d).number val a r + off a),
       decide (dbscan id val sqDist (.dense st.d) [x, y] 2 2 = Res.ok [(1, [0, 1, 3]), (2, [2, 4])]),
       decide (dbscan List.reverse val sqDist (.dense st'.d) [y, x] 2 2 = Res.ok [(1, [0, 1, 3]), (2, [2, 4])]),
       decide (dbscan id val sqDist (.dense st''.d) [y, x] 8 2 = Res.ok [(1, [0, 1, 3]), (2, [2, 4])])]) =
        Res.ok (List.replicate 8 true) := by
    decide +kernel
  obtain ⟨st, r1, h⟩ := Res.bind_eq_ok.1 h
  obtain ⟨st', r2, h⟩ := Res.bind_eq_ok.1 h
  obtain ⟨st'', r3, h⟩ := Res.map_eq_ok.1 h
  simp only [List.replicate, List.cons.injEq, decide_eq_true_eq] at h
  obtain ⟨h1, h2, h3, h4, h5, h6, h7, h8, _⟩ := h
  have D : DenseOK 5 st.d := denseOK_run (by decide) r1 (by decide)
  have D' : DenseOK 5 st'.d := denseOK_run (by decide) r2 (by decide)
  have D'' : DenseOK 5 st''.d := denseOK_run (by decide) r3 (by decide)
  exact ⟨st, st', st'', r1, r2, r3, D.presents, D.typed, D'.presents, D'.typed, D''.presents, D''.typed, finds_self h1, finds_self h2,
    finds_self h3, fun a ha _ r hr => h4 a ha r (List.mem_range.2 hr), fun a ha r hr => h5 a ha r (List.mem_range.2 hr), h6, h7, h8⟩

end Golearn
