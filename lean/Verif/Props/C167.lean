import Verif.Proofs.DbscanRows
import Verif.Props.C87
import Verif.Props.C166

/-! # C167: DBSCAN and the order of the rows -/

namespace Golearn

/-- The full claim: DBSCAN on a table with the rows in another order puts the same rows together. -/
def DbscanRowOrderDoesNotMatter : Prop :=
  ∀ (g g' : Grid) (n : Nat) (srt : List Spec → List Spec) (val : U64 → ℚ) (metric : List ℚ → List ℚ → ℚ) (attrs : List Attr)
    (σ : Equiv.Perm Nat) (eps : ℚ) (minCount : Int) (cs cs' : GoMap Nat (List Nat)),
    g.Presents n → g.typed n → g'.Presents n → g'.typed n → (∀ l, (srt l).Perm l) → ColumnOrderFree metric →
    (∀ x y, metric x y = metric y x) → g.Finds attrs → g'.Finds attrs → (∀ a ∈ attrs, a.isFloat = true) → attrs ≠ [] → 0 < n → 0 ≤ eps →
    RowsMoved val σ g g' n attrs → dbscan srt val metric g attrs eps minCount = Res.ok cs →
    dbscan srt val metric g' attrs eps minCount = Res.ok cs' → ∀ x y, Together cs' x y ↔ Together cs (σ x) (σ y)

/-- It holds, and neither run fails, if every row within eps of a core row is a core row. Missing from the full claim: rows at the border of a
cluster. -/
theorem C167_rows_partial {R : Type} [Zero R] [LE R] [DecidableLE R] (g g' : Grid) (n : Nat) (P : g.Presents n) (T : g.typed n)
    (P' : g'.Presents n) (T' : g'.typed n) (srt srt' : List Spec → List Spec) (hsrt : ∀ l, (srt l).Perm l) (hsrt' : ∀ l, (srt' l).Perm l)
    (val : U64 → R) (metric : List R → List R → R) (hmetric : ColumnOrderFree metric) (hsym : ∀ x y, metric x y = metric y x)
    (attrs : List Attr) (hf : g.Finds attrs) (hf' : g'.Finds attrs) (hfl : ∀ a ∈ attrs, a.isFloat = true) (hne : attrs ≠ []) (hn : 0 < n)
    (σ : Equiv.Perm Nat) (hmoved : RowsMoved val σ g g' n attrs) (eps : R) (minCount : Int)
    (hborder : ∀ p q, p < n → q < n → CoreRow val metric g n attrs eps minCount p → Within val metric g attrs eps p q →
      CoreRow val metric g n attrs eps minCount q) :
    ∃ cs cs', dbscan srt val metric g attrs eps minCount = Res.ok cs ∧ dbscan srt' val metric g' attrs eps minCount = Res.ok cs' ∧
      ∀ x y, Together cs' x y ↔ Together cs (σ x) (σ y) := by
  obtain ⟨near, e, s, _, w⟩ := dbscan_within P T hsrt (val := val) hmetric hsym hf hfl hne hn eps minCount
  obtain ⟨near', e', s', _, w'⟩ := dbscan_within P' T' hsrt' (val := val) hmetric hsym hf' hfl hne hn eps minCount
  obtain ⟨hσ, hnum⟩ := hmoved
  have hnear : ∀ p q, p < n → q < n → near' p q = near (σ p) (σ q) := by
    intro p q hp hq
    rw [Bool.eq_iff_iff, w' p q hp hq, w _ _ ((hσ p).1 hp) ((hσ q).1 hq)]
    have en : ∀ r, r < n → (attrs.map fun a => g'.number val a r) = attrs.map fun a => g.number val a (σ r) := fun r hr =>
      List.map_congr_left fun a ha => hnum a ha r hr
    unfold Within
    rw [en p hp, en q hq]
    simp only [σ.injective.eq_iff]
  have hb : ∀ p q, p < n → q < n → Core n near minCount p → near p q = true → Core n near minCount q := by
    intro p q hp hq c hpq
    exact (core_row w hq).2 (hborder p q hp hq ((core_row w hp).1 c) ((w p q hp hq).1 hpq))
  have hb' : ∀ p q, p < n → q < n → Core n near' minCount p → near' p q = true → Core n near' minCount q := by
    intro p q hp hq c hpq
    rw [hnear p q hp hq] at hpq
    exact (core_moved hσ hnear hq).2 (hb _ _ ((hσ p).1 hp) ((hσ q).1 hq) ((core_moved hσ hnear hp).1 c) hpq)
  obtain ⟨cs, h1, h2⟩ := C87_no_border_partial n near minCount s hb
  obtain ⟨cs', h1', h2'⟩ := C87_no_border_partial n near' minCount s' hb'
  refine ⟨cs, cs', e.trans h1, e'.trans h1', fun x y => ?_⟩
  unfold Together
  rw [h2, h2', connected_moved hσ hnear]

/-- In particular with a minimum count of at most two. -/
theorem C167_two_partial {R : Type} [Zero R] [LE R] [DecidableLE R] (g g' : Grid) (n : Nat) (P : g.Presents n) (T : g.typed n)
    (P' : g'.Presents n) (T' : g'.typed n) (srt srt' : List Spec → List Spec) (hsrt : ∀ l, (srt l).Perm l) (hsrt' : ∀ l, (srt' l).Perm l)
    (val : U64 → R) (metric : List R → List R → R) (hmetric : ColumnOrderFree metric) (hsym : ∀ x y, metric x y = metric y x)
    (attrs : List Attr) (hf : g.Finds attrs) (hf' : g'.Finds attrs) (hfl : ∀ a ∈ attrs, a.isFloat = true) (hne : attrs ≠ []) (hn : 0 < n)
    (σ : Equiv.Perm Nat) (hmoved : RowsMoved val σ g g' n attrs) (eps : R) (heps : 0 ≤ eps) (minCount : Int) (hm : minCount ≤ 2) :
    ∃ cs cs', dbscan srt val metric g attrs eps minCount = Res.ok cs ∧ dbscan srt' val metric g' attrs eps minCount = Res.ok cs' ∧
      ∀ x y, Together cs' x y ↔ Together cs (σ x) (σ y) := by
  obtain ⟨near, _, s, hr, w⟩ := dbscan_within P T hsrt (val := val) hmetric hsym hf hfl hne hn eps minCount
  refine C167_rows_partial g g' n P T P' T' srt srt' hsrt hsrt' val metric hmetric hsym attrs hf hf' hfl hne hn σ hmoved eps minCount ?_
  intro p q hp hq c hpq
  exact (core_row w hq).1 (smallCount s (fun p => (hr p).2 heps) hm p q hp hq ((core_row w hp).2 c) ((w p q hp hq).2 hpq))

namespace C167
open C166
def manhattan (x y : List ℚ) : ℚ := (List.zipWith (fun a b => |a - b|) x y).sum
/-- Rows 1, 2, 3, 4, 0 in the places 0 to 4. -/
def turn : Equiv.Perm Nat where
  toFun r := if r < 4 then r + 1 else if r = 4 then 0 else r
  invFun r := if r = 0 then 4 else if r < 5 then r - 1 else r
  left_inv r := by grind
  right_inv r := by grind
def line : List Op := [.add x, .extend 5,
  .set 0 0 (packU64 0), .set 0 1 (packU64 3), .set 0 2 (packU64 3), .set 0 3 (packU64 3), .set 0 4 (packU64 2)]
def turned : List Op := [.add x, .extend 5,
  .set 0 0 (packU64 3), .set 0 1 (packU64 3), .set 0 2 (packU64 3), .set 0 3 (packU64 2), .set 0 4 (packU64 0)]

theorem manhattan_symm (a b : List ℚ) : manhattan a b = manhattan b a := by
  unfold manhattan
  rw [List.zipWith_comm]
  simp only [abs_sub_comm]

theorem turn_rows (r : Nat) : r < 5 ↔ turn r < 5 := by
  show _ ↔ (if r < 4 then r + 1 else if r = 4 then 0 else r) < 5
  split_ifs <;> omega
end C167

open C166 C167 in
/-- Points at 0, 3, 3, 3 and 2, with eps 2 and a minimum of three. The hypotheses hold. The point at 2 is in the cluster of the points at 3 if
the point at 0 comes last, and in no cluster if it comes first. With eps 1 and a minimum of two the clusters are the same. -/
theorem C167_witness : ∃ st st', run 4096 line = Res.ok st ∧ run 4096 turned = Res.ok st' ∧
    (Grid.dense st.d).Presents 5 ∧ (Grid.dense st.d).typed 5 ∧ (Grid.dense st'.d).Presents 5 ∧ (Grid.dense st'.d).typed 5 ∧
    (Grid.dense st.d).Finds [x] ∧ (Grid.dense st'.d).Finds [x] ∧ RowsMoved val turn (.dense st.d) (.dense st'.d) 5 [x] ∧
    ColumnOrderFree manhattan ∧ (∀ a b, manhattan a b = manhattan b a) ∧
    dbscan id val manhattan (.dense st.d) [x] 2 3 = Res.ok [(1, [1, 2, 3])] ∧
    dbscan id val manhattan (.dense st'.d) [x] 2 3 = Res.ok [(1, [0, 1, 2, 3, 4])] ∧
    dbscan id val manhattan (.dense st.d) [x] 1 2 = Res.ok [(1, [1, 2, 3, 4])] ∧
    dbscan id val manhattan (.dense st'.d) [x] 1 2 = Res.ok [(1, [0, 1, 2, 3])] := by
  have h : ((run 4096 line).bind fun st => (run 4096 turned).map fun st' =>
      [decide (∀ a ∈ [x], a ∈ Grid.allAttributes (.dense st.d)), decide (∀ a ∈ [x], a ∈ Grid.allAttributes (.dense st'.d)),
       decide (∀ a ∈ [x], ∀ r ∈ List.range 5, (Grid.dense st'.d).number val a r = (Grid.dense st.d).number val a (turn r)),
       decide (dbscan id val manhattan (.dense st.d) [x] 2 3 = Res.ok [(1, [1, 2, 3])]),
       decide (dbscan id val manhattan (.dense st'.d) [x] 2 3 = Res.ok [(1, [0, 1, 2, 3, 4])]),
       decide (dbscan id val manhattan (.dense st.d) [x] 1 2 = Res.ok [(1, [1, 2, 3, 4])]),
       decide (dbscan id val manhattan (.dense st'.d) [x] 1 2 = Res.ok [(1, [0, 1, 2, 3])])]) = Res.ok (List.replicate 7 true) := by
    decide +kernel
  obtain ⟨st, r1, h⟩ := Res.bind_eq_ok.1 h
  obtain ⟨st', r2, h⟩ := Res.map_eq_ok.1 h
  simp only [List.replicate, List.cons.injEq, decide_eq_true_eq] at h
  obtain ⟨h1, h2, h3, h4, h5, h6, h7, _⟩ := h
  have D : DenseOK 5 st.d := denseOK_run (by decide) r1 (by decide)
  have D' : DenseOK 5 st'.d := denseOK_run (by decide) r2 (by decide)
  exact ⟨st, st', r1, r2, D.presents, D.typed, D'.presents, D'.typed, finds_self h1, finds_self h2,
    ⟨turn_rows, fun a ha r hr => h3 a ha r (List.mem_range.2 hr)⟩, C160_distances.2, manhattan_symm, h4, h5, h6, h7⟩

open C166 C167 in
/-- So the order of the rows matters. -/
theorem C167_refuted : ¬ DbscanRowOrderDoesNotMatter := by
  intro H
  obtain ⟨st, st', _, _, P, T, P', T', f, f', M, o, s, h, h', _⟩ := C167_witness
  have := (H _ _ 5 id val manhattan [x] turn 2 3 _ _ P T P' T' (fun _ => List.Perm.refl _) o s f f' (by decide) (by decide) (by decide)
    (by decide) M h h' 0 3).1 ⟨(1, [0, 1, 2, 3, 4]), by simp, by decide, by decide⟩
  obtain ⟨p, hp, _, hy⟩ := this
  rw [List.mem_singleton] at hp
  subst hp
  revert hy
  decide

end Golearn
