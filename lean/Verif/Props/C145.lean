import Verif.Proofs.Parts
import Verif.Props.C22
import Verif.Props.C119
import Verif.Props.C44

/-! # C145: what becomes of the parts of a split -/

namespace Golearn

/-- Splitting a grid in use gives the parts of the value model: the result of `trainTestSplit` on what the grid shows. -/
theorem C145_split_values (pg : Nat) (srt : List Spec → List Spec) (ops : List MOp) (w : World) (h : World.run pg srt ops = Res.ok w)
    (g : HGrid) (hg : g.root < w.tables.length) (draw coin : Nat → Nat) (pct : Int) :
    (w.split pg srt draw coin pct g).map (fun q => (q.1.grid q.2.1, q.1.grid q.2.2)) =
      (trainTestSplit srt draw coin pct (w.grid g)).map fun q => (q.1, q.2.1) := by
  have I := run_inv_world pg srt ops h
  have key : ∀ (w' : World) (s : HGrid),
      (((w'.grid s).resolve srt (w'.grid s).allAttributes).map fun specs =>
        (w', w'.visible s ((List.range (w'.grid s).size.2).filter fun i => decide ((coin i : Int) > pct)) specs,
          w'.visible s ((List.range (w'.grid s).size.2).filter fun i => !decide ((coin i : Int) > pct)) specs)).map
        (fun q => (q.1.grid q.2.1, q.1.grid q.2.2)) =
      (((w'.grid s).resolve srt (w'.grid s).allAttributes).map fun specs =>
        (Grid.viewFromVisible (w'.grid s) ((List.range (w'.grid s).size.2).filter fun i => decide ((coin i : Int) > pct)) specs,
          Grid.viewFromVisible (w'.grid s) ((List.range (w'.grid s).size.2).filter fun i => !decide ((coin i : Int) > pct)) specs,
          w'.grid s)).map fun q => (q.1, q.2.1) := by
    intro w' s
    cases (w'.grid s).resolve srt (w'.grid s).allAttributes <;> rfl
  unfold World.split trainTestSplit
  cases g with
  | table i =>
    have R := swaps_run pg srt i ((List.range (w.table i).size.2).map fun r => (r, draw r)) I hg
    have hsh : shuffle srt draw (w.grid (.table i)) =
        ((w.table i).swapAll srt ((List.range (w.table i).size.2).map fun r => (r, draw r))).map Grid.dense := rfl
    rw [hsh, ← R, List.map_map]
    simp only [World.shuffle, Function.comp_def]
    cases World.runFrom pg srt w ((List.range (w.table i).size.2).map fun r => .swap i r (draw r)) with
    | err => rfl
    | panic => rfl
    | ok w' => exact key w' (.table i)
  | view src as rows cls mask => exact key w (.view (.view src as rows cls mask) _ _ _ _)
  | filt f src cls unf => exact key w (.view (.filt f src cls unf) _ _ _ _)

/-- Splitting or shuffling a view or a filtered grid changes nothing that exists. -/
theorem C145_views_change_nothing (pg : Nat) (srt : List Spec → List Spec) (w w' : World) (g train test : HGrid) (hg : ∀ i, g ≠ .table i)
    (draw coin : Nat → Nat) (pct : Int) (h : w.split pg srt draw coin pct g = Res.ok (w', train, test)) : w' = w := by
  unfold World.split at h
  obtain ⟨p, hp, h⟩ := Res.bind_eq_ok.1 h
  obtain ⟨sp, _, h⟩ := Res.map_eq_ok.1 h
  cases h
  unfold World.shuffle at hp
  split at hp
  · next i => exact absurd rfl (hg i)
  · cases hp; rfl

/-- Until a call on the table that was split, or a write into a slice it handed out, the parts stay what they were: whatever else the
client does, such as splitting, shuffling, sorting or writing other tables. -/
theorem C145_kept_until_used (pg : Nat) (srt : List Spec → List Spec) (ops after : List MOp) (w w1 w2 : World)
    (h : World.run pg srt ops = Res.ok w) (i : Nat) (hi : i < w.tables.length) (draw coin : Nat → Nat) (pct : Int) (train test : HGrid)
    (hs : w.split pg srt draw coin pct (.table i) = Res.ok (w1, train, test)) (h2 : World.runFrom pg srt w1 after = Res.ok w2)
    (hno : ∀ op ∈ after, ¬ op.actsOn w2.held i) : w2.grid train = w1.grid train ∧ w2.grid test = w1.grid test := by
  have I := run_inv_world pg srt ops h
  unfold World.split World.shuffle at hs
  obtain ⟨p, hp, hs⟩ := Res.bind_eq_ok.1 hs
  obtain ⟨sp, _, hs⟩ := Res.map_eq_ok.1 hs
  obtain ⟨w0, hw, rfl⟩ := Res.map_eq_ok.1 hp
  cases hs
  have I1 := runFrom_inv pg srt _ I hw
  have hlen : i < w0.tables.length := Nat.lt_of_lt_of_le hi (runFrom_count pg srt _ I hw)
  have T := (runFrom_other pg srt i w2.held after I1 h2 ⟨[], by simp⟩ hlen hno).2
  exact ⟨grid_congr _ T, grid_congr _ T⟩

/-- Splitting a table with any contents works. Afterwards the rows of the table may be exchanged any number of times, and anything may
be done that does not act on the table: the two parts still are a partition of the rows of the table before the split. They keep their
sizes. -/
theorem C145_stay_a_partition (pg pg' : Nat) (srt : List Spec → List Spec) (hsrt : ∀ l, (srt l).Perm l) (ops : List MOp) (w : World)
    (h : World.run pg srt ops = Res.ok w) (i : Nat) (hi : i < w.tables.length)
    (made : List Op) (st : St) (hb : ∀ op ∈ made, basicOp op = true) (hrun : Golearn.run pg' made = Res.ok st)
    (hd : (addedAttrs made).Pairwise (fun a b => a.equals b = false)) (ht : w.table i = st.d)
    (draw coin : Nat → Nat) (hdraw : ∀ r, draw r ≤ r) (pct : Int) :
    ∃ w1 train test, w.split pg srt draw coin pct (.table i) = Res.ok (w1, train, test) ∧
      ∀ after w2, World.runFrom pg srt w1 after = Res.ok w2 → (∀ op ∈ after, op.atMostSwaps w2.held i (totalRows made)) →
        SplitsRows (w.grid (.table i)) (totalRows made) (w2.grid train) (w2.grid test) ∧
        (w2.grid train).size.2 = (w1.grid train).size.2 ∧ (w2.grid test).size.2 = (w1.grid test).size.2 := by
  have I := run_inv_world pg srt ops h
  obtain ⟨n, hn⟩ : ∃ n, n = totalRows made := ⟨_, rfl⟩
  rw [← hn]
  have D : DenseOK n (w.table i) := by rw [ht, hn]; exact denseOK_run hb hrun hd
  have hsz : (w.table i).size.2 = n := D.presents.rows
  obtain ⟨sws, hsws⟩ : ∃ s, s = (List.range (w.table i).size.2).map fun r => (r, draw r) := ⟨_, rfl⟩
  have hsw : ∀ p ∈ sws, p.1 < n ∧ p.2 < n := by
    intro p hp
    rw [hsws] at hp
    obtain ⟨r, hr, rfl⟩ := List.mem_map.1 hp
    have := List.mem_range.1 hr
    have := hdraw r
    simp only
    omega
  obtain ⟨d1, e1, D1, A1, C1, L1, F1, V1⟩ := swapAll_spec hsrt sws D hsw
  have R := swaps_run pg srt i sws I hi
  rw [e1] at R
  obtain ⟨w1, hw1, hd1⟩ := Res.map_eq_ok.1 R
  have hA : ∀ a ∈ (w1.grid (.table i)).allAttributes, a ∈ (w1.grid (.table i)).allAttributes := fun a h => h
  have D1' : DenseOK n (w1.table i) := by rw [hd1]; exact D1
  obtain ⟨l, hl⟩ := D1'.presents.resolve_total hA
  obtain ⟨r1, r2⟩ := D1'.presents.resolves hA (specs := srt l) ⟨l, hl, hsrt l⟩
  have hsz1 : (w1.grid (.table i)).size.2 = n := D1'.presents.rows
  refine ⟨w1, w1.visible (.table i) ((List.range n).filter fun r => decide ((coin r : Int) > pct)) (srt l),
    w1.visible (.table i) ((List.range n).filter fun r => !decide ((coin r : Int) > pct)) (srt l), ?_, ?_⟩
  · unfold World.split World.shuffle
    rw [hsws, List.map_map, show (fun p : Nat × Nat => MOp.swap i p.1 p.2) ∘ (fun r => (r, draw r)) = fun r => MOp.swap i r (draw r) from rfl]
      at hw1
    simp only [hw1, Res.map_ok, Res.bind_ok, hsz1, Grid.resolve]
    have hl' : (w1.grid (.table i)).resolveUnsorted (w1.grid (.table i)).allAttributes = Res.ok l := hl
    rw [hl']
    rfl
  · intro after w2 h2 hop
    have I1 := runFrom_inv pg srt _ I hw1
    have hlen : i < w1.tables.length := Nat.lt_of_lt_of_le hi (runFrom_count pg srt _ I hw1)
    obtain ⟨sws2, b2, e2⟩ := swaps_only pg hsrt i n w2.held after I1 hlen D1' h2 ⟨[], by simp⟩ hop
    obtain ⟨d2, e2', D2, A2, C2, L2, F2, V2⟩ := swapAll_spec hsrt sws2 D1' b2
    rw [e2] at e2'
    have hd2 : w2.table i = d2 := Res.ok.inj e2'
    subst hd2
    have hcls : (w2.grid (.table i)).allClassAttributes = (w1.grid (.table i)).allClassAttributes := by
      show (w2.table i).allClassAttributes = (w1.table i).allClassAttributes
      simp only [Dense.allClassAttributes, C2]
    have r2' : Resolved (w2.grid (.table i)) (srt l) := by
      intro s hs
      refine ⟨?_, ?_⟩
      · show s.attr ∈ (w2.table i).allAttributes
        rw [A2]; exact (r2 s hs).1
      · show (w2.table i).getAttribute s.attr = _
        rw [L2]; exact (r2 s hs).2
    have hbnd : ∀ p : Nat → Bool, ∀ r ∈ (List.range n).filter p, r < n := fun p r hr => List.mem_range.1 (List.mem_filter.1 hr).1
    have hA' : ((srt l).map Spec.attr).Perm (w.table i).allAttributes := by
      rw [← A1, ← hd1]; exact r1
    have hV : ∀ a ∈ (w.table i).allAttributes, ∀ q, q < n →
        (w2.grid (.table i)).cell a q = (w.grid (.table i)).cell a (srcRow (sws ++ sws2) q) := by
      intro a ha q hq
      have ha1 : a ∈ (w1.table i).allAttributes := by rw [hd1, A1]; exact ha
      rw [srcRow_append]
      refine (V2 a ha1 q hq).trans ?_
      rw [hd1]
      exact V1 a ha _ (srcRow_lt b2 hq)
    have hall : ∀ p ∈ sws ++ sws2, p.1 < n ∧ p.2 < n := by
      intro p hp
      rcases List.mem_append.1 hp with hp | hp
      · exact hsw p hp
      · exact b2 p hp
    obtain ⟨P1, V1'⟩ := visible_presents D2.presents D2.1 r2' (hbnd fun r => decide ((coin r : Int) > pct))
    obtain ⟨P2, V2'⟩ := visible_presents D2.presents D2.1 r2' (hbnd fun r => !decide ((coin r : Int) > pct))
    obtain ⟨P1o, _⟩ := visible_presents D1'.presents D1'.1 r2 (hbnd fun r => decide ((coin r : Int) > pct))
    obtain ⟨P2o, _⟩ := visible_presents D1'.presents D1'.1 r2 (hbnd fun r => !decide ((coin r : Int) > pct))
    rw [grid_visible i _ _ hcls, grid_visible i _ _ hcls, grid_visible i _ _ rfl, grid_visible i _ _ rfl]
    refine ⟨⟨((List.range n).filter fun r => decide ((coin r : Int) > pct)).map (srcRow (sws ++ sws2)),
      ((List.range n).filter fun r => !decide ((coin r : Int) > pct)).map (srcRow (sws ++ sws2)), ?_, ?_, ?_, hA', hA', ?_, ?_⟩,
      P1.rows.trans P1o.rows.symm, P2.rows.trans P2o.rows.symm⟩
    · rw [← List.map_append]
      refine ((List.filter_append_perm _ _).map _).trans ?_
      exact map_perm_range _ (Equiv.injective _) (fun r hr => srcRow_lt hall hr)
    · rw [List.length_map]; exact P1
    · rw [List.length_map]; exact P2
    · intro a ha r hr
      have h' : r < ((List.range n).filter fun r => decide ((coin r : Int) > pct)).length := by simpa using hr
      refine (V1' a (hA'.symm.subset ha) r h').trans ?_
      refine (hV a ha _ (hbnd _ _ (List.getElem_mem h'))).trans ?_
      rw [List.getElem_map]
    · intro a ha r hr
      have h' : r < ((List.range n).filter fun r => !decide ((coin r : Int) > pct)).length := by simpa using hr
      refine (V2' a (hA'.symm.subset ha) r h').trans ?_
      refine (hV a ha _ (hbnd _ _ (List.getElem_mem h'))).trans ?_
      rw [List.getElem_map]

/-- In particular after the same table has been split again. -/
theorem C145_split_again (pg pg' : Nat) (srt : List Spec → List Spec) (hsrt : ∀ l, (srt l).Perm l) (ops : List MOp) (w : World)
    (h : World.run pg srt ops = Res.ok w) (i : Nat) (hi : i < w.tables.length)
    (made : List Op) (st : St) (hb : ∀ op ∈ made, basicOp op = true) (hrun : Golearn.run pg' made = Res.ok st)
    (hd : (addedAttrs made).Pairwise (fun a b => a.equals b = false)) (ht : w.table i = st.d)
    (draw coin draw' coin' : Nat → Nat) (hdraw : ∀ r, draw r ≤ r) (hdraw' : ∀ r, draw' r ≤ r) (pct pct' : Int) :
    ∃ w1 train test, w.split pg srt draw coin pct (.table i) = Res.ok (w1, train, test) ∧
      ∀ w2 train' test', w1.split pg srt draw' coin' pct' (.table i) = Res.ok (w2, train', test') →
        SplitsRows (w.grid (.table i)) (totalRows made) (w2.grid train) (w2.grid test) ∧
        (w2.grid train).size.2 = (w1.grid train).size.2 ∧ (w2.grid test).size.2 = (w1.grid test).size.2 := by
  obtain ⟨w1, train, test, hs, H⟩ := C145_stay_a_partition pg pg' srt hsrt ops w h i hi made st hb hrun hd ht draw coin hdraw pct
  refine ⟨w1, train, test, hs, fun w2 train' test' h2 => ?_⟩
  have hsz : (w1.table i).size.2 = totalRows made := by
    have hD : DenseOK (totalRows made) (w.table i) := by rw [ht]; exact denseOK_run hb hrun hd
    unfold World.split World.shuffle at hs
    obtain ⟨p, hp, hs⟩ := Res.bind_eq_ok.1 hs
    obtain ⟨sp, _, hs⟩ := Res.map_eq_ok.1 hs
    obtain ⟨w0, hw, rfl⟩ := Res.map_eq_ok.1 hp
    cases hs
    have hR : (w.table i).size.2 = totalRows made := hD.presents.rows
    have R := swaps_run pg srt i ((List.range (w.table i).size.2).map fun r => (r, draw r)) (run_inv_world pg srt ops h) hi
    rw [List.map_map, show (fun p : Nat × Nat => MOp.swap i p.1 p.2) ∘ (fun r => (r, draw r)) = fun r => MOp.swap i r (draw r) from rfl,
      hw, Res.map_ok] at R
    obtain ⟨d1, e1, D1, _⟩ := swapAll_spec hsrt ((List.range (w.table i).size.2).map fun r => (r, draw r)) hD (by
      intro p hp
      obtain ⟨r, hr, rfl⟩ := List.mem_map.1 hp
      have := List.mem_range.1 hr
      have := hdraw r
      simp only
      omega)
    rw [e1] at R
    rw [Res.ok.inj R]
    exact D1.presents.rows
  unfold World.split World.shuffle at h2
  obtain ⟨p, hp, h2⟩ := Res.bind_eq_ok.1 h2
  obtain ⟨sp, _, h2⟩ := Res.map_eq_ok.1 h2
  obtain ⟨w0, hw, rfl⟩ := Res.map_eq_ok.1 hp
  cases h2
  refine H _ w0 hw ?_
  intro op hop
  obtain ⟨r, hr, rfl⟩ := List.mem_map.1 hop
  have := List.mem_range.1 hr
  have := hdraw' r
  exact .inr ⟨r, draw' r, rfl, by omega, by omega⟩

/-! ## The parts change -/

namespace C145

def aX : Attr := ⟨0, .float "x" 2⟩
def aC : Attr := ⟨1, .cat "c" ["a", "b"]⟩
def sx : Spec := ⟨some 0, 0, aX⟩
def sc : Spec := ⟨some 1, 0, aC⟩
/-- A table of two rows: 1, a and 9, b. -/
def table0 : List MOp :=
  [.new, .build 0 (.add aX), .build 0 (.add aC), .build 0 (.addClass aC), .extend 0 2, .make (packU64 1), .make (packU64 9),
   .set 0 sx 0 0, .set 0 sx 1 1, .set 0 sc 1 0]
def made0 : List Op :=
  [.add aX, .add aC, .addClass aC, .extend 2, .set 0 0 (packU64 1), .set 0 1 (packU64 9), .set 1 1 (packU64 1)]
/-- The first split exchanges nothing: row 0 is the training part, row 1 the test part. The second one exchanges the rows. -/
def first0 (w : World) : Res (World × HGrid × HGrid) := w.split 4096 id id (fun r => 1 - r) 0 (.table 0)
def second0 (w : World) : Res (World × HGrid × HGrid) := w.split 4096 id (fun _ => 0) (fun r => r) 5 (.table 0)
/-- The values of an attribute, row by row. -/
def column (a : Attr) (g : Grid) : List Bytes := (List.range g.size.2).map (g.cell a)

end C145

open C145

private theorem both0 : ∃ w w1 w2 train test train' test', World.run 4096 id table0 = Res.ok w ∧
    first0 w = Res.ok (w1, train, test) ∧ second0 w1 = Res.ok (w2, train', test') ∧ 0 < w.tables.length ∧
    (w.table 0).allAttributes = [aX, aC] ∧
    column aX (w1.grid train) = [packU64 1] ∧ column aX (w1.grid test) = [packU64 9] ∧
    column aX (w2.grid train) = [packU64 9] ∧ column aX (w2.grid test) = [packU64 1] ∧
    (w2.grid train).allAttributes = [aX, aC] := by
  refine ⟨_, _, _, _, _, _, _, rfl, rfl, rfl, ?_⟩
  decide +kernel

/-- The parts of a split do not stay what they were: splitting the table again exchanges its rows. -/
theorem C145_not_kept : ¬ PartsKept := by
  intro H
  obtain ⟨w, w1, w2, train, test, train', test', h, h1, h2, hi, _, c1, c2, c3, c4, hA⟩ := both0
  obtain ⟨k, _⟩ := H 4096 id (fun l => List.Perm.refl l) table0 w h 0 hi id (fun r => 1 - r) (fun _ => 0) (fun r => r)
    (fun r => Nat.le_refl r) (fun r => Nat.zero_le r) 0 5 w1 w2 train test train' test' h1 h2
  have e : column aX (w2.grid train) = column aX (w1.grid train) := by
    unfold column
    rw [← k.2.1]
    apply List.map_congr_left
    intro r hr
    exact k.2.2 aX (by rw [hA]; simp) r (List.mem_range.1 hr)
  rw [c3, c1] at e
  revert e
  decide

/-- A test part can come to show rows that were in the training part, and the other way round. -/
theorem C145_test_becomes_training : ∃ w w1 w2 train test train' test', World.run 4096 id table0 = Res.ok w ∧
    w.split 4096 id id (fun r => 1 - r) 0 (.table 0) = Res.ok (w1, train, test) ∧
    w1.split 4096 id (fun _ => 0) (fun r => r) 5 (.table 0) = Res.ok (w2, train', test') ∧
    column aX (w1.grid train) = [packU64 1] ∧ column aX (w1.grid test) = [packU64 9] ∧
    column aX (w2.grid test) = [packU64 1] ∧ column aX (w2.grid train) = [packU64 9] := by
  obtain ⟨w, w1, w2, train, test, train', test', h, h1, h2, hi, _, c1, c2, c3, c4, hA⟩ := both0
  exact ⟨w, w1, w2, train, test, train', test', h, h1, h2, c1, c2, c4, c3⟩

/-- This table meets the hypotheses of `C145_split_again`. -/
example : ∃ w st, World.run 4096 id table0 = Res.ok w ∧ 0 < w.tables.length ∧ (∀ op ∈ made0, basicOp op = true) ∧
    run 4096 made0 = Res.ok st ∧ (addedAttrs made0).Pairwise (fun a b => a.equals b = false) ∧ w.table 0 = st.d ∧ totalRows made0 = 2 := by
  refine ⟨_, _, rfl, ?_, by decide, rfl, by decide, ?_, by decide⟩ <;> decide +kernel

/-! ## A nearest neighbours classifier that was fitted to a part -/

/-- It predicts the same until something acts on the table under its training data. -/
theorem C145_knn_until_used {R : Type} [Field R] [LinearOrder R] (M : KnnMetrics R) (e : KnnEnv R) (c : KnnChoices R) (pg : Nat)
    (srt : List Spec → List Spec) (ops after : List MOp) (w w' : World) (h : World.run pg srt ops = Res.ok w)
    (h' : World.runFrom pg srt w after = Res.ok w') (m : KnnModel) (g : HGrid) (hg : g.root < w.tables.length)
    (hno : ∀ op ∈ after, ¬ op.actsOn w'.held g.root) (what : Grid) :
    knnPredict M e c (w'.knn m g) what = knnPredict M e c (w.knn m g) what := by
  have := (C119_tables_separate pg srt ops after w w' h h' g.root hg hno).2 g rfl
  simp only [World.knn, this]

namespace C145

def fo0 : FloatOps := ⟨fun _ _ => "", fun u v => v.toNat < u.toNat⟩
def M0 : KnnMetrics Rat :=
  ⟨fun x y => (List.zipWith (fun a b => (a - b) * (a - b)) x y).sum, fun x y => (List.zipWith (fun a b => |a - b|) x y).sum, fun _ _ => 0⟩
/-- One row to predict: 2, and no class. -/
def what0 : Dense :=
  match run 4096 [.add ⟨3, .float "x" 2⟩, .add ⟨4, .cat "c" ["a", "b"]⟩, .addClass ⟨4, .cat "c" ["a", "b"]⟩, .extend 1, .set 0 0 (packU64 2)] with
  | .ok st => st.d
  | _ => Dense.new
def env0 : KnnEnv Rat :=
  ⟨fo0, fun _ => none, 4096, fun u => (u.toNat : Rat), fun _ _ => 0, id, fun _ => keySort, [0], fun _ => [0]⟩
def ch0 : KnnChoices Rat :=
  ⟨fun _ l => l, fun data f l => l.insertionSort fun i j => coord (data.getD i []) f ≤ coord (data.getD j []) f, [0],
    fun l => l.insertionSort fun p q => p.1 ≤ q.1, what0.agMap.map Prod.fst, fun _ => what0.agMap.map Prod.fst⟩
/-- One nearest neighbour, Manhattan distance. -/
def nearest0 : KnnModel := ⟨"manhattan", "linear", 1, false, true, .dense Dense.new⟩
def predict0 (w : World) (g : HGrid) : Res String :=
  (knnPredict M0 env0 ch0 (w.knn nearest0 g) (.dense what0)).bind fun d => getClass fo0 (.dense d) 0

end C145

/-- A classifier that was fitted to a training part answers from other rows once the table has been split again: the same row is
predicted a before and b afterwards, by a row that was in the test part. -/
theorem C145_knn_changes : ∃ w w1 w2 train test train' test', World.run 4096 id table0 = Res.ok w ∧
    w.split 4096 id id (fun r => 1 - r) 0 (.table 0) = Res.ok (w1, train, test) ∧
    w1.split 4096 id (fun _ => 0) (fun r => r) 5 (.table 0) = Res.ok (w2, train', test') ∧
    predict0 w1 train = Res.ok "a" ∧ predict0 w2 train = Res.ok "b" := by
  refine ⟨_, _, _, _, _, _, _, rfl, rfl, rfl, ?_⟩
  decide +kernel

/-- The hypotheses of `C145_kept_until_used` and `C145_knn_until_used` are met by making another table and exchanging its rows. -/
example : ∃ w w1 w2 train test, World.run 4096 id table0 = Res.ok w ∧ 0 < w.tables.length ∧ first0 w = Res.ok (w1, train, test) ∧
    World.runFrom 4096 id w1 [.new, .build 1 (.add aX), .extend 1 2, .set 1 sx 0 1, .swap 1 0 1] = Res.ok w2 ∧
    (∀ op ∈ [MOp.new, .build 1 (.add aX), .extend 1 2, .set 1 sx 0 1, .swap 1 0 1], ¬ op.actsOn w2.held 0) ∧ train.root = 0 ∧
    predict0 w2 train = Res.ok "a" ∧ (w2.table 1).get sx 1 = Res.ok (packU64 9) := by
  refine ⟨_, _, _, _, _, rfl, ?_, rfl, rfl, ?_, rfl, ?_, ?_⟩
  · decide +kernel
  · intro op hop
    simp only [List.mem_cons, List.not_mem_nil, or_false] at hop
    rcases hop with rfl | rfl | rfl | rfl | rfl <;> simp [MOp.actsOn]
  · decide +kernel
  · decide +kernel

end Golearn
