import Verif.Proofs.KnnReorder
import Verif.Proofs.SaveBag

/-! # Lemmas: a nearest neighbours classifier whose training data has been written and read -/

namespace Golearn

/-! ## The restored table -/

section
variable {g : Grid} {d : Dense} {order : List Nat} {n : Nat}

/-- Compatibility is decided by the attributes' contents. -/
theorem checkCompatible_restored (h : SameStructure g (.dense d)) (what : Grid) :
    checkCompatible what (.dense d) = checkCompatible what g := by
  have key : ∀ (g1 g2 : Grid), (g1.allAttributes.map Attr.body).Perm (g2.allAttributes.map Attr.body) → ∀ out,
      checkCompatible what g1 = some out → checkCompatible what g2 = some out := by
    intro g1 g2 hp out e
    obtain ⟨e1, e2, e3⟩ := (C26_check_compatible what g1 out).1 e
    refine (C26_check_compatible what g2 out).2 ⟨e1, ?_, ?_⟩
    · rw [e2]
      simpa using hp.length_eq
    · intro a ha
      obtain ⟨b, hb, he⟩ := e3 a ha
      obtain ⟨b', hb', eb⟩ := List.mem_map.1 (hp.subset (List.mem_map_of_mem hb))
      refine ⟨b', hb', ?_⟩
      rw [← he]
      simp only [Attr.equals, eb]
  cases h1 : checkCompatible what g with
  | some out => exact key _ _ h.1.symm out h1
  | none =>
    cases h2 : checkCompatible what (.dense d) with
    | none => rfl
    | some out =>
      have := key _ _ h.1 out h2
      rw [h1] at this
      cases this

/-- The class of a row. -/
theorem getClass_restored {nilVals : Bool} {viaFloat : Int → Int} (hg : GridKept nilVals viaFloat g n) (hr : GridRestored g order n d)
    (ho : order.Perm (List.range n)) (fo : FloatOps) {i : Nat} (hi : i < n) :
    getClass fo (.dense d) i = getClass fo g (rowOf order i) := by
  have hp := hr.same.2.1
  unfold getClass
  cases hc : g.allClassAttributes with
  | nil =>
    have : (Grid.dense d).allClassAttributes = [] := by
      rw [hc] at hp
      simpa using hp.length_eq
    rw [this]
  | cons c cs =>
    cases cs with
    | cons c2 cs =>
      have hl : (Grid.dense d).allClassAttributes.length = cs.length + 2 := by
        have := hp.length_eq
        rw [hc] at this
        simpa using this
      match hd : (Grid.dense d).allClassAttributes with
      | [] => rfl
      | [x] => rw [hd] at hl; simp at hl
      | x :: y :: l => rfl
    | nil =>
      have hl : (Grid.dense d).allClassAttributes.length = 1 := by
        have := hp.length_eq
        rw [hc] at this
        simpa using this
      obtain ⟨c', hc'⟩ := List.length_eq_one_iff.1 hl
      rw [hc']
      dsimp only
      have hcg : c ∈ g.allAttributes := hg.classes c (by rw [hc]; simp)
      obtain ⟨x, hx, ex⟩ := List.mem_map.1 (hr.same.1.symm.subset (List.mem_map_of_mem hcg))
      have hxc : x ∈ (Grid.dense d).allClassAttributes := (hr.same.2.2 c hcg x hx ex).2 (by rw [hc]; simp)
      rw [hc', List.mem_singleton] at hxc
      subst hxc
      obtain ⟨s, r1, _, r2⟩ := hg.presents.read c hcg
      obtain ⟨s', r3, _, r4⟩ := hr.presents.read x hx
      rw [r1, r3]
      simp only [Res.orPanic, Res.bind_ok]
      rw [r2 _ (rowOf_in ho hi), r4 i hi]
      obtain ⟨hh, e⟩ := rowOf_lt ho hi
      rw [hr.cells c hcg x hx ex i hh, e]
      simp only [Res.bind_ok, Attr.getString, ex]

/-- Columns found by equal attributes. -/
theorem cell_restored (hg : g.Presents n) (hr : GridRestored g order n d) (ho : order.Perm (List.range n)) {a : Attr}
    (hf : ∃ b ∈ g.allAttributes, b.equals a = true ∧ g.getAttribute a = g.getAttribute b) {i : Nat} (hi : i < n) :
    (Grid.dense d).cell a i = g.cell a (rowOf order i) := by
  obtain ⟨b, hb, he, hgb⟩ := hf
  obtain ⟨b', hb', eb⟩ := List.mem_map.1 (hr.same.1.symm.subset (List.mem_map_of_mem hb))
  have he' : b'.equals a = true := by
    rw [← he]
    simp only [Attr.equals, eb]
  have h1 : (Grid.dense d).cell a i = (Grid.dense d).cell b' i := by
    unfold Grid.cell
    rw [plain_getAttribute (.dense d) rfl (C28_equals_symm _ _ he')]
  have h2 : g.cell a (rowOf order i) = g.cell b (rowOf order i) := by
    unfold Grid.cell
    rw [hgb]
  obtain ⟨hh, e⟩ := rowOf_lt ho hi
  rw [h1, h2, hr.cells b hb b' hb' eb i hh, e]
end

/-! ## Votes -/

section
variable {fo : FloatOps} {g g' : Grid} {order : List Nat} {n : Nat}

theorem countVotes_rows (hc : ∀ i, i < n → getClass fo g' i = getClass fo g (rowOf order i)) (m : GoMap String Nat) (l : List Nat)
    (hl : ∀ i ∈ l, i < n) : countVotes fo g' m l = countVotes fo g m (l.map (rowOf order)) := by
  induction l generalizing m with
  | nil => rfl
  | cons i l ih =>
    simp only [countVotes, List.map_cons, hc i (hl i (by simp))]
    congr 1
    funext c
    exact ih _ fun j hj => hl j (by simp [hj])

theorem vote_rows (hc : ∀ i, i < n → getClass fo g' i = getClass fo g (rowOf order i)) (ord : List String → List String)
    (m : GoMap String Nat) (l : List Nat) (hl : ∀ i ∈ l, i < n) :
    vote fo g' ord m l = vote fo g ord m (l.map (rowOf order)) := by
  unfold vote
  rw [countVotes_rows hc _ l hl]

variable {R : Type} [Field R] [LinearOrder R]

theorem sumWeights_rows (hc : ∀ i, i < n → getClass fo g' i = getClass fo g (rowOf order i)) (m : GoMap String (WithTop R))
    (l : List (Nat × R)) (hl : ∀ p ∈ l, p.1 < n) :
    sumWeights fo g' m l = sumWeights fo g m (l.map fun p => (rowOf order p.1, p.2)) := by
  induction l generalizing m with
  | nil => rfl
  | cons p l ih =>
    simp only [sumWeights, List.map_cons, hc p.1 (hl p (by simp))]
    congr 1
    funext c
    exact ih _ fun j hj => hl j (by simp [hj])

theorem weightedVote_rows (hc : ∀ i, i < n → getClass fo g' i = getClass fo g (rowOf order i)) (ord : List String → List String)
    (m : GoMap String (WithTop R)) (l : List (Nat × R)) (hl : ∀ p ∈ l, p.1 < n) :
    weightedVote fo g' ord m l = weightedVote fo g ord m (l.map fun p => (rowOf order p.1, p.2)) := by
  unfold weightedVote
  rw [sumWeights_rows hc _ l hl]
end

/-! ## Searches -/

section
variable {R : Type} [LinearOrder R] [Zero R]

/-- A table and its renumbering, seen through resolved specifications. -/
structure SameRows (val : U64 → R) (g g' : Grid) (order : List Nat) (n : Nat) (ts ts' : List Spec) (pt : Nat → List R) : Prop where
  prep : g.mapPrep ts = Res.ok ()
  prep' : g'.mapPrep ts' = Res.ok ()
  rows : ∀ i, i < n → ∃ v v', g.rowVals ts (rowOf order i) = Res.ok v ∧ g'.rowVals ts' i = Res.ok v' ∧
    readRow val v = Res.ok (pt i) ∧ readRow val v' = Res.ok (pt i)

theorem mapOver_points {σ : Type} {vals : Nat → Res (List Bytes)} {cb : σ → List Bytes → Nat → Res (σ × Ctl)} {f : σ → Nat → σ}
    (l : List Nat) (h : ∀ r ∈ l, ∃ v, vals r = Res.ok v ∧ ∀ s, cb s v r = Res.ok (f s r, Ctl.cont)) (s : σ) :
    mapOver vals cb s l = Res.ok (l.foldl f s, false) := by
  induction l generalizing s with
  | nil => rfl
  | cons r l ih =>
    obtain ⟨v, h1, h2⟩ := h r (by simp)
    simp only [mapOver, h1, Res.bind_ok, h2, List.foldl_cons]
    exact ih (fun q hq => h q (by simp [hq])) _

variable {val : U64 → R} {g g' : Grid} {order : List Nat} {n : Nat} {ts ts' : List Spec} {pt : Nat → List R}

theorem linearSearch_sim (ho : order.Perm (List.range n)) (S : SameRows val g g' order n ts ts' pt) (dist : List R → List R → R)
    (srt : (Nat → R) → List Nat → List Nat) (hs : ∀ v l, (srt v l).Perm l) (k : Nat) (x : List R) (m : GoMap Nat R)
    (hm : ∀ p ∈ m, p.1 < n) :
    SimRes (fun p q => (q.1 = renumber order p.1 ∧ ∀ e ∈ p.1, e.1 < n) ∧ q.2 = (p.2.map fun e => (rowOf order e.1, e.2)) ∧
      ∀ e ∈ p.2, e.1 < n)
      (linearSearch val dist srt k g' ts' (List.range n) x m)
      (linearSearch val dist (fun v l => (srt (fun i => v (rowOf order i)) (l.map (rowPos order))).map (rowOf order)) k g ts order x
        (renumber order m)) := by
  have h1 : mapOver (g'.rowVals ts') (distCallback val dist x) m (List.range n) =
      Res.ok ((List.range n).foldl (fun m i => m.set i (dist x (pt i))) m, false) := by
    refine mapOver_points (f := fun m i => m.set i (dist x (pt i))) _ (fun r hr => ?_) m
    obtain ⟨v, v', e1, e2, e3, e4⟩ := S.rows r (List.mem_range.1 hr)
    exact ⟨v', e2, fun s => by rw [distCallback, e4]; rfl⟩
  have h2 : mapOver (g.rowVals ts) (distCallback val dist x) (renumber order m) order =
      Res.ok (order.foldl (fun m r => m.set r (dist x (pt (rowPos order r)))) (renumber order m), false) := by
    refine mapOver_points (f := fun (m : GoMap Nat R) r => m.set r (dist x (pt (rowPos order r)))) _ (fun r hr => ?_) _
    have hr' : rowPos order r < n := by
      rw [rowPos, if_pos hr]
      have := List.idxOf_lt_length_iff.2 hr
      rwa [ho.length_eq, List.length_range] at this
    obtain ⟨v, v', e1, e2, e3, e4⟩ := S.rows _ hr'
    rw [rowOf_rowPos ho] at e1
    exact ⟨v, e1, fun s => by rw [distCallback, e3]; rfl⟩
  have h3 : order.foldl (fun m r => m.set r (dist x (pt (rowPos order r)))) (renumber order m) =
      renumber order ((List.range n).foldl (fun m i => m.set i (dist x (pt i))) m) := by
    conv_lhs => rw [order_eq ho]
    have := renumber_foldl ho (fun i => dist x (pt i)) (List.range n) m
    rw [← order_eq ho] at this ⊢
    exact this
  rw [h3] at h2
  have hkeys : ∀ (l : List Nat) (m : GoMap Nat R), (∀ i ∈ l, i < n) → (∀ p ∈ m, p.1 < n) →
      ∀ p ∈ l.foldl (fun m i => m.set i (dist x (pt i))) m, p.1 < n := by
    intro l
    induction l with
    | nil => intro m _ h; exact h
    | cons i l ih =>
      intro m hl h
      refine ih _ (fun j hj => hl j (by simp [hj])) ?_
      intro p hp
      have := (GoMap.mem_keys_set m i p.1 (dist x (pt i))).1 (List.mem_map_of_mem (f := Prod.fst) hp)
      rcases this with e | e
      · rw [e]; exact hl i (by simp)
      · obtain ⟨q, hq, eq⟩ := List.mem_map.1 e
        rw [← eq]; exact h q hq
  have hkk := hkeys (List.range n) m (fun i hi => List.mem_range.1 hi) hm
  unfold linearSearch Grid.mapOverRows
  rw [S.prep, S.prep']
  simp only [Res.bind_ok, h1, h2, keepState]
  generalize (List.range n).foldl (fun m i => m.set i (dist x (pt i))) m = m1 at hkk ⊢
  have hsort : sortIntMap (fun v l => (srt (fun i => v (rowOf order i)) (l.map (rowPos order))).map (rowOf order)) (renumber order m1) =
      (sortIntMap srt m1).map (rowOf order) := by
    unfold sortIntMap
    simp only [renumber_get ho]
    congr 2
    simp only [renumber, List.map_map]
    apply List.map_congr_left
    intro p _
    exact rowPos_rowOf ho p.1
  have hlt : ∀ i ∈ sortIntMap srt m1, i < n := by
    intro i hi
    obtain ⟨p, hp, e⟩ := List.mem_map.1 ((hs _ _).subset hi)
    rw [← e]; exact hkk p hp
  rw [hsort, List.length_map]
  by_cases hk : k > (sortIntMap srt m1).length
  · rw [if_pos hk, if_pos hk]; exact .panic
  · rw [if_neg hk, if_neg hk]
    refine .ok ⟨⟨rfl, hkk⟩, ?_, ?_⟩
    · simp only [← List.map_take, List.map_map]
      apply List.map_congr_left
      intro i _
      simp only [Function.comp, renumber_get ho]
    · intro e he
      obtain ⟨i, hi, rfl⟩ := List.mem_map.1 he
      exact hlt i (List.mem_of_mem_take hi)

theorem points_restored (ho : order.Perm (List.range n)) (S : SameRows val g g' order n ts ts' pt) :
    keepState (g'.mapOverRows ts' (List.range n) (pointCallback val) []) [] = Res.ok ((List.range n).map fun i => (i, pt i)) ∧
    keepState (g.mapOverRows ts order (pointCallback val) []) [] = Res.ok ((List.range n).map fun i => (rowOf order i, pt i)) := by
  have h1 : mapOver (g'.rowVals ts') (pointCallback val) [] (List.range n) =
      Res.ok ((List.range n).foldl (fun pts i => pts ++ [(i, pt i)]) [], false) := by
    refine mapOver_points (f := fun pts i => pts ++ [(i, pt i)]) _ (fun r hr => ?_) _
    obtain ⟨v, v', e1, e2, e3, e4⟩ := S.rows r (List.mem_range.1 hr)
    exact ⟨v', e2, fun s => by rw [pointCallback, e4]; rfl⟩
  have h2 : mapOver (g.rowVals ts) (pointCallback val) [] order =
      Res.ok (order.foldl (fun pts r => pts ++ [(r, pt (rowPos order r))]) [], false) := by
    refine mapOver_points (f := fun pts r => pts ++ [(r, pt (rowPos order r))]) _ (fun r hr => ?_) _
    have hr' : rowPos order r < n := by
      rw [rowPos, if_pos hr]
      have := List.idxOf_lt_length_iff.2 hr
      rwa [ho.length_eq, List.length_range] at this
    obtain ⟨v, v', e1, e2, e3, e4⟩ := S.rows _ hr'
    rw [rowOf_rowPos ho] at e1
    exact ⟨v, e1, fun s => by rw [pointCallback, e3]; rfl⟩
  rw [point_foldl (fun r => pt (rowPos order r))] at h2
  rw [point_foldl] at h1
  unfold Grid.mapOverRows
  rw [S.prep, S.prep']
  simp only [Res.bind_ok, h1, h2, keepState, List.nil_append]
  refine ⟨trivial, ?_⟩
  conv_lhs => rw [order_eq ho]
  rw [List.map_map]
  congr 1
  apply List.map_congr_left
  intro i _
  simp only [Function.comp]
  rw [← order_eq ho, rowPos_rowOf ho]

theorem treeSearch_sim (dist : List R → List R → R) (k : Nat) {srt : Nat → List Nat → List Nat}
    (hs : SortsBy ((List.range n).map pt) srt) {root : KNode R} (hb : kdBuild srt ((List.range n).map pt) = Res.ok root) (x : List R) :
    SimRes (fun p q => q = (p.map fun e => (rowOf order e.1, e.2)) ∧ ∀ e ∈ p, e.1 < n)
      (treeSearch dist k ((List.range n).map fun i => (i, pt i)) root x)
      (treeSearch dist k ((List.range n).map fun i => (rowOf order i, pt i)) root x) := by
  unfold treeSearch
  simp only [List.map_map, Function.comp_def]
  cases h : kdSearch ((List.range n).map pt) root k dist x with
  | err => exact .err
  | panic => exact .panic
  | ok out =>
    have hin := kdSearch_in hs hb h
    simp only [List.length_map, List.length_range] at hin
    refine .ok ⟨?_, ?_⟩
    · rw [List.map_map]
      apply List.map_congr_left
      intro p hp
      have := hin p hp
      simp [this]
    · intro e he
      obtain ⟨p, hp, rfl⟩ := List.mem_map.1 he
      have := hin p hp
      simp [this]
end

/-! ## Predictions -/

theorem knnNumeric_sub {all num : List Attr} (h : knnNumeric all = Res.ok num) : ∀ a ∈ num, a ∈ all ∧ a.isFloat = true := by
  unfold knnNumeric at h
  dsimp only at h
  intro a ha
  split at h
  · split at h
    · cases h
    · cases h
      exact List.mem_filter.1 (List.dropLast_subset _ ha)
  · cases h
    exact List.mem_filter.1 ha

section
variable {g : Grid} {d : Dense} {order : List Nat} {n : Nat} {nilVals : Bool} {viaFloat : Int → Int}
variable {R : Type} [LinearOrder R] [Zero R]

theorem sameRows_of (hg : GridKept nilVals viaFloat g n) (hr : GridRestored g order n d) (ho : order.Perm (List.range n))
    (hp : g.plain = true) {what : Grid} {all : List Attr} (hc : checkCompatible what g = some all) {num : List Attr}
    (hnum : ∀ a ∈ num, a ∈ all ∧ a.isFloat = true) {srt : List Spec → List Spec} (hs : PositionSort srt) (val : U64 → R) :
    ∃ ts ts' pt, g.resolve srt num = Res.ok ts ∧ (Grid.dense d).resolve srt num = Res.ok ts' ∧
      SameRows val g (.dense d) order n ts ts' pt := by
  obtain ⟨rfl, _, _⟩ := (C26_check_compatible what g all).1 hc
  have hc' := hc
  rw [← checkCompatible_restored hr.same] at hc'
  have hf := plain_finds hp hc
  have hf' := plain_finds (train := .dense d) rfl hc'
  have hfl : ∀ a ∈ num, a.isFloat = true := fun a ha => (hnum a ha).2
  obtain ⟨fs, hfs, hsp⟩ := positionSort_attrs hs num
  obtain ⟨sp, w1, w2⟩ := features_spec hg.presents hg.typed (hf.subset fun a ha => (hnum a ha).1) hfl
  obtain ⟨sp', t1, t2⟩ := features_spec hr.presents hr.typed (hf'.subset fun a ha => (hnum a ha).1) hfl
  obtain ⟨w3, w4⟩ := w2 fs fun a ha => hfs.subset ha
  obtain ⟨t3, t4⟩ := t2 fs fun a ha => hfs.subset ha
  refine ⟨fs.map sp, fs.map sp', (Grid.dense d).point val fs, ?_, ?_, ⟨w3, t3, ?_⟩⟩
  · rw [Grid.resolve, w1, Res.map_ok, hsp]
  · rw [Grid.resolve, t1, Res.map_ok, hsp]
  · intro i hi
    refine ⟨_, _, (w4 _ (rowOf_in ho hi)).1, (t4 i hi).1, ?_, (t4 i hi).2 val⟩
    rw [(w4 _ (rowOf_in ho hi)).2 val]
    congr 1
    unfold Grid.point Grid.number
    apply List.map_congr_left
    intro a ha
    rw [cell_restored hg.presents hr ho (hf a (hnum a (hfs.subset ha)).1) hi]

theorem linear_same (hg : GridKept nilVals viaFloat g n) (hr : GridRestored g order n d) (ho : order.Perm (List.range n))
    (hp : g.plain = true) (e : KnnEnv R) (hs : PositionSort e.srt) (hk : ∀ r v l, (e.sortKeys r v l).Perm l)
    (hT : ∀ r, e.orderT r = List.range n) (k : Nat) (what : Grid) {τ : Type}
    (votes votes' : Nat → List (Nat × R) → τ → Res (τ × String)) (v0 : τ)
    (hv : ∀ row out v, (∀ p ∈ out, p.1 < n) → votes' row out v = votes row (out.map fun p => (rowOf order p.1, p.2)) v) :
    knnPredictLinear e k (.dense d) what votes' v0 = knnPredictLinear (e.reordered order) k g what votes v0 := by
  unfold knnPredictLinear
  rw [checkCompatible_restored hr.same]
  cases hc : checkCompatible what g with
  | none => rfl
  | some all =>
    dsimp only
    cases hn : knnNumeric all with
    | err => rfl
    | panic => rfl
    | ok num =>
      simp only [Res.bind_ok]
      show _ = (generatePredictionVector e.pg what).bind _
      congr 1
      funext ret
      show _ = (what.resolve e.srt num).bind _
      congr 1
      funext ws
      obtain ⟨ts, ts', pt, r1, r2, S⟩ := sameRows_of hg hr ho hp hc (knnNumeric_sub hn) hs e.val
      rw [r2, show (e.reordered order).srt = e.srt from rfl, r1]
      simp only [Res.bind_ok]
      refine knnLoop_sim (Rs := fun m m' => m' = renumber order m ∧ ∀ p ∈ m, p.1 < n) ?_ what ws e.orderW ret v0 (s0 := []) (s0' := [])
        ⟨rfl, by simp⟩
      rintro row x m m' ⟨rfl, hm⟩
      rw [hT row]
      have := linearSearch_sim ho S e.dist (e.sortKeys row) (hk row) k x m hm
      show SimRes _ _ (linearSearch e.val e.dist _ k g ts order x (renumber order m))
      revert this
      generalize linearSearch e.val e.dist (e.sortKeys row) k (.dense d) ts' (List.range n) x m = a
      show SimRes _ _ (linearSearch e.val e.dist ((e.reordered order).sortKeys row) k g ts order x (renumber order m)) → _
      generalize linearSearch e.val e.dist ((e.reordered order).sortKeys row) k g ts order x (renumber order m) = b
      intro this
      cases this with
      | err => exact .err
      | panic => exact .panic
      | ok h =>
        refine .ok ⟨h.1, fun v => ?_⟩
        rw [hv _ _ _ h.2.2, h.2.1]

theorem tree_same (hg : GridKept nilVals viaFloat g n) (hr : GridRestored g order n d) (ho : order.Perm (List.range n))
    (hp : g.plain = true) (e : KnnEnv R) (hs : PositionSort e.srt) (srtKd : List (List R) → Nat → List Nat → List Nat)
    (hkd : ∀ data, SortsBy data (srtKd data)) (k : Nat) (what : Grid) {τ : Type}
    (votes votes' : Nat → List (Nat × R) → τ → Res (τ × String)) (v0 : τ)
    (hv : ∀ row out v, (∀ p ∈ out, p.1 < n) → votes' row out v = votes row (out.map fun p => (rowOf order p.1, p.2)) v) :
    knnPredictTree e srtKd (List.range n) k (.dense d) what votes' v0 =
      knnPredictTree (e.reordered order) srtKd order k g what votes v0 := by
  unfold knnPredictTree
  rw [checkCompatible_restored hr.same]
  cases hc : checkCompatible what g with
  | none => rfl
  | some all =>
    dsimp only
    cases hn : knnNumeric all with
    | err => rfl
    | panic => rfl
    | ok num =>
      simp only [Res.bind_ok]
      show _ = (generatePredictionVector e.pg what).bind _
      congr 1
      funext ret
      show _ = (what.resolve e.srt num).bind _
      congr 1
      funext ws
      obtain ⟨ts, ts', pt, r1, r2, S⟩ := sameRows_of hg hr ho hp hc (knnNumeric_sub hn) hs e.val
      obtain ⟨p1, p2⟩ := points_restored ho S
      rw [r2, show (e.reordered order).srt = e.srt from rfl, r1]
      simp only [Res.bind_ok]
      rw [p1, show (e.reordered order).val = e.val from rfl, p2]
      simp only [Res.bind_ok, List.map_map, Function.comp_def]
      cases hb : kdBuild (srtKd ((List.range n).map pt)) ((List.range n).map pt) with
      | err => rfl
      | panic => rfl
      | ok root =>
        simp only [Res.bind_ok]
        refine knnLoop_sim (Rs := fun _ _ => True) ?_ what ws e.orderW ret v0 (s0 := ()) (s0' := ()) trivial
        rintro row x _ _ _
        have := treeSearch_sim (order := order) e.dist k (hkd _) hb x
        show SimRes _ _ (Res.map _ (treeSearch e.dist k _ root x))
        revert this
        generalize treeSearch e.dist k ((List.range n).map fun i => (i, pt i)) root x = a
        generalize treeSearch e.dist k ((List.range n).map fun i => (rowOf order i, pt i)) root x = b
        intro this
        cases this with
        | err => exact .err
        | panic => exact .panic
        | ok h =>
          refine .ok ⟨trivial, fun v => ?_⟩
          rw [hv _ _ _ h.2, h.1]
end

/-- The general path of the prediction. -/
theorem general_same {R : Type} [Field R] [LinearOrder R] {nilVals : Bool} {viaFloat : Int → Int} {order : List Nat} {n : Nat}
    {m m' : KnnModel} (hg : GridKept nilVals viaFloat m.train n) (hr : m.Restored order n m') (ho : order.Perm (List.range n))
    (hp : m.train.plain = true) (e : KnnEnv R) (hs : PositionSort e.srt) (hk : ∀ r v l, (e.sortKeys r v l).Perm l)
    (hT : ∀ r, e.orderT r = List.range n) (c : KnnChoices R) (hkd : ∀ data, SortsBy data (c.srtKd data))
    (hB : c.orderB = List.range n) (what : Grid) :
    knnGeneral e c m' what = knnGeneral (e.reordered order) { c with orderB := order } m what := by
  obtain ⟨d, ed, hd⟩ := hr.train
  have hcl : ∀ i, i < n → getClass e.fo (.dense d) i = getClass e.fo m.train (rowOf order i) := fun i hi =>
    getClass_restored hg hd ho e.fo hi
  have hvote : ∀ (row : Nat) (out : List (Nat × R)) (v : GoMap String Nat), (∀ p ∈ out, p.1 < n) →
      vote e.fo (.dense d) (c.ord row) v (out.map Prod.fst) =
        vote e.fo m.train (c.ord row) v ((out.map fun p => (rowOf order p.1, p.2)).map Prod.fst) := by
    intro row out v hl
    rw [vote_rows hcl _ _ _ (by
      intro i hi
      obtain ⟨p, hp, rfl⟩ := List.mem_map.1 hi
      exact hl p hp), List.map_map, List.map_map]
    rfl
  have hw : ∀ (row : Nat) (out : List (Nat × R)) (v : GoMap String (WithTop R)), (∀ p ∈ out, p.1 < n) →
      weightedVote e.fo (.dense d) (c.ord row) v out =
        weightedVote e.fo m.train (c.ord row) v (out.map fun p => (rowOf order p.1, p.2)) :=
    fun row out v hl => weightedVote_rows hcl _ _ _ hl
  unfold knnGeneral
  rw [hr.algorithm, hr.weighted, hr.neighbours, ed, hB]
  split
  · split
    · exact linear_same hg hd ho hp e hs hk hT _ what _ _ _ hw
    · exact linear_same hg hd ho hp e hs hk hT _ what _ _ _ hvote
  · split
    · exact tree_same hg hd ho hp e hs _ hkd _ what _ _ _ hw
    · exact tree_same hg hd ho hp e hs _ hkd _ what _ _ _ hvote

end Golearn
