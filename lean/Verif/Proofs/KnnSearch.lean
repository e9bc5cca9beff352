import Verif.Proofs.Knn
import Verif.Props.C42
import Mathlib.Data.List.Induction

/-! # Lemmas: the search for neighbours and the loop over the rows to predict -/

namespace Golearn

/-- The first keys of a map in ascending order of the values. -/
theorem sortIntMap_spec {R : Type} [LinearOrder R] [Zero R] {srt : (Nat → R) → List Nat → List Nat}
    (hs : SortsKeys srt) (m : GoMap Nat R) (hn : (m.map Prod.fst).Nodup) (k : Nat) (hk : k ≤ m.length) :
    let out := (sortIntMap srt m).take k
    out.length = k ∧ out.Nodup ∧ (∀ i ∈ out, i ∈ m.map Prod.fst) ∧
    (out.Pairwise fun i j => (m.get? i).getD 0 ≤ (m.get? j).getD 0) ∧
    ∀ j ∈ m.map Prod.fst, j ∉ out → ∀ i ∈ out, (m.get? i).getD 0 ≤ (m.get? j).getD 0 := by
  intro out
  obtain ⟨hp, hsort⟩ := hs (fun k => (m.get? k).getD 0) (m.map Prod.fst)
  have hlen : (sortIntMap srt m).length = m.length := by
    unfold sortIntMap
    rw [hp.length_eq, List.length_map]
  refine ⟨by rw [List.length_take, hlen]; omega, ?_, ?_, ?_, ?_⟩
  · exact (hp.nodup_iff.2 hn).sublist (List.take_sublist _ _)
  · intro i hi
    exact hp.subset (List.mem_of_mem_take hi)
  · exact hsort.sublist (List.take_sublist _ _)
  · intro j hj hjo i hi
    have hj' : j ∈ sortIntMap srt m := hp.symm.subset hj
    rw [← List.take_append_drop k (sortIntMap srt m)] at hj'
    have hj2 : j ∈ (sortIntMap srt m).drop k := by
      rcases List.mem_append.1 hj' with h | h
      · exact absurd h hjo
      · exact h
    have hs' : (sortIntMap srt m).Pairwise fun i j => (m.get? i).getD 0 ≤ (m.get? j).getD 0 := hsort
    rw [← List.take_append_drop k (sortIntMap srt m), List.pairwise_append] at hs'
    exact hs'.2.2 i hi j hj2

section
variable {R : Type} [LinearOrder R] [Zero R]

omit [LinearOrder R] [Zero R] in
theorem unpack_typed {g : Grid} {n : Nat} (T : g.typed n) {a : Attr} (ha : a ∈ g.allAttributes) (hf : a.isFloat = true)
    {r : Nat} (hr : r < n) : ∃ u, unpackFloatBits (g.cell a r) = Res.ok u := by
  have h := T a ha r hr
  unfold wellFormed at h
  have hb : a.isBin = false := by
    unfold Attr.isFloat at hf; unfold Attr.isBin
    split at hf <;> simp_all
  rw [hb] at h
  obtain ⟨v, hv, _⟩ := C01_pack_unpack (g.cell a r) (by simpa using h)
  exact ⟨v, hv⟩

theorem equals_isFloat {a b : Attr} (h : a.equals b = true) : a.isFloat = b.isFloat := by
  obtain ⟨p, x⟩ := a
  obtain ⟨q, y⟩ := b
  cases x <;> cases y <;> simp_all [Attr.equals, Attr.isFloat]

theorem equals_congr {a b : Attr} (h : a.equals b = true) (x : Attr) : x.equals a = x.equals b := by
  by_cases h1 : x.equals a = true
  · rw [h1, C28_equals_trans x a b h1 h]
  · by_cases h2 : x.equals b = true
    · exact absurd (C28_equals_trans x b a h2 (C28_equals_symm _ _ h)) h1
    · rw [Bool.not_eq_true] at h1 h2
      rw [h1, h2]

theorem dense_getAttribute_equals (d : Dense) {a b : Attr} (h : a.equals b = true) :
    d.getAttribute a = d.getAttribute b := by
  have h1 : ∀ (as : List Attr) (id j : Nat), Dense.findInGroup id a as j = Dense.findInGroup id b as j := by
    intro as
    induction as with
    | nil => intros; rfl
    | cons x xs ih =>
      intro id j
      unfold Dense.findInGroup
      rw [equals_congr h x, ih]
  have h2 : ∀ (gs : List Group) (i : Nat), Dense.findInGroups a gs i = Dense.findInGroups b gs i := by
    intro gs
    induction gs with
    | nil => intros; rfl
    | cons x xs ih =>
      intro i
      unfold Dense.findInGroups
      rw [h1, ih]
  unfold Dense.getAttribute
  rw [h2]

/-- Without filters, equal attributes find the same column. -/
theorem plain_getAttribute (g : Grid) (hp : g.plain = true) {a b : Attr} (h : a.equals b = true) :
    g.getAttribute a = g.getAttribute b := by
  induction g with
  | dense d => exact dense_getAttribute_equals d h
  | view src attrs rows cls mask ih =>
    cases attrs with
    | none => exact ih hp
    | some specs =>
      have h1 : ∀ l : List Spec, Grid.findSpec l a = Grid.findSpec l b := by
        intro l
        induction l with
        | nil => rfl
        | cons x xs ih =>
          unfold Grid.findSpec
          rw [equals_congr h, ih]
      unfold Grid.getAttribute
      rw [h1]
  | filt f src cls unf ih => cases hp

theorem plain_finds {train what : Grid} (hp : train.plain = true) {out : List Attr}
    (h : checkCompatible what train = some out) : train.Finds what.allAttributes := by
  obtain ⟨_, _, hall⟩ := (C26_check_compatible what train out).1 h
  intro a ha
  obtain ⟨b, hb, he⟩ := hall a ha
  exact ⟨b, hb, C28_equals_symm _ _ he, plain_getAttribute train hp he⟩

theorem filterMap_range_getElem? {α : Type} (l : List α) : (List.range l.length).filterMap (fun i => l[i]?) = l := by
  induction l using List.reverseRecOn with
  | nil => rfl
  | append_singleton l a ih =>
    rw [List.length_append, List.length_singleton, List.range_succ, List.filterMap_append]
    have : (List.range l.length).filterMap (fun i => (l ++ [a])[i]?) =
        (List.range l.length).filterMap (fun i => l[i]?) := by
      apply List.filterMap_congr
      intro i hi
      rw [List.getElem?_append_left (List.mem_range.1 hi)]
    rw [this, ih]
    simp

theorem positionSort_attrs {srt : List Spec → List Spec} (hs : PositionSort srt) (as : List Attr) :
    ∃ fs : List Attr, fs.Perm as ∧ ∀ sp : Attr → Spec, srt (as.map sp) = fs.map sp := by
  obtain ⟨σ, h1, h2⟩ := hs
  refine ⟨(σ as.length).filterMap fun i => as[i]?, ?_, fun sp => ?_⟩
  · refine ((h1 as.length).filterMap _).trans ?_
    rw [filterMap_range_getElem?]
  · rw [h2, List.length_map, List.map_filterMap]
    congr 1
    funext i
    simp [Option.map]

/-- What resolving attributes and reading rows gives. -/
theorem features_spec {g : Grid} {n : Nat} (P : g.Presents n) (T : g.typed n) {num : List Attr} (hf : g.Finds num)
    (hnum : ∀ a ∈ num, a.isFloat = true) :
    ∃ sp : Attr → Spec, g.resolveUnsorted num = Res.ok (num.map sp) ∧
      ∀ fs : List Attr, (∀ a ∈ fs, a ∈ num) → g.mapPrep (fs.map sp) = Res.ok () ∧
        ∀ r, r < n → g.rowVals (fs.map sp) r = Res.ok (fs.map fun a => g.cell a r) ∧
          ∀ {R : Type} [Zero R] (val : U64 → R), readRow val (fs.map fun a => g.cell a r) = Res.ok (g.point val fs r) := by
  classical
  have hex : ∀ a, ∃ s, a ∈ num → g.getAttribute a = Res.ok s ∧
      ∃ b ∈ g.allAttributes, b.isFloat = true ∧ g.getAttribute b = Res.ok s ∧ s.attr = b ∧
        ∀ r, g.cell a r = g.cell b r := by
    intro a
    by_cases ha : a ∈ num
    · obtain ⟨b, hb, he, hg⟩ := hf a ha
      obtain ⟨s, h1, h2, _⟩ := P.read b hb
      refine ⟨s, fun _ => ⟨hg.trans h1, b, hb, ?_, h1, h2, ?_⟩⟩
      · rw [equals_isFloat he]; exact hnum a ha
      · intro r
        unfold Grid.cell
        rw [hg]
    · exact ⟨⟨none, 0, a⟩, fun h => absurd h ha⟩
  choose sp hsp using hex
  refine ⟨sp, ?_, ?_⟩
  · unfold Grid.resolveUnsorted
    apply mapRes_of_ok
    intro a ha
    rw [(hsp a ha).1]
  · intro fs hfs
    obtain ⟨i1, i2⟩ := P.iter (fs.map sp) (by
      intro s hs
      obtain ⟨a, ha, rfl⟩ := List.mem_map.1 hs
      obtain ⟨_, b, hb, _, h1, _, _⟩ := hsp a (hfs a ha)
      exact ⟨b, hb, h1⟩)
    refine ⟨i1, fun r hr => ⟨?_, ?_⟩⟩
    · rw [i2 r hr, List.map_map]
      congr 1
      apply List.map_congr_left
      intro a ha
      obtain ⟨_, b, _, _, _, h2, h3⟩ := hsp a (hfs a ha)
      show g.cell (sp a).attr r = g.cell a r
      rw [h2, h3]
    · intro R _ val
      unfold readRow Grid.point
      have he : (fs.map fun a => g.number val a r) =
          (fs.map fun a => g.cell a r).map fun b => match unpackFloatBits b with
            | .ok u => val u
            | _ => 0 := by
        rw [List.map_map]
        rfl
      rw [he]
      apply mapRes_of_ok
      intro b hb
      obtain ⟨a, ha, rfl⟩ := List.mem_map.1 hb
      obtain ⟨_, c, hc, hcf, _, _, h3⟩ := hsp a (hfs a ha)
      obtain ⟨u, hu⟩ := unpack_typed T hc hcf hr
      rw [h3, hu]
      rfl

/-- The distance map after iterating over some rows. -/
theorem dists_foldl (dv : Nat → R) (order : List Nat) (m : GoMap Nat R) (hn : (m.map Prod.fst).Nodup) :
    let m' := order.foldl (fun m r => m.set r (dv r)) m
    (m'.map Prod.fst).Nodup ∧ (∀ r, r ∈ m'.map Prod.fst ↔ r ∈ order ∨ r ∈ m.map Prod.fst) ∧
    ∀ r ∈ order, m'.get? r = some (dv r) := by
  induction order using List.reverseRecOn with
  | nil => exact ⟨hn, by simp, by simp⟩
  | append_singleton order x ih =>
    obtain ⟨h1, h2, h3⟩ := ih
    simp only [List.foldl_append, List.foldl_cons, List.foldl_nil]
    refine ⟨GoMap.nodup_set _ _ _ h1, ?_, ?_⟩
    · intro r
      rw [GoMap.mem_keys_set, h2, List.mem_append, List.mem_singleton]
      tauto
    · intro r hr
      rw [GoMap.get?_set]
      by_cases hx : x = r
      · rw [if_pos hx, hx]
      · rw [if_neg hx]
        rcases List.mem_append.1 hr with h | h
        · exact h3 r h
        · exact absurd (List.mem_singleton.1 h).symm hx

/-- What the map of distances is between two rows. -/
def DistKeys (n : Nat) (m : GoMap Nat R) : Prop := (m.map Prod.fst).Nodup ∧ ∀ r ∈ m.map Prod.fst, r < n

theorem linearSearch_spec {train : Grid} {n : Nat} {specs : List Spec} {fs : List Attr} {val : U64 → R}
    (hprep : train.mapPrep specs = Res.ok ())
    (hrow : ∀ r, r < n → train.rowVals specs r = Res.ok (fs.map fun a => train.cell a r) ∧
      readRow val (fs.map fun a => train.cell a r) = Res.ok (train.point val fs r))
    {order : List Nat} (ho : order.Perm (List.range n)) (dist : List R → List R → R)
    {srt : (Nat → R) → List Nat → List Nat} (hs : SortsKeys srt) {k : Nat} (hk : k ≤ n) (x : List R)
    (m : GoMap Nat R) (hm : DistKeys n m) :
    ∃ m' out, linearSearch val dist srt k train specs order x m = Res.ok (m', out) ∧ DistKeys n m' ∧
      Nearest ((List.range n).map (train.point val fs)) dist x k out := by
  have hlt : ∀ r ∈ order, r < n := fun r hr => List.mem_range.1 (ho.subset hr)
  have hmap := mapOver_all (train.rowVals specs) (fun r => fs.map fun a => train.cell a r) (distCallback val dist x)
    (fun m _ r => m.set r (dist x (train.point val fs r))) order (fun r hr => (hrow r (hlt r hr)).1)
    (by
      intro m r hr
      unfold distCallback
      rw [(hrow r (hlt r hr)).2]
      rfl) m
  obtain ⟨d1, d2, d3⟩ := dists_foldl (fun r => dist x (train.point val fs r)) order m hm.1
  set m' := order.foldl (fun m r => m.set r (dist x (train.point val fs r))) m with hm'
  have hkeys : ∀ r, r ∈ m'.map Prod.fst ↔ r < n := by
    intro r
    rw [d2]
    constructor
    · rintro (h | h)
      · exact hlt r h
      · exact hm.2 r h
    · intro h
      exact Or.inl (ho.symm.subset (List.mem_range.2 h))
  have hlen : m'.length = n := by
    have hp : (m'.map Prod.fst).Perm (List.range n) :=
      (List.perm_ext_iff_of_nodup d1 List.nodup_range).2 (fun r => by rw [hkeys, List.mem_range])
    rw [← List.length_map (f := Prod.fst), hp.length_eq, List.length_range]
  have hval : ∀ r, r < n → (m'.get? r).getD 0 = dist x (((List.range n).map (train.point val fs)).getD r []) := by
    intro r hr
    rw [d3 r (ho.symm.subset (List.mem_range.2 hr))]
    simp [hr]
  obtain ⟨s1, s2, s3, s4, s5⟩ := sortIntMap_spec hs m' d1 k (by omega)
  have hsl : (sortIntMap srt m').length = n := by
    unfold sortIntMap
    rw [(hs _ _).1.length_eq, List.length_map, hlen]
  refine ⟨m', ((sortIntMap srt m').take k).map fun v => (v, (m'.get? v).getD 0), ?_, ⟨d1, fun r hr => (hkeys r).1 hr⟩, ?_⟩
  · unfold linearSearch Grid.mapOverRows
    rw [hprep]
    simp only [Res.bind, hmap, keepState]
    rw [if_neg (by rw [hsl]; omega)]
  · refine ⟨by rw [List.length_map, s1], ?_, ?_, ?_, ?_⟩
    · rw [List.map_map]
      exact (by simpa [Function.comp_def] using s2)
    · intro p hp
      obtain ⟨v, hv, rfl⟩ := List.mem_map.1 hp
      have hvn := (hkeys v).1 (s3 v hv)
      exact ⟨by simpa using hvn, hval v hvn⟩
    · rw [List.pairwise_map]
      exact s4
    · intro q hq hqo p hp
      obtain ⟨v, hv, rfl⟩ := List.mem_map.1 hp
      have hqn : q < n := by simpa using hq
      rw [← hval q hqn]
      refine s5 q ((hkeys q).2 hqn) ?_ v hv
      intro h
      apply hqo
      rw [List.map_map]
      exact List.mem_map.2 ⟨q, h, rfl⟩

/-- The loop over the rows to predict. -/
theorem knn_loop {σ τ : Type} {fo : FloatOps} {parse : String → Option U64} {val : U64 → R} {nW p : Nat} {nm : String}
    {search : Nat → List R → σ → Res (σ × List (Nat × R))} {votes : Nat → List (Nat × R) → τ → Res (τ × String)}
    {vals : Nat → Res (List Bytes)} {row : Nat → List Bytes} {pt : Nat → List R}
    (hvals : ∀ r, r < nW → vals r = Res.ok (row r) ∧ readRow val (row r) = Res.ok (pt r))
    {I : σ → Prop} {P : Nat → List (Nat × R) → Prop} {Q : List (Nat × R) → String → Prop}
    (hsearch : ∀ r, r < nW → ∀ st, I st → ∃ st' out, search r (pt r) st = Res.ok (st', out) ∧ I st' ∧ P r out)
    (hvotes : ∀ r, r < nW → ∀ out m, P r out → ∃ m' c, votes r out m = Res.ok (m', c) ∧ Q out c)
    (order done : List Nat) (hlt : ∀ r ∈ order, r < nW) (hnd : order.Nodup) (hdis : ∀ r ∈ done, r ∉ order)
    (hdl : ∀ r ∈ done, r < nW) (s : KnnState σ τ) (hI : I s.search) (vs : List String)
    (hv : PredVec s.ret nW ⟨p, .cat nm vs⟩) (hb : vs.length + order.length ≤ 2 ^ 64)
    (hdone : ∀ r ∈ done, ∃ out c, P r out ∧ Q out c ∧ getClass fo (.dense s.ret) r = Res.ok c) :
    ∃ s', mapOver vals (knnCallback fo parse val search votes) s order = Res.ok (s', false) ∧
      s'.ret.maxRow = nW ∧
      ∀ r, r ∈ done ∨ r ∈ order → ∃ out c, P r out ∧ Q out c ∧ getClass fo (.dense s'.ret) r = Res.ok c := by
  induction order generalizing s vs done with
  | nil => exact ⟨s, rfl, hv.rows, fun r hr => hdone r (by simpa using hr)⟩
  | cons r rs ih =>
    have hr := hlt r List.mem_cons_self
    obtain ⟨st', out, e1, e2, e3⟩ := hsearch r hr s.search hI
    obtain ⟨m', c, f1, f2⟩ := hvotes r hr out s.votes e3
    rw [List.length_cons] at hb
    obtain ⟨d', vs', g1, g2, _, g4, _, g6, g7⟩ := hv.setClass (fo := fo) (parse := parse) hr (by omega) c
    have hcb : knnCallback fo parse val search votes s (row r) r = Res.ok (⟨d', st', m'⟩, Ctl.cont) := by
      unfold knnCallback
      simp only [(hvals r hr).2, Res.bind, e1, f1, g1, Res.map]
    obtain ⟨s', h1, h2, h3⟩ := ih (r :: done) (fun x hx => hlt x (List.mem_cons_of_mem _ hx)) (List.nodup_cons.1 hnd).2
      (by
        intro x hx
        rcases List.mem_cons.1 hx with rfl | hx
        · exact (List.nodup_cons.1 hnd).1
        · exact fun h => hdis x hx (List.mem_cons_of_mem _ h))
      (by
        intro x hx
        rcases List.mem_cons.1 hx with rfl | hx
        · exact hr
        · exact hdl x hx)
      ⟨d', st', m'⟩ e2 vs' g2 (by omega)
      (by
        intro x hx
        rcases List.mem_cons.1 hx with rfl | hx
        · exact ⟨out, c, e3, f2, g6⟩
        · obtain ⟨out', c', k1, k2, k3⟩ := hdone x hx
          refine ⟨out', c', k1, k2, g7 x (hdl x hx) ?_ c' k3⟩
          intro he
          exact hdis x hx (he ▸ List.mem_cons_self))
    refine ⟨s', ?_, h2, ?_⟩
    · unfold mapOver
      rw [(hvals r hr).1]
      simp only [Res.bind, hcb]
      exact h1
    · intro x hx
      refine h3 x ?_
      rcases hx with hx | hx
      · exact Or.inl (List.mem_cons_of_mem _ hx)
      · rcases List.mem_cons.1 hx with rfl | hx
        · exact Or.inl List.mem_cons_self
        · exact Or.inr hx

theorem knnNumeric_spec {all : List Attr} {c : Attr} (hc : c ∈ all) (hf : c.isFloat = false) :
    knnNumeric all = Res.ok (all.filter Attr.isFloat) := by
  unfold knnNumeric
  simp only
  rw [if_neg]
  intro h
  rw [List.length_filter_eq_length_iff] at h
  rw [h c hc] at hf
  cases hf

theorem Grid.Finds.subset {g : Grid} {as bs : List Attr} (h : g.Finds as) (hs : ∀ b ∈ bs, b ∈ as) : g.Finds bs :=
  fun b hb => h b (hs b hb)

/-- What the votes must do for the prediction: find a good label for any `k` nearest neighbours. -/
theorem knnPredictLinear_spec {τ : Type} (e : KnnEnv R) {k nT nW : Nat} {train what : Grid} {lab : Nat → String}
    {p : Nat} {nm : String} {vs : List String} (D : KnnData e.fo train what nT nW lab ⟨p, .cat nm vs⟩)
    (hsrt : PositionSort e.srt) (hkeys : ∀ r, SortsKeys (e.sortKeys r)) (hoW : what.RowOrder e.orderW)
    (hoT : ∀ r, train.RowOrder (e.orderT r)) (hk : k ≤ nT) (hb : vs.length + nW ≤ 2 ^ 64)
    (votes : Nat → List (Nat × R) → τ → Res (τ × String)) (v0 : τ) (Q : List (Nat × R) → String → Prop)
    (hvotes : ∀ r x out m fs, Nearest ((List.range nT).map (train.point e.val fs)) e.dist x k out →
      ∃ m' c, votes r out m = Res.ok (m', c) ∧ Q out c) :
    ∃ d fs, knnPredictLinear e k train what votes v0 = Res.ok d ∧ d.maxRow = nW ∧
      fs.Perm (what.allAttributes.filter Attr.isFloat) ∧
      ∀ r, r < nW → ∃ out c,
        Nearest ((List.range nT).map (train.point e.val fs)) e.dist (what.point e.val fs r) k out ∧
        Q out c ∧ getClass e.fo (.dense d) r = Res.ok c := by
  set num := what.allAttributes.filter Attr.isFloat with hnum
  have hfl : ∀ a ∈ num, a.isFloat = true := fun a ha => (List.mem_filter.1 ha).2
  have hin : ∀ a ∈ num, a ∈ what.allAttributes := fun a ha => (List.mem_filter.1 ha).1
  obtain ⟨fs, hfs, hsp⟩ := positionSort_attrs hsrt num
  obtain ⟨spW, w1, w2⟩ := features_spec D.whatRows D.whatTyped (num := num)
    (fun a ha => ⟨a, hin a ha, C28_equals_refl a, rfl⟩) hfl
  obtain ⟨spT, t1, t2⟩ := features_spec D.trainRows D.trainTyped (D.finds.subset hin) hfl
  obtain ⟨w3, w4⟩ := w2 fs (fun a ha => hfs.subset ha)
  obtain ⟨t3, t4⟩ := t2 fs (fun a ha => hfs.subset ha)
  obtain ⟨ret, g1, g2, _⟩ := generate_spec e.pg D.whatRows.rows D.whatClass
  have hoW' := D.whatRows.order _ hoW
  obtain ⟨s', h1, h2, h3⟩ := knn_loop (fo := e.fo) (parse := e.parse) (val := e.val) (nW := nW)
    (search := fun row => linearSearch e.val e.dist (e.sortKeys row) k train (fs.map spT) (e.orderT row))
    (votes := votes) (vals := what.rowVals (fs.map spW)) (row := fun r => fs.map fun a => what.cell a r)
    (pt := what.point e.val fs) (fun r hr => ⟨(w4 r hr).1, (w4 r hr).2 e.val⟩)
    (I := DistKeys nT)
    (P := fun r out => Nearest ((List.range nT).map (train.point e.val fs)) e.dist (what.point e.val fs r) k out)
    (Q := Q)
    (fun r hr st hst => linearSearch_spec t3 (fun r hr => ⟨(t4 r hr).1, (t4 r hr).2 e.val⟩)
      (D.trainRows.order _ (hoT r)) e.dist (hkeys r) hk _ st hst)
    (fun r hr out m hP => hvotes r _ out m fs hP)
    e.orderW [] (fun r hr => List.mem_range.1 (hoW'.subset hr)) (hoW'.nodup_iff.2 List.nodup_range)
    (by simp) (by simp) ⟨ret, [], v0⟩ ⟨by simp, by simp⟩ vs g2 (by rw [hoW'.length_eq, List.length_range]; exact hb)
    (by simp)
  refine ⟨s'.ret, fs, ?_, h2, hfs, fun r hr => h3 r (Or.inr (hoW'.symm.subset (List.mem_range.2 hr)))⟩
  unfold knnPredictLinear
  rw [D.same]
  simp only
  rw [knnNumeric_spec D.whatClassIn rfl]
  simp only [Res.bind, g1, Grid.resolve, ← hnum, w1, t1, Res.map, hsp, Grid.mapOverRows, w3, h1, keepState]

/-! ## The k-d tree -/

/-- Neighbours among the points of permuted rows, with the row numbers put back. -/
theorem nearest_permuted {n : Nat} {pt : Nat → List R} {order : List Nat} (ho : order.Perm (List.range n))
    {dist : List R → List R → R} {x : List R} {k : Nat} {out : List (Nat × R)}
    (h : Nearest (order.map pt) dist x k out) :
    Nearest ((List.range n).map pt) dist x k (out.map fun p => (order.getD p.1 0, p.2)) := by
  have hlen : order.length = n := by rw [ho.length_eq, List.length_range]
  have hlt : ∀ p ∈ out, p.1 < order.length := fun p hp => by simpa using (h.real p hp).1
  have hget : ∀ i, i < order.length → ∃ q, q < n ∧ order.getD i 0 = q ∧ order[i]? = some q := by
    intro i hi
    refine ⟨order[i], List.mem_range.1 (ho.subset (List.getElem_mem hi)), ?_, List.getElem?_eq_getElem hi⟩
    simp [hi]
  have hnd : order.Nodup := ho.nodup_iff.2 List.nodup_range
  refine ⟨by rw [List.length_map, h.length], ?_, ?_, ?_, ?_⟩
  · rw [List.map_map]
    show (out.map ((fun i => order.getD i 0) ∘ Prod.fst)).Nodup
    rw [← List.map_map]
    refine List.Nodup.map_on ?_ h.distinct
    intro i hi j hj he
    obtain ⟨p, hp, rfl⟩ := List.mem_map.1 hi
    obtain ⟨q, hq, rfl⟩ := List.mem_map.1 hj
    have h1 := hlt p hp
    have h2 := hlt q hq
    have e1 : order.getD p.1 0 = order[p.1] := by simp [h1]
    have e2 : order.getD q.1 0 = order[q.1] := by simp [h2]
    rw [e1, e2] at he
    exact (List.Nodup.getElem_inj_iff hnd).1 he
  · intro p' hp'
    obtain ⟨p, hp, rfl⟩ := List.mem_map.1 hp'
    obtain ⟨q, h1, h2, h3⟩ := hget p.1 (hlt p hp)
    obtain ⟨_, h4⟩ := h.real p hp
    simp only [h2]
    refine ⟨by simpa using h1, ?_⟩
    rw [h4]
    simp [h3, h1]
  · rw [List.pairwise_map]
    exact h.sorted
  · intro q hq hqo p' hp'
    obtain ⟨p, hp, rfl⟩ := List.mem_map.1 hp'
    have hqn : q < n := by simpa using hq
    obtain ⟨i, hi, hiq⟩ := List.getElem_of_mem (ho.symm.subset (List.mem_range.2 hqn))
    have hin : i ∉ out.map Prod.fst := by
      intro hm
      apply hqo
      obtain ⟨p0, hp0, he⟩ := List.mem_map.1 hm
      rw [List.map_map]
      refine List.mem_map.2 ⟨p0, hp0, ?_⟩
      show order.getD p0.1 0 = q
      rw [he]
      simp [hi, hiq]
    have := h.nearest i (by simpa using hi) hin p hp
    simpa [hi, hiq, hqn] using this

theorem point_foldl (pt : Nat → List R) (order : List Nat) (acc : List (Nat × List R)) :
    order.foldl (fun pts r => pts ++ [(r, pt r)]) acc = acc ++ order.map fun r => (r, pt r) := by
  induction order generalizing acc with
  | nil => simp
  | cons a l ih => rw [List.foldl_cons, ih]; simp

theorem knnPredictTree_spec {τ : Type} (e : KnnEnv R) (srtKd : List (List R) → Nat → List Nat → List Nat)
    (orderB : List Nat) {k nT nW : Nat} {train what : Grid} {lab : Nat → String}
    {p : Nat} {nm : String} {vs : List String} (D : KnnData e.fo train what nT nW lab ⟨p, .cat nm vs⟩)
    (hsrt : PositionSort e.srt) (hoW : what.RowOrder e.orderW) (hoB : train.RowOrder orderB)
    (hnT : 0 < nT) (hfeat : ∃ a ∈ what.allAttributes, a.isFloat = true) (hb : vs.length + nW ≤ 2 ^ 64)
    (hsearch : ∀ fs, fs.Perm (what.allAttributes.filter Attr.isFloat) → ∀ r, r < nW → ∀ root,
      kdBuild (srtKd (orderB.map (train.point e.val fs))) (orderB.map (train.point e.val fs)) = Res.ok root →
      ∃ out, kdSearch (orderB.map (train.point e.val fs)) root k e.dist (what.point e.val fs r) = Res.ok out ∧
        Nearest (orderB.map (train.point e.val fs)) e.dist (what.point e.val fs r) k out)
    (votes : Nat → List (Nat × R) → τ → Res (τ × String)) (v0 : τ) (Q : List (Nat × R) → String → Prop)
    (hvotes : ∀ r x out m fs, Nearest ((List.range nT).map (train.point e.val fs)) e.dist x k out →
      ∃ m' c, votes r out m = Res.ok (m', c) ∧ Q out c) :
    ∃ d fs, knnPredictTree e srtKd orderB k train what votes v0 = Res.ok d ∧ d.maxRow = nW ∧
      fs.Perm (what.allAttributes.filter Attr.isFloat) ∧
      ∀ r, r < nW → ∃ out c,
        Nearest ((List.range nT).map (train.point e.val fs)) e.dist (what.point e.val fs r) k out ∧
        Q out c ∧ getClass e.fo (.dense d) r = Res.ok c := by
  set num := what.allAttributes.filter Attr.isFloat with hnum
  have hfl : ∀ a ∈ num, a.isFloat = true := fun a ha => (List.mem_filter.1 ha).2
  have hin : ∀ a ∈ num, a ∈ what.allAttributes := fun a ha => (List.mem_filter.1 ha).1
  obtain ⟨fs, hfs, hsp⟩ := positionSort_attrs hsrt num
  obtain ⟨spW, w1, w2⟩ := features_spec D.whatRows D.whatTyped (num := num)
    (fun a ha => ⟨a, hin a ha, C28_equals_refl a, rfl⟩) hfl
  obtain ⟨spT, t1, t2⟩ := features_spec D.trainRows D.trainTyped (D.finds.subset hin) hfl
  obtain ⟨w3, w4⟩ := w2 fs (fun a ha => hfs.subset ha)
  obtain ⟨t3, t4⟩ := t2 fs (fun a ha => hfs.subset ha)
  obtain ⟨ret, g1, g2, _⟩ := generate_spec e.pg D.whatRows.rows D.whatClass
  have hoW' := D.whatRows.order _ hoW
  have hoB' := D.trainRows.order _ hoB
  have hltB : ∀ r ∈ orderB, r < nT := fun r hr => List.mem_range.1 (hoB'.subset hr)
  have hmap := mapOver_all (train.rowVals (fs.map spT)) (fun r => fs.map fun a => train.cell a r) (pointCallback e.val)
    (fun pts _ r => pts ++ [(r, train.point e.val fs r)]) orderB (fun r hr => (t4 r (hltB r hr)).1)
    (by
      intro m r hr
      unfold pointCallback
      rw [(t4 r (hltB r hr)).2 e.val]
      rfl) []
  rw [point_foldl, List.nil_append] at hmap
  have hsnd : ((orderB.map fun r => (r, train.point e.val fs r)).map Prod.snd) = orderB.map (train.point e.val fs) := by
    rw [List.map_map]; rfl
  have hfst : ((orderB.map fun r => (r, train.point e.val fs r)).map Prod.fst) = orderB := by
    rw [List.map_map]; exact List.map_id _
  have hfspos : 0 < fs.length := by
    obtain ⟨a, ha, haf⟩ := hfeat
    exact List.length_pos_of_mem (hfs.symm.subset (List.mem_filter.2 ⟨ha, haf⟩))
  have hrect : Rectangular (orderB.map (train.point e.val fs)) fs.length := by
    intro v hv
    obtain ⟨r, _, rfl⟩ := List.mem_map.1 hv
    simp [Grid.point]
  have hne : orderB.map (train.point e.val fs) ≠ [] := by
    intro h
    have := congrArg List.length h
    rw [List.length_map, hoB'.length_eq, List.length_range, List.length_nil] at this
    omega
  obtain ⟨root, hroot⟩ := (C41_accepts (orderB.map (train.point e.val fs))
    (srtKd (orderB.map (train.point e.val fs)))).2.2 fs.length hfspos hne hrect
  obtain ⟨s', h1, h2, h3⟩ := knn_loop (fo := e.fo) (parse := e.parse) (val := e.val) (nW := nW)
    (search := fun _ x _ => (treeSearch e.dist k (orderB.map fun r => (r, train.point e.val fs r)) root x).map
      fun out => ((), out))
    (votes := votes) (vals := what.rowVals (fs.map spW)) (row := fun r => fs.map fun a => what.cell a r)
    (pt := what.point e.val fs) (fun r hr => ⟨(w4 r hr).1, (w4 r hr).2 e.val⟩)
    (I := fun _ => True)
    (P := fun r out => Nearest ((List.range nT).map (train.point e.val fs)) e.dist (what.point e.val fs r) k out)
    (Q := Q)
    (by
      intro r hr st _
      obtain ⟨out, k1, k2⟩ := hsearch fs hfs r hr root hroot
      refine ⟨(), out.map fun p => (orderB.getD p.1 0, p.2), ?_, trivial, nearest_permuted hoB' k2⟩
      unfold treeSearch
      rw [hsnd, hfst, k1]
      rfl)
    (fun r hr out m hP => hvotes r _ out m fs hP)
    e.orderW [] (fun r hr => List.mem_range.1 (hoW'.subset hr)) (hoW'.nodup_iff.2 List.nodup_range)
    (by simp) (by simp) ⟨ret, (), v0⟩ trivial vs g2 (by rw [hoW'.length_eq, List.length_range]; exact hb)
    (by simp)
  refine ⟨s'.ret, fs, ?_, h2, hfs, fun r hr => h3 r (Or.inr (hoW'.symm.subset (List.mem_range.2 hr)))⟩
  unfold knnPredictTree
  rw [D.same]
  simp only
  rw [knnNumeric_spec D.whatClassIn rfl]
  simp only [Res.bind_ok, Res.map_ok, g1, Grid.resolve, ← hnum, w1, t1, hsp, Grid.mapOverRows, w3, t3, hmap, keepState,
    hsnd, hroot, h1]

end

end Golearn
