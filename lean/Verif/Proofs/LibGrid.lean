import Verif.Proofs.LibTrain
import Verif.Proofs.Regression
import Verif.Props.C24

/-! # Lemmas about fitting to and predicting for instances with liblinear -/

namespace Golearn

section
variable {K : Type} [Field K] [LinearOrder K]

theorem linLabelVec_spec {val : U64 → K} {srt : List Spec → List Spec} (hsrt : PositionSort srt)
    {order : List Nat} {g : Grid} {n : Nat} (P : g.Presents n) (T : g.typed n) (ho : g.RowOrder order) {cls : Attr}
    (hc : g.allClassAttributes = [cls]) (hcin : cls ∈ g.allAttributes) (hcf : cls.isFloat = true) :
    linLabelVec val srt order g = Res.ok ((List.range n).map (g.number val cls)) := by
  unfold linLabelVec
  rw [labelVec_spec hsrt P T ho hc hcin hcf]

/-- Building the problem and training, for data with one float class. -/
theorem fit_spec (solve : Solver K) (toInt : K → Int) {val : U64 → K} {g : Grid} {n : Nat} (hn : n ≠ 0) {cls : Attr}
    {fs : List Attr} (param : LParam K) (weights : List K) (hneg : (-1 : K) < 0) :
    ∃ m nds, ((newProblem ((List.range n).map (g.point val fs)) ((List.range n).map (g.number val cls)) 0).bind fun prob =>
        train solve toInt prob param weights) = Res.ok m ∧
      nds.length = n ∧ (∀ r, r < n → ∃ nd, nds[r]? = some nd ∧ Represents nd (g.point val fs r)) ∧
      m.bias < 0 ∧ m.nrFeature = fs.length + 1 ∧
      TrainedOn solve param weights (fs.length + 1) nds ((List.range n).map fun r => toInt (g.number val cls r)) m := by
  have hr : (List.range n).map (g.point val fs) ≠ [] := by
    intro h
    apply hn
    simpa using h
  have hy : (List.range n).map (g.number val cls) ≠ [] := by
    intro h
    apply hn
    simpa using h
  obtain ⟨p, h1, h2, h3, h4, h5, h6⟩ := newProblem_spec _ _ hr hy
  rw [List.length_map, List.length_range] at h2
  have hpn : p.n = fs.length + 1 := by
    rw [h3 (g.point val fs 0) (by
      rw [List.getElem?_map, List.getElem?_range (Nat.pos_of_ne_zero hn)]
      rfl)]
    simp [Grid.point]
  obtain ⟨m, t1, t2, t3, t4⟩ := train_spec solve toInt p param weights
    ((List.range n).map fun r => sparse (fun v => v ≠ 0) (g.point val fs r) 0) (by simp [h2]) (by simp [h4])
    (by
      intro i r hi
      obtain ⟨hi1, hi2⟩ := List.getElem?_eq_some_iff.1 hi
      simp only [List.length_map, List.length_range] at hi1
      rw [h6 i (g.point val fs i) (by rw [List.getElem?_map, List.getElem?_range hi1]; rfl), ← hi2]
      simp) (by rw [h5]; exact hneg)
  refine ⟨m, (List.range n).map fun r => sparse (fun v => v ≠ 0) (g.point val fs r) 0, ?_, by simp, ?_, by rw [t2, h5]; exact hneg,
    by rw [t3, hpn], ?_⟩
  · rw [h1, Res.bind_ok, t1]
  · intro r hr
    exact ⟨_, by rw [List.getElem?_map, List.getElem?_range hr]; rfl, sparse_nonzero _⟩
  · rw [hpn, h4, List.map_map] at t4
    exact t4

theorem svc_loop {val : U64 → K} {enc : Int → U64} {m : LModel K} {n : Nat} {a : Attr} {vals : Nat → Res (List Bytes)}
    {row : Nat → List Bytes} {pt : Nat → List K} {lab : Nat → Int}
    (hv : ∀ r, r < n → vals r = Res.ok (row r) ∧ readRow val (row r) = Res.ok (pt r))
    (hlab : ∀ r, r < n → libPredict m (pt r) = Res.ok (lab r)) (order : List Nat)
    (hlt : ∀ r ∈ order, r < n) (d : Dense) (hd : PredVec d n a) :
    ∃ d', mapOver vals (svcCallback val enc m ⟨some 0, 0, a⟩) d order = Res.ok (d', false) ∧ PredVec d' n a ∧
      (∀ r ∈ order, d'.get ⟨some 0, 0, a⟩ r = Res.ok (packU64 (enc (lab r)))) ∧
      ∀ r, r < n → r ∉ order → d'.get ⟨some 0, 0, a⟩ r = d.get ⟨some 0, 0, a⟩ r := by
  induction order generalizing d with
  | nil => exact ⟨d, rfl, hd, by simp, by simp⟩
  | cons q qs ih =>
    have hq := hlt q (by simp)
    obtain ⟨d1, w1, w2, w3, w4⟩ := hd.write hq (v := packU64 (enc (lab q))) (packU64_length _)
    obtain ⟨d', i1, i2, i3, i4⟩ := ih (fun r hr => hlt r (by simp [hr])) d1 w2
    refine ⟨d', ?_, i2, ?_, ?_⟩
    · unfold mapOver
      rw [(hv q hq).1, Res.bind_ok]
      unfold svcCallback
      rw [(hv q hq).2, Res.bind_ok, hlab q hq, Res.bind_ok, w1, Res.map_ok, Res.bind_ok]
      exact i1
    · intro r hr
      by_cases hrq : r ∈ qs
      · exact i3 r hrq
      · rcases List.mem_cons.1 hr with rfl | h
        · rw [i4 r hq hrq, w3]
        · exact absurd h hrq
    · intro r hr hrq
      rw [List.mem_cons, not_or] at hrq
      rw [i4 r hr hrq.2, w4 r hr hrq.1]

/-- Predicting for a grid that can be read: the labels are stored in its class column, of whatever type that is. -/
theorem svcPredict_core {val : U64 → K} {enc : Int → U64} {srt : List Spec → List Spec} (hsrt : PositionSort srt) {pg : Nat}
    {order : List Nat} {m : LModel K} {g : Grid} {n : Nat} (hn : g.size.2 = n) (ho : order.Perm (List.range n)) {cls : Attr}
    (hc : g.allClassAttributes = [cls]) (hbin : cls.isBin = false) {fs : List Attr} {sp : Attr → Spec}
    (x1 : g.resolveUnsorted g.nonClassFloats = Res.ok (g.nonClassFloats.map sp))
    (hsp : srt (g.nonClassFloats.map sp) = fs.map sp) (x3 : g.mapPrep (fs.map sp) = Res.ok ()) {row : Nat → List Bytes} {pt : Nat → List K}
    (x4 : ∀ r, r < n → g.rowVals (fs.map sp) r = Res.ok (row r) ∧ readRow val (row r) = Res.ok (pt r)) {lab : Nat → Int}
    (hlab : ∀ r, r < n → libPredict m (pt r) = Res.ok (lab r)) :
    ∃ d, svcPredict val enc srt pg order m g = Res.ok d ∧ PredVec d n cls ∧
      ∀ r, r < n → d.get ⟨some 0, 0, cls⟩ r = Res.ok (packU64 (enc (lab r))) := by
  obtain ⟨ret, g1, g2, _⟩ := generate_any pg hbin hn hc
  obtain ⟨d, l1, l2, l3, _⟩ := svc_loop (enc := enc) x4 hlab order
    (fun r hr => List.mem_range.1 (ho.subset hr)) ret g2
  have hres : (Grid.dense ret).resolve srt [cls] = Res.ok [⟨some 0, 0, cls⟩] := by
    obtain ⟨ss, hss, hp⟩ := positionSort_attrs hsrt [cls]
    have : ss = [cls] := List.perm_singleton.1 hss
    subst this
    unfold Grid.resolve Grid.resolveUnsorted
    have hl : (Grid.dense ret).getAttribute cls = Res.ok ⟨some 0, 0, cls⟩ := g2.lookup
    simp only [mapRes, hl, Res.bind_ok, Res.map_ok]
    have := hp (fun _ => ⟨some 0, 0, cls⟩)
    simp only [List.map_cons, List.map_nil] at this
    rw [this]
  refine ⟨d, ?_, l2, fun r hr => l3 r (ho.symm.subset (List.mem_range.2 hr))⟩
  unfold svcPredict
  rw [hc]
  simp only
  rw [g1, Res.bind_ok, hres, Res.bind_ok]
  unfold Grid.resolve
  rw [x1, Res.map_ok, Res.bind_ok, hsp]
  simp only
  unfold Grid.mapOverRows
  rw [x3, Res.bind_ok, l1]
  rfl

theorem svcPredict_table {val : U64 → K} {enc : Int → U64} {srt : List Spec → List Spec} (hsrt : PositionSort srt) {pg : Nat}
    {order : List Nat} {m : LModel K} {g : Grid} {n : Nat} (P : g.Presents n) (T : g.typed n) (ho : g.RowOrder order) {cls : Attr}
    (hc : g.allClassAttributes = [cls]) (hbin : cls.isBin = false) {fs : List Attr} (hfs : fs.Perm g.nonClassFloats)
    (hsp : ∀ sp : Attr → Spec, srt (g.nonClassFloats.map sp) = fs.map sp) {lab : Nat → Int}
    (hlab : ∀ r, r < n → libPredict m (g.point val fs r) = Res.ok (lab r)) :
    ∃ d, svcPredict val enc srt pg order m g = Res.ok d ∧ PredVec d n cls ∧
      ∀ r, r < n → d.get ⟨some 0, 0, cls⟩ r = Res.ok (packU64 (enc (lab r))) := by
  obtain ⟨sp, x1, x2⟩ := features_spec P T (num := g.nonClassFloats)
    (fun a ha => ⟨a, (nonClassFloats_mem ha).1, C28_equals_refl a, rfl⟩) (fun a ha => (nonClassFloats_mem ha).2)
  obtain ⟨x3, x4⟩ := x2 fs (fun a ha => hfs.subset ha)
  exact svcPredict_core hsrt P.rows (P.order _ ho) hc hbin x1 (hsp sp) x3 (fun r hr => ⟨(x4 r hr).1, (x4 r hr).2 val⟩) hlab

theorem svcPredict_spec {val : U64 → K} {enc : Int → U64} {srt : List Spec → List Spec} (hsrt : PositionSort srt) {pg : Nat}
    {order : List Nat} {m : LModel K} {g : Grid} {n : Nat} (P : g.Presents n) (T : g.typed n) (ho : g.RowOrder order) {cls : Attr}
    (hc : g.allClassAttributes = [cls]) (hcf : cls.isFloat = true) {fs : List Attr} (hfs : fs.Perm g.nonClassFloats)
    (hsp : ∀ sp : Attr → Spec, srt (g.nonClassFloats.map sp) = fs.map sp) {lab : Nat → Int}
    (hlab : ∀ r, r < n → libPredict m (g.point val fs r) = Res.ok (lab r)) :
    ∃ d, svcPredict val enc srt pg order m g = Res.ok d ∧ d.maxRow = n ∧ d.allClassAttributes = [cls] ∧
      ∀ r, r < n → (Grid.dense d).cell cls r = packU64 (enc (lab r)) := by
  have hbin : cls.isBin = false := by
    obtain ⟨p, b⟩ := cls
    cases b <;> first | rfl | cases hcf
  obtain ⟨d, h1, h2, h3⟩ := svcPredict_table (enc := enc) (pg := pg) hsrt P T ho hc hbin hfs hsp hlab
  refine ⟨d, h1, h2.rows, h2.classes, ?_⟩
  intro r hr
  unfold Grid.cell Grid.getAttribute Grid.get
  rw [h2.lookup]
  simp only
  rw [h3 r hr]

end

end Golearn
