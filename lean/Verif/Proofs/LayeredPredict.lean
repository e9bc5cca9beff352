import Verif.Proofs.LayeredFit
import Verif.Proofs.LibGrid

/-! # Lemmas about networks in layers: prediction -/

namespace Golearn

section
variable {K : Type} [Field K] [LinearOrder K]

theorem buildInput_spec {val : U64 → K} {size : Nat} {at' : GoMap Attr Nat} {sp : Attr → Spec} {cell : Attr → Bytes} {num : Attr → K}
    (fs : List Attr) (hsp : ∀ a ∈ fs, (sp a).attr = a) (hnum : ∀ a ∈ fs, ∃ u, unpackFloatBits (cell a) = Res.ok u ∧ val u = num a)
    (hat : ∀ a ∈ fs, ∃ i, at'.get? a = some i ∧ i < size) (x : Nat → K) :
    buildInput val size at' (fs.map fun a => (sp a, cell a)) x = Res.ok (putAll (fun a => at'.get? a) num fs x) := by
  induction fs generalizing x with
  | nil => rfl
  | cons a as ih =>
    obtain ⟨u, hu1, hu2⟩ := hnum a (by simp)
    obtain ⟨i, hi1, hi2⟩ := hat a (by simp)
    have ih' := ih (fun a h => hsp a (by simp [h])) (fun a h => hnum a (by simp [h])) (fun a h => hat a (by simp [h]))
    simp only [List.map_cons, buildInput, hu1, Res.bind_ok, hsp a (by simp), hi1, vecSet]
    rw [if_pos hi2, Res.bind_ok, ih', hu2]
    simp only [putAll, List.foldl_cons, hi1]

theorem putAll_congr {f f' : Attr → Option Nat} {num : Attr → K} {as : List Attr} (h : ∀ a ∈ as, f a = f' a) (x : Nat → K) :
    putAll f num as x = putAll f' num as x := by
  unfold putAll
  induction as generalizing x with
  | nil => rfl
  | cons a as ih =>
    rw [List.foldl_cons, List.foldl_cons, h a (by simp)]
    exact ih (fun b hb => h b (by simp [hb])) _

theorem maxLoop_spec (size : Nat) (out : Nat → K) (l : List Nat) (hl : ∀ i ∈ l, i < size) (mi : Nat) (mv : K) :
    ∃ j, maxLoop size out l mi mv = Res.ok j ∧ ((j = mi ∧ ∀ i ∈ l, out i ≤ mv) ∨
      (j ∈ l ∧ mv < out j ∧ ∀ i ∈ l, out i ≤ out j)) := by
  induction l generalizing mi mv with
  | nil => exact ⟨mi, rfl, Or.inl ⟨rfl, by simp⟩⟩
  | cons i is ih =>
    simp only [maxLoop]
    rw [if_pos (hl i (by simp))]
    by_cases h : mv < out i
    · rw [if_pos h]
      obtain ⟨j, h1, h2⟩ := ih (fun k hk => hl k (by simp [hk])) i (out i)
      refine ⟨j, h1, Or.inr ?_⟩
      rcases h2 with ⟨rfl, h3⟩ | ⟨h3, h4, h5⟩
      · exact ⟨by simp, h, by simpa using h3⟩
      · refine ⟨by simp [h3], h.trans h4, ?_⟩
        intro k hk
        rcases List.mem_cons.1 hk with rfl | hk
        · exact h4.le
        · exact h5 k hk
    · rw [if_neg h]
      obtain ⟨j, h1, h2⟩ := ih (fun k hk => hl k (by simp [hk])) mi mv
      refine ⟨j, h1, ?_⟩
      rcases h2 with ⟨rfl, h3⟩ | ⟨h3, h4, h5⟩
      · refine Or.inl ⟨rfl, ?_⟩
        intro k hk
        rcases List.mem_cons.1 hk with rfl | hk
        · exact not_lt.1 h
        · exact h3 k hk
      · refine Or.inr ⟨by simp [h3], h4, ?_⟩
        intro k hk
        rcases List.mem_cons.1 hk with rfl | hk
        · exact (not_lt.1 h).trans h4.le
        · exact h5 k hk

/-- Writing one value per row into a prediction vector. -/
theorem writes_loop {cb : Dense → List Bytes → Nat → Res (Dense × Ctl)} {n : Nat} {a : Attr} {vals : Nat → Res (List Bytes)}
    {row : Nat → List Bytes} {v : Nat → Bytes} (hlen : ∀ r, (v r).length = 8) (hv : ∀ r, r < n → vals r = Res.ok (row r))
    (hcb : ∀ d r, r < n → cb d (row r) r = (d.set ⟨some 0, 0, a⟩ r (v r)).map fun d => (d, Ctl.cont)) (order : List Nat)
    (hlt : ∀ r ∈ order, r < n) (d : Dense) (hd : PredVec d n a) :
    ∃ d', mapOver vals cb d order = Res.ok (d', false) ∧ PredVec d' n a ∧
      (∀ r ∈ order, d'.get ⟨some 0, 0, a⟩ r = Res.ok (v r)) ∧
      ∀ r, r < n → r ∉ order → d'.get ⟨some 0, 0, a⟩ r = d.get ⟨some 0, 0, a⟩ r := by
  induction order generalizing d with
  | nil => exact ⟨d, rfl, hd, by simp, by simp⟩
  | cons q qs ih =>
    have hq := hlt q (by simp)
    obtain ⟨d1, w1, w2, w3, w4⟩ := hd.write hq (v := v q) (hlen q)
    obtain ⟨d', i1, i2, i3, i4⟩ := ih (fun r hr => hlt r (by simp [hr])) d1 w2
    refine ⟨d', ?_, i2, ?_, ?_⟩
    · unfold mapOver
      rw [hv q hq, Res.bind_ok, hcb d q hq, w1, Res.map_ok, Res.bind_ok]
      exact i1
    · intro r hr
      by_cases hrq : r ∈ qs
      · exact i3 r hrq
      · rcases List.mem_cons.1 hr with rfl | h
        · rw [i4 r hq hrq, w3]
        · exact absurd h hrq
    · intro r hr hrq
      rw [List.mem_cons, not_or] at hrq
      rw [i4 r hr hrq.2, w4 r hr hrq.1]

/-- Inputs that are numbers stay as they are. -/
theorem normal_floats {g : Grid} {n : Nat} {fresh : Nat → Nat} (FG : FloatGrid g n fresh)
    (hfl : ∀ a ∈ g.allAttributes, a ∉ g.allClassAttributes → a.isFloat = true) (x : Attr) :
    x ∈ (convertToFloatInsts fresh g).normalAttrs ↔ x ∈ g.allAttributes ∧ x ∉ g.allClassAttributes := by
  obtain ⟨_, _, _, k2⟩ := C27_references (convertToFloatInsts fresh g).allAttributes (convertToFloatInsts fresh g).allClassAttributes
    _ _ (List.Perm.refl _) (List.Perm.refl _)
  show x ∈ attrDifferenceRefs _ _ ↔ _
  rw [k2]
  constructor
  · rintro ⟨h1, h2⟩
    obtain ⟨p, hp, rfl⟩ := (FG.mem x).1 h1
    have hold := FG.old p hp
    have hnc : p.old ∉ g.allClassAttributes := fun h => h2 ((FG.cls _).2 ⟨p, hp, h, rfl⟩)
    have := (FG.same p.old hold (hfl _ hold hnc)).1
    have hm := mem_outputs hp
    rw [this, List.mem_singleton] at hm
    rw [hm]
    exact ⟨hold, hnc⟩
  · rintro ⟨h1, h2⟩
    have hs := (FG.same x h1 (hfl x h1 h2)).1
    have hp : (⟨x, x⟩ : FAttr) ∈ (Conv.float fresh g.allAttributes).attrs := of_mem_outputs (by rw [hs]; simp)
    refine ⟨(FG.mem x).2 ⟨_, hp, rfl⟩, ?_⟩
    intro hcl
    obtain ⟨q, hq, hq1, hq2⟩ := (FG.cls x).1 hcl
    have := FG.inj _ hp q hq hq2
    rw [← this] at hq1
    exact h2 hq1

variable [IsStrictOrderedRing K]

/-- What reading the rows of the data to be predicted gives. -/
theorem predict_rows {val : U64 → K} {srt : List Spec → List Spec} (hsrt : PositionSort srt) {what : Grid} {nW : Nat}
    {fresh : Nat → Nat} (FW : FloatGrid what nW fresh)
    (hfl : ∀ a ∈ what.allAttributes, a ∉ what.allClassAttributes → a.isFloat = true) {inputs : List Attr → List Attr}
    (hperm : (inputs (convertToFloatInsts fresh what).normalAttrs).Perm (convertToFloatInsts fresh what).normalAttrs)
    {ins : List Attr} (hnd : ins.Nodup) (hins : ∀ a, a ∈ ins ↔ a ∈ what.allAttributes ∧ a ∉ what.allClassAttributes)
    {at' : GoMap Attr Nat} (hat : ∀ a ∈ ins, at'.get? a = some (ins.idxOf a)) {size : Nat} (hsz : ins.length ≤ size) :
    ∃ (inAs : List Spec) (row : Nat → List Bytes),
      (convertToFloatInsts fresh what).resolve srt (inputs (convertToFloatInsts fresh what).normalAttrs) = Res.ok inAs ∧
      (convertToFloatInsts fresh what).mapPrep inAs = Res.ok () ∧
      ∀ r, r < nW → (convertToFloatInsts fresh what).rowVals inAs r = Res.ok (row r) ∧
        buildInput val size at' (inAs.zip (row r)) (fun _ => 0) = Res.ok (placed (what.number val) 0 ins r) := by
  set insts := convertToFloatInsts fresh what with hinsts
  set num := inputs insts.normalAttrs with hnum
  have hmem : ∀ a, a ∈ num ↔ a ∈ what.allAttributes ∧ a ∉ what.allClassAttributes := by
    intro a
    rw [hperm.mem_iff]
    exact normal_floats FW hfl a
  have hall : ∀ a ∈ num, a ∈ insts.allAttributes := by
    intro a ha
    obtain ⟨h1, h2⟩ := (hmem a).1 ha
    have hs := (FW.same a h1 (hfl a h1 h2)).1
    exact (FW.mem a).2 ⟨⟨a, a⟩, of_mem_outputs (by rw [hs]; simp), rfl⟩
  obtain ⟨fs, f1, f2⟩ := positionSort_attrs hsrt num
  obtain ⟨sp, x1, x2⟩ := features_spec FW.presents FW.typed (num := num)
    (fun a ha => ⟨a, hall a ha, C28_equals_refl a, rfl⟩) (fun a ha => FW.floats a (hall a ha))
  obtain ⟨x3, x4⟩ := x2 fs (fun a ha => f1.subset ha)
  obtain ⟨specs, y1, y2, _⟩ := resolveUnsorted_attrs FW.presents (as := num) hall
  rw [x1] at y1
  simp only [Res.ok.injEq] at y1
  rw [← y1, List.map_map] at y2
  have hsp : ∀ a ∈ num, (sp a).attr = a := fun a ha => List.map_inj_left.1 (y2.trans (List.map_id _).symm) a ha
  refine ⟨fs.map sp, fun r => fs.map fun a => insts.cell a r, ?_, x3, ?_⟩
  · unfold Grid.resolve
    rw [x1, Res.map_ok, f2]
  · intro r hr
    refine ⟨(x4 r hr).1, ?_⟩
    rw [List.zip_map']
    have hcell : ∀ a ∈ fs, insts.cell a r = what.cell a r := by
      intro a ha
      obtain ⟨h1, h2⟩ := (hmem a).1 (f1.subset ha)
      exact (FW.same a h1 (hfl a h1 h2)).2 r hr
    rw [buildInput_spec (num := fun a => what.number val a r) fs (fun a ha => hsp a (f1.subset ha))]
    · congr 1
      rw [← putAll_placed hnd (as := fs) (fun a ha => f1.symm.subset ((hmem a).2 ((hins a).1 ha)))]
      apply putAll_congr
      intro a ha
      have : a ∈ ins := (hins a).2 ((hmem a).1 (f1.subset ha))
      rw [hat a this, if_pos this, zero_add]
    · intro a ha
      obtain ⟨u, hu⟩ := unpack_typed FW.typed (hall a (f1.subset ha)) (FW.floats a (hall a (f1.subset ha))) hr
      refine ⟨u, hu, ?_⟩
      unfold Grid.number
      rw [← hcell a ha, hu]
    · intro a ha
      have : a ∈ ins := (hins a).2 ((hmem a).1 (f1.subset ha))
      exact ⟨_, hat a this, lt_of_lt_of_le (List.idxOf_lt_length_of_mem this) hsz⟩

theorem sigmoid_pos {exp : K → K} (hexp : ∀ v, 0 < exp v) (v : K) : 0 < (sigmoidFn exp).forward v := by
  unfold sigmoidFn
  have := hexp (-v)
  positivity

theorem resolve_predVec {srt : List Spec → List Spec} (hsrt : PositionSort srt) {d : Dense} {n : Nat} {a : Attr} (h : PredVec d n a) :
    (Grid.dense d).resolve srt [a] = Res.ok [⟨some 0, 0, a⟩] := by
  obtain ⟨ss, hss, hp⟩ := positionSort_attrs hsrt [a]
  have : ss = [a] := List.perm_singleton.1 hss
  subst this
  unfold Grid.resolve Grid.resolveUnsorted
  have hl : (Grid.dense d).getAttribute a = Res.ok ⟨some 0, 0, a⟩ := h.lookup
  simp only [mapRes, hl, Res.bind_ok, Res.map_ok]
  have := hp (fun _ => ⟨some 0, 0, a⟩)
  simp only [List.map_cons, List.map_nil] at this
  rw [this]

theorem convert_order {g : Grid} (fresh : Nat → Nat) {o : List Nat} (h : g.RowOrder o) :
    (convertToFloatInsts fresh g).RowOrder o := by
  obtain ⟨cl, e⟩ := newFiltered_shape g (Conv.float fresh g.allAttributes)
  unfold convertToFloatInsts
  rw [e]
  exact h

/-- Prediction of a categorical class. -/
theorem predict_cat {exp : K → K} (hexp : ∀ v, 0 < exp v) {val : U64 → K} {bits : K → U64} {srt : List Spec → List Spec}
    (hsrt : PositionSort srt) (pg : Nat) {run : NetRun K} {m : MLNet K} {what : Grid} {nW : Nat} (FW : FloatGrid what nW run.fresh)
    (ho : what.RowOrder (run.order 0)) {cw : Attr} (hcw : what.allClassAttributes = [cw]) (hcat : cw.isCat = true)
    (hrows : what.size.2 = nW) (hfl : ∀ a ∈ what.allAttributes, a ∉ what.allClassAttributes → a.isFloat = true)
    (hperm : (run.inputs (convertToFloatInsts run.fresh what).normalAttrs).Perm (convertToFloatInsts run.fresh what).normalAttrs)
    {ins : List Attr} (hnd : ins.Nodup) (hins : ∀ a, a ∈ ins ↔ a ∈ what.allAttributes ∧ a ∉ what.allClassAttributes)
    (hat : ∀ a ∈ ins, m.attrs.get? a = some (ins.idxOf a)) {n : Network K} (hnet : m.network = some n) {ls : List Nat} {sz L : Nat}
    (H : Shape exp ls sz ins.length L n) (hL : L ≤ 2 + m.layers.length) (hoff : ins.length ≤ m.classAttrOffset)
    (hend : m.classAttrOffset + m.classAttrCount ≤ sz) (hpos : 0 < m.classAttrCount) :
    ∃ d, m.predict val bits srt pg run what = Res.ok d ∧ d.maxRow = nW ∧ d.allClassAttributes = [cw] ∧
      PredictsGreatest n (placed (what.number val) 0 ins) (fun j => m.classAttrOffset + j) m.classAttrCount nW cw d := by
  have hbin : cw.isBin = false := by
    obtain ⟨p, b⟩ := cw
    cases b <;> first | rfl | cases hcat
  have hflo : cw.isFloat = false := by
    obtain ⟨p, b⟩ := cw
    cases b <;> first | rfl | cases hcat
  obtain ⟨ret, g1, g2, _⟩ := generate_any pg hbin hrows hcw
  obtain ⟨inAs, row, r1, r2, r3⟩ := predict_rows (val := val) hsrt FW hfl hperm hnd hins hat (size := n.size)
    (by have := H.inv.1.fits; rw [H.input] at this; exact this)
  set x := placed (what.number val) 0 ins with hx
  set out := fun r => n.activate (2 + m.layers.length) (x r) with hout
  have hff : ∀ r, n.FeedForward (x r) (out r) := fun r => H.inv.1.feedForward _ hL
  have hmax : ∀ r, ∃ j, maxLoop n.size (out r) ((List.range m.classAttrCount).map (m.classAttrOffset + ·)) 0 0 = Res.ok (m.classAttrOffset + j) ∧
      j < m.classAttrCount ∧ ∀ k, k < m.classAttrCount → out r (m.classAttrOffset + k) ≤ out r (m.classAttrOffset + j) := by
    intro r
    obtain ⟨j, h1, h2⟩ := maxLoop_spec n.size (out r) ((List.range m.classAttrCount).map (m.classAttrOffset + ·))
      (by
        intro i hi
        simp only [List.mem_map, List.mem_range] at hi
        obtain ⟨k, hk, rfl⟩ := hi
        rw [H.size]
        omega) 0 0
    rcases h2 with ⟨_, h3⟩ | ⟨h3, _, h5⟩
    · exfalso
      have h4 := h3 m.classAttrOffset (by
        simp only [List.mem_map, List.mem_range]
        exact ⟨0, hpos, by omega⟩)
      have := (hff r).others m.classAttrOffset (by rw [H.input]; exact hoff) (by rw [H.size]; omega)
      rw [this, H.sigmoid _ hoff] at h4
      exact absurd h4 (not_le.2 (sigmoid_pos hexp _))
    · simp only [List.mem_map, List.mem_range] at h3
      obtain ⟨k, hk, rfl⟩ := h3
      refine ⟨k, h1, hk, ?_⟩
      intro i hi
      exact h5 _ (by simp only [List.mem_map, List.mem_range]; exact ⟨i, hi, rfl⟩)
  obtain ⟨pick, hpick⟩ := Classical.axiomOfChoice hmax
  have hord : ∀ r ∈ run.order 0, r < nW := fun r hr =>
    List.mem_range.1 ((FW.presents.order _ (convert_order run.fresh ho)).subset hr)
  obtain ⟨d, l1, l2, l3, _⟩ := writes_loop (cb := predictCallback val bits m n false inAs [⟨some 0, 0, cw⟩])
    (v := fun r => stored (pick r)) (fun r => packU64_length _) (fun r hr => (r3 r hr).1)
    (by
      intro d r hr
      unfold predictCallback
      rw [(r3 r hr).2, Res.bind_ok]
      simp only [Bool.false_eq_true, if_false]
      rw [(hpick r).1, Res.bind_ok]
      have : BitVec.ofInt 64 (((m.classAttrOffset + pick r : Nat) : Int) - (m.classAttrOffset : Int)) = BitVec.ofNat 64 (pick r) := by
        have e : (((m.classAttrOffset + pick r : Nat) : Int) - (m.classAttrOffset : Int)) = ((pick r : Nat) : Int) := by
          push_cast; ring
        rw [e, BitVec.ofInt_natCast]
      rw [this]
      rfl) (run.order 0) hord ret g2
  refine ⟨d, ?_, l2.rows, l2.classes, ?_⟩
  · unfold MLNet.predict
    rw [g1, Res.bind_ok, g2.classes]
    simp only [List.any_cons, List.any_nil, hbin, List.countP_cons, List.countP_nil, hflo, hcat, hnet]
    rw [if_neg (by simp), if_neg (by simp), if_neg (by simp)]
    rw [r1, Res.bind_ok, resolve_predVec hsrt g2, Res.bind_ok]
    unfold Grid.mapOverRows
    rw [r2, Res.bind_ok]
    simp only [Bool.false_eq_true, if_false, if_true, add_zero, zero_add, lt_irrefl, decide_false]
    rw [l1]
    rfl
  · intro r hr
    refine ⟨out r, hff r, pick r, (hpick r).2.1, ?_, (hpick r).2.2⟩
    have hm : r ∈ run.order 0 := (FW.presents.order _ (convert_order run.fresh ho)).symm.subset (List.mem_range.2 hr)
    have := l3 r hm
    unfold Grid.cell Grid.getAttribute Grid.get
    rw [l2.lookup]
    simp only
    rw [this]

/-- Prediction of a number. -/
theorem predict_float {exp : K → K} {val : U64 → K} {bits : K → U64} {srt : List Spec → List Spec}
    (hsrt : PositionSort srt) (pg : Nat) {run : NetRun K} {m : MLNet K} {what : Grid} {nW : Nat} (FW : FloatGrid what nW run.fresh)
    (ho : what.RowOrder (run.order 0)) {cw : Attr} (hcw : what.allClassAttributes = [cw]) (hflo : cw.isFloat = true)
    (hrows : what.size.2 = nW) (hfl : ∀ a ∈ what.allAttributes, a ∉ what.allClassAttributes → a.isFloat = true)
    (hperm : (run.inputs (convertToFloatInsts run.fresh what).normalAttrs).Perm (convertToFloatInsts run.fresh what).normalAttrs)
    {ins : List Attr} (hnd : ins.Nodup) (hins : ∀ a, a ∈ ins ↔ a ∈ what.allAttributes ∧ a ∉ what.allClassAttributes)
    (hat : ∀ a ∈ ins, m.attrs.get? a = some (ins.idxOf a)) {n : Network K} (hnet : m.network = some n) {ls : List Nat} {sz L : Nat}
    (H : Shape exp ls sz ins.length L n) (hL : L ≤ 2 + m.layers.length) {o : Nat} (hcl : m.attrs.get? cw = some o) (hlt : o < sz) :
    ∃ d, m.predict val bits srt pg run what = Res.ok d ∧ d.maxRow = nW ∧ d.allClassAttributes = [cw] ∧
      ∀ r, r < nW → ∃ F, n.FeedForward (placed (what.number val) 0 ins r) F ∧
        (Grid.dense d).cell cw r = packU64 (bits (F o)) := by
  have hbin : cw.isBin = false := by
    obtain ⟨p, b⟩ := cw
    cases b <;> first | rfl | cases hflo
  have hcat : cw.isCat = false := by
    obtain ⟨p, b⟩ := cw
    cases b <;> first | rfl | cases hflo
  obtain ⟨ret, g1, g2, _⟩ := generate_any pg hbin hrows hcw
  obtain ⟨inAs, row, r1, r2, r3⟩ := predict_rows (val := val) hsrt FW hfl hperm hnd hins hat (size := n.size)
    (by have := H.inv.1.fits; rw [H.input] at this; exact this)
  set x := placed (what.number val) 0 ins with hx
  set out := fun r => n.activate (2 + m.layers.length) (x r) with hout
  have hff : ∀ r, n.FeedForward (x r) (out r) := fun r => H.inv.1.feedForward _ hL
  have hord : ∀ r ∈ run.order 0, r < nW := fun r hr =>
    List.mem_range.1 ((FW.presents.order _ (convert_order run.fresh ho)).subset hr)
  obtain ⟨d, l1, l2, l3, _⟩ := writes_loop (cb := predictCallback val bits m n true inAs [⟨some 0, 0, cw⟩])
    (v := fun r => packU64 (bits (out r o))) (fun r => packU64_length _) (fun r hr => (r3 r hr).1)
    (by
      intro d r hr
      unfold predictCallback
      rw [(r3 r hr).2, Res.bind_ok]
      simp only [if_true, setFloats, hcl, Option.getD_some]
      rw [if_pos (by rw [H.size]; exact hlt)]
      show ((d.set _ _ _).bind fun d' => Res.ok d').map _ = _
      cases d.set ⟨some 0, 0, cw⟩ r (packU64 (bits (n.activate (2 + m.layers.length) (x r) o))) <;> rfl) (run.order 0) hord ret g2
  refine ⟨d, ?_, l2.rows, l2.classes, ?_⟩
  · unfold MLNet.predict
    rw [g1, Res.bind_ok, g2.classes]
    simp only [List.any_cons, List.any_nil, hbin, List.countP_cons, List.countP_nil, hflo, hcat, hnet]
    rw [if_neg (by simp), if_neg (by simp), if_neg (by simp)]
    rw [r1, Res.bind_ok, resolve_predVec hsrt g2, Res.bind_ok]
    unfold Grid.mapOverRows
    rw [r2, Res.bind_ok]
    simp only [if_true, zero_add, zero_lt_one, decide_true]
    rw [l1]
    rfl
  · intro r hr
    refine ⟨out r, hff r, ?_⟩
    have hm : r ∈ run.order 0 := (FW.presents.order _ (convert_order run.fresh ho)).symm.subset (List.mem_range.2 hr)
    have := l3 r hm
    unfold Grid.cell Grid.getAttribute Grid.get
    rw [l2.lookup]
    simp only
    rw [this]

end

end Golearn
