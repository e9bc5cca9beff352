import Verif.Proofs.LayeredPredict
import Verif.Proofs.LayeredStart

/-! # Lemmas about networks in layers: the class attribute -/

namespace Golearn

theorem outputs_nodup {l : List FAttr} (h : (l.map fun p => p.new.name).Nodup) (c : Attr) : (outputs l c).Nodup := by
  have h1 : (l.map FAttr.new).Nodup := by
    have : (l.map fun p => p.new.name) = (l.map FAttr.new).map Attr.name := by simp
    rw [this] at h
    exact List.Nodup.of_map _ h
  unfold outputs
  exact h1.sublist (List.filter_sublist.map _)

/-- The class attributes after conversion are the outputs of the class attribute. -/
theorem class_perm {g : Grid} {n : Nat} {fresh : Nat → Nat} {c : Attr} (D : ClassData g n (Conv.float fresh g.allAttributes) c) :
    (convertToFloatInsts fresh g).allClassAttributes.Perm (outputs (Conv.float fresh g.allAttributes).attrs c) := by
  have FG := floatGrid D.toNetData
  rw [List.perm_ext_iff_of_nodup FG.clsNodup (outputs_nodup D.names c)]
  intro x
  rw [FG.cls, D.one]
  constructor
  · rintro ⟨p, hp, h1, rfl⟩
    rw [List.mem_singleton] at h1
    subst h1
    exact mem_outputs hp
  · intro h
    exact ⟨_, of_mem_outputs h, by simp, rfl⟩

/-- The inputs after conversion are those before. -/
theorem inputs_same {g : Grid} {n : Nat} {fresh : Nat → Nat} {c : Attr} (D : ClassData g n (Conv.float fresh g.allAttributes) c)
    {ins : List Attr} (h : ins.Perm (convertToFloatInsts fresh g).normalAttrs) : InputsOf g c ins := by
  have FG := floatGrid D.toNetData
  obtain ⟨_, k1, _, _⟩ := C27_references (convertToFloatInsts fresh g).allAttributes (convertToFloatInsts fresh g).allClassAttributes
    _ ins (List.Perm.refl _) h
  refine ⟨k1, ?_⟩
  intro a
  rw [h.mem_iff, normal_floats FG]
  · rw [D.one, List.mem_singleton]
  · intro b hb hbc
    rw [D.one, List.mem_singleton] at hbc
    exact D.numbers b hb hbc

section
variable {K : Type} [Field K] [LinearOrder K]

theorem number_same {val : U64 → K} {g : Grid} {n : Nat} {fresh : Nat → Nat} (FG : FloatGrid g n fresh) {a : Attr}
    (ha : a ∈ g.allAttributes) (hf : a.isFloat = true) {r : Nat} (hr : r < n) :
    (convertToFloatInsts fresh g).number val a r = g.number val a r := by
  unfold Grid.number
  rw [(FG.same a ha hf).2 r hr]

theorem placed_congr {num num' : Attr → Nat → K} {first : Nat} {as : List Attr} {r : Nat} (h : ∀ a ∈ as, num a r = num' a r) :
    placed num first as r = placed num' first as r := by
  funext i
  unfold placed
  split
  · cases e : as[i - first]? with
    | none => rfl
    | some a => exact h a (List.mem_of_getElem? e)
  · rfl

theorem placed_neuron {num : Attr → Nat → K} {first : Nat} {cls outs : List Attr} {j : Nat} {a : Attr} (hj : outs[j]? = some a)
    (ha : a ∈ cls) (r : Nat) : placed num first cls r (neuronOf first cls outs j) = num a r := by
  have e : neuronOf first cls outs j = first + cls.idxOf a := by
    unfold neuronOf
    rw [hj, Option.elim_some]
  rw [e]
  unfold placed
  rw [if_pos (by omega), show first + cls.idxOf a - first = cls.idxOf a by omega,
    List.getElem?_eq_getElem (List.idxOf_lt_length_of_mem ha), List.getElem_idxOf]

/-- The numbers of the outputs of a class of at least three values. -/
theorem number_oneHot {val : U64 → K} (h1 : val f64One = 1) (h0 : val 0#64 = 0) {g : Grid} {n : Nat} {fresh : Nat → Nat} {c : Attr}
    {name : String} {vals : List String} (D : ClassData g n (Conv.float fresh g.allAttributes) c) (hc : c.body = .cat name vals)
    (hl : 2 < vals.length) {j : Nat} {a : Attr} (hj : (outputs (Conv.float fresh g.allAttributes).attrs c)[j]? = some a)
    {r : Nat} (hr : r < n) :
    (convertToFloatInsts fresh g).number val a r = if g.cell c r = stored j then 1 else 0 := by
  have hcm : c ∈ g.allAttributes := D.known c (by rw [D.one]; simp)
  have hnd := nodup_of_distinct D.distinct
  have hC : Convertible g n g.allAttributes (Conv.float fresh g.allAttributes) :=
    ⟨D.typed, hnd, fun a h => h, D.values, D.names, fun a h h' => absurd h h'⟩
  obtain ⟨hlen, hone⟩ := (C60_grid_partial fresh g n D.presents D.distinct g.allAttributes c hcm name vals hc hl).2 hC
  obtain ⟨_, v2, v3⟩ := D.values c hcm name vals hc
  obtain ⟨i, hi, hcell⟩ := v3 r hr
  obtain ⟨s, s1, s2⟩ := hone r hr i hi hcell j a hj
  have hc' : (convertToFloatInsts fresh g).cell a r = if i = j then packU64 f64One else packU64 0#64 := by
    show Grid.cell (Grid.newFiltered g _) a r = _
    unfold Grid.cell
    simp only [s1, s2]
  have hjl : j < vals.length := by
    rw [← hlen]
    exact (List.getElem?_eq_some_iff.1 hj).1
  have hst : g.cell c r = stored j ↔ i = j := by
    rw [hcell]
    constructor
    · intro h
      have h' : packU64 (BitVec.ofNat 64 i) = packU64 (BitVec.ofNat 64 j) := h
      have := congrArg unpackU64 h'
      rw [C01_unpack_pack, C01_unpack_pack, Res.ok.injEq] at this
      have := congrArg BitVec.toNat this
      simp only [BitVec.toNat_ofNat] at this
      rw [Nat.mod_eq_of_lt (by omega), Nat.mod_eq_of_lt (by omega)] at this
      exact this
    · rintro rfl; rfl
  unfold Grid.number
  rw [hc']
  by_cases hij : i = j
  · rw [if_pos hij, if_pos (hst.2 hij)]
    simp only [unpackFloatBits, C01_unpack_pack]
    exact h1
  · rw [if_neg hij, if_neg (fun h => hij (hst.1 h))]
    simp only [unpackFloatBits, C01_unpack_pack]
    exact h0

variable [IsStrictOrderedRing K]

theorem shape_inLayers {exp : K → K} {n : Network K} {ins outs : Nat} {layers : List Nat}
    (h : Shape exp (ins :: layers) (ins + layers.sum + outs) ins (layers.length + 1) n) : InLayers exp n ins layers outs :=
  ⟨h.size, h.input, h.inv.1, h.next.1, h.sigmoid⟩

theorem outs_length {g : Grid} {n : Nat} {fresh : Nat → Nat} {c : Attr} {name : String} {vals : List String}
    (D : ClassData g n (Conv.float fresh g.allAttributes) c) (hc : c.body = .cat name vals) :
    (outputs (Conv.float fresh g.allAttributes).attrs c).length = if vals.length ≤ 2 then 1 else vals.length := by
  have hcm : c ∈ g.allAttributes := D.known c (by rw [D.one]; simp)
  have hnd := nodup_of_distinct D.distinct
  obtain ⟨v1, v2, _⟩ := D.values c hcm name vals hc
  have := C60_float fresh g.allAttributes hnd c hcm name vals hc v1 v2
  by_cases h : vals.length ≤ 2
  · rw [if_pos h] at this ⊢
    obtain ⟨x, hx, _⟩ := this
    rw [hx]; rfl
  · rw [if_neg h] at this ⊢
    obtain ⟨ns, hx, hl, _⟩ := this
    rw [hx, hl]

end

end Golearn

namespace Golearn
section
variable {K : Type} [Field K] [LinearOrder K]

theorem maxLoop_panic (size : Nat) (out : Nat → K) (l : List Nat) (i : Nat) (hi : i ∈ l) (h : size ≤ i) (mi : Nat) (mv : K) :
    maxLoop size out l mi mv = Res.panic := by
  induction l generalizing mi mv with
  | nil => cases hi
  | cons j js ih =>
    simp only [maxLoop]
    by_cases hj : j < size
    · rw [if_pos hj]
      have : i ∈ js := by
        rcases List.mem_cons.1 hi with rfl | h'
        · omega
        · exact h'
      split
      · exact ih this _ _
      · exact ih this _ _
    · rw [if_neg hj]

theorem buildInput_panic {val : U64 → K} {size : Nat} {at' : GoMap Attr Nat} {sp : Attr → Spec} {cell : Attr → Bytes}
    (fs : List Attr) (hsp : ∀ a ∈ fs, (sp a).attr = a) (hnum : ∀ a ∈ fs, ∃ u, unpackFloatBits (cell a) = Res.ok u)
    {b : Attr} (hb : b ∈ fs) (hn : at'.get? b = none) (x : Nat → K) :
    buildInput val size at' (fs.map fun a => (sp a, cell a)) x = Res.panic := by
  induction fs generalizing x with
  | nil => cases hb
  | cons a as ih =>
    obtain ⟨u, hu⟩ := hnum a (by simp)
    simp only [List.map_cons, buildInput, hsp a (by simp), hu, Res.bind_ok]
    cases hg : at'.get? a with
    | none => rfl
    | some i =>
      have hb' : b ∈ as := by
        rcases List.mem_cons.1 hb with rfl | h
        · rw [hn] at hg; cases hg
        · exact h
      simp only
      unfold vecSet
      split
      · rw [Res.bind_ok]
        exact ih (fun a h => hsp a (by simp [h])) (fun a h => hnum a (by simp [h])) hb' _
      · rfl

/-- Prediction panics if it does so for the first row. -/
theorem predict_panic {val : U64 → K} {bits : K → U64} {srt : List Spec → List Spec} (hsrt : PositionSort srt) (pg : Nat)
    {run : NetRun K} {m : MLNet K} {what : Grid} {nW : Nat} (FW : FloatGrid what nW run.fresh) (ho : what.RowOrder (run.order 0))
    (hrow : 0 < nW) {cw : Attr} (hcw : what.allClassAttributes = [cw]) (hcat : cw.isCat = true) (hrows : what.size.2 = nW)
    (hperm : (run.inputs (convertToFloatInsts run.fresh what).normalAttrs).Perm (convertToFloatInsts run.fresh what).normalAttrs)
    {n : Network K} (hnet : m.network = some n)
    (hpanic : ∀ (fs : List Attr) (sp : Attr → Spec) (cell : Attr → Bytes),
      (∀ a, a ∈ fs ↔ a ∈ (convertToFloatInsts run.fresh what).normalAttrs) → (∀ a ∈ fs, (sp a).attr = a) →
      (∀ a ∈ fs, ∃ u, unpackFloatBits (cell a) = Res.ok u) →
      ((buildInput val n.size m.attrs (fs.map fun a => (sp a, cell a)) fun _ => 0).bind fun x =>
        maxLoop n.size (n.activate (2 + m.layers.length) x) ((List.range m.classAttrCount).map (m.classAttrOffset + ·)) 0 0) = Res.panic) :
    m.predict val bits srt pg run what = Res.panic := by
  have hbin : cw.isBin = false := by
    obtain ⟨p, b⟩ := cw
    cases b <;> first | rfl | cases hcat
  have hflo : cw.isFloat = false := by
    obtain ⟨p, b⟩ := cw
    cases b <;> first | rfl | cases hcat
  obtain ⟨ret, g1, g2, _⟩ := generate_any pg hbin hrows hcw
  set insts := convertToFloatInsts run.fresh what with hinsts
  set num := run.inputs insts.normalAttrs with hnum
  have hall : ∀ a ∈ num, a ∈ insts.allAttributes := by
    intro a ha
    obtain ⟨_, _, _, k2⟩ := C27_references insts.allAttributes insts.allClassAttributes _ _ (List.Perm.refl _) (List.Perm.refl _)
    have : a ∈ attrDifferenceRefs insts.allAttributes insts.allClassAttributes := hperm.subset ha
    exact ((k2 a).1 this).1
  obtain ⟨fs, f1, f2⟩ := positionSort_attrs hsrt num
  obtain ⟨sp, x1, x2⟩ := features_spec FW.presents FW.typed (num := num)
    (fun a ha => ⟨a, hall a ha, C28_equals_refl a, rfl⟩) (fun a ha => FW.floats a (hall a ha))
  obtain ⟨x3, x4⟩ := x2 fs (fun a ha => f1.subset ha)
  obtain ⟨specs, y1, y2, _⟩ := resolveUnsorted_attrs FW.presents (as := num) hall
  rw [x1] at y1
  simp only [Res.ok.injEq] at y1
  rw [← y1, List.map_map] at y2
  have hsp : ∀ a ∈ num, (sp a).attr = a := fun a ha => List.map_inj_left.1 (y2.trans (List.map_id _).symm) a ha
  have r1 : insts.resolve srt num = Res.ok (fs.map sp) := by
    unfold Grid.resolve
    rw [x1, Res.map_ok, f2]
  have hord := FW.presents.order _ (convert_order run.fresh ho)
  obtain ⟨q, qs, hq⟩ : ∃ q qs, run.order 0 = q :: qs := by
    cases e : run.order 0 with
    | nil =>
      rw [e] at hord
      have := hord.length_eq
      simp at this
      omega
    | cons q qs => exact ⟨q, qs, rfl⟩
  have hqn : q < nW := List.mem_range.1 (hord.subset (by rw [hq]; simp))
  unfold MLNet.predict
  rw [g1, Res.bind_ok, g2.classes]
  simp only [List.any_cons, List.any_nil, hbin, List.countP_cons, List.countP_nil, hflo, hcat, hnet]
  rw [if_neg (by simp), if_neg (by simp), if_neg (by simp)]
  rw [r1, Res.bind_ok, resolve_predVec hsrt g2, Res.bind_ok]
  unfold Grid.mapOverRows
  rw [x3, Res.bind_ok, hq]
  unfold mapOver
  rw [(x4 q hqn).1, Res.bind_ok]
  have hp := hpanic fs sp (fun a => insts.cell a q) (fun a => (f1.mem_iff).trans hperm.mem_iff) (fun a ha => hsp a (f1.subset ha)) (by
    intro a ha
    exact unpack_typed FW.typed (hall a (f1.subset ha)) (FW.floats a (hall a (f1.subset ha))) hqn)
  have hcb : predictCallback val bits m n (decide (0 < 0 + (if false = true then 1 else 0))) (fs.map sp) [⟨some 0, 0, cw⟩] ret
      (fs.map fun a => insts.cell a q) q = Res.panic := by
    unfold predictCallback
    rw [List.zip_map']
    cases hb : buildInput val n.size m.attrs (fs.map fun a => (sp a, insts.cell a q)) (fun _ => 0) with
    | panic => rfl
    | err => rw [hb] at hp; cases hp
    | ok x =>
      rw [hb, Res.bind_ok] at hp
      rw [Res.bind_ok]
      simp only [Bool.false_eq_true, if_false, add_zero, lt_irrefl, decide_false]
      rw [hp]
      rfl
  rw [hcb]
  rfl

end

open Conv in
/-- Every converted attribute is a float left as it is, or has a new address. -/
theorem trainFloat_fresh (fresh : Nat → Nat) (attrs : List Attr) (c : Conv) (k : Nat) :
    ∀ p ∈ (trainFloat fresh c k attrs).converted, p ∈ c.converted ∨ p.old.isFloat = true ∨ ∃ i, p.new.ptr = fresh i := by
  induction attrs generalizing c k with
  | nil => intro p hp; exact Or.inl hp
  | cons a rest ih =>
    obtain ⟨q, b⟩ := a
    cases b with
    | float nm pr =>
      intro p hp
      simp only [trainFloat] at hp
      rcases ih _ _ p hp with h | h
      · simp only [List.mem_append, List.mem_singleton] at h
        rcases h with h | rfl
        · exact Or.inl h
        · exact Or.inr (Or.inl rfl)
      · exact Or.inr h
    | bin nm =>
      intro p hp
      simp only [trainFloat] at hp
      rcases ih _ _ p hp with h | h
      · simp only [List.mem_append, List.mem_singleton] at h
        rcases h with h | rfl
        · exact Or.inl h
        · exact Or.inr (Or.inr ⟨k, rfl⟩)
      · exact Or.inr h
    | cat nm vals =>
      intro p hp
      simp only [trainFloat] at hp
      rcases ih _ _ p hp with h | h
      · unfold trainCat at h
        split at h
        · simp only [List.mem_append, List.mem_singleton] at h
          rcases h with h | rfl
          · exact Or.inl h
          · exact Or.inr (Or.inr ⟨k, rfl⟩)
        · simp only [List.mem_append, List.mem_map] at h
          rcases h with h | ⟨x, hx, rfl⟩
          · exact Or.inl h
          · refine Or.inr (Or.inr ?_)
            have key : ∀ (vs : List String) (k : Nat), ∀ x ∈ oneHot (fun n => AttrBody.float n 2) fresh nm k vs, ∃ i, x.ptr = fresh i := by
              intro vs
              induction vs with
              | nil => intro k x hx; cases hx
              | cons v vs ihv =>
                intro k x hx
                simp only [oneHot, List.mem_cons] at hx
                rcases hx with rfl | hx
                · exact ⟨k, rfl⟩
                · exact ihv _ _ hx
            exact key _ _ x hx
      · exact Or.inr h

end Golearn
